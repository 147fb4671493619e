import Verif.Examples
import Verif.Lemmas.TotalCost
import Verif.Lemmas.FrozenMap
import Verif.Lemmas.Cost

/-
C72: what it costs to look up all keys of a map, and what a lookup of an absent key costs.
-/

set_option autoImplicit false

namespace FC
variable {K V Q : Type}

/-! ### C72 -/

/-- General hash maps: one comparison for each key, and one more for each pair of keys that share a
slot. An absent key is compared with exactly the keys whose slot it shares. -/
theorem C72_common_map [Target] (env : Env) (S : IdxTy) (P : Probe K Q) (heq : LawfulEq P.eq)
    (enc : K → List HCall) (henc : ∀ k, P.enc (P.borrow k) = enc k) (payload : List (K × V))
    (bh : Hasher) (m : CommonMap K V) (hm : CommonMap.fromVecWithHasher env S enc payload bh = .ok m)
    (h32 : payload.length < 2 ^ 32) (r : HashAnalysis)
    (hr : analyzeHashCodes (payload.map (fun e => bh (enc e.1))) = .ok r) :
    (DistinctKeys (fun a b => P.eq (P.borrow a) (P.borrow b)) payload →
      FindsAll (fun k => m.getKeyValueCounted P (P.borrow k)) payload
        (payload.length + sharing r.numHashSlots (payload.map (fun e => bh (enc e.1))))) ∧
    ∀ q, (∀ e ∈ payload, P.eq q (P.borrow e.1) = false) →
      m.getKeyValueCounted P q = .ok (none, ((payload.map (fun e => bh (enc e.1))).filter
        (fun d => d % r.numHashSlots = bh (P.enc q) % r.numHashSlots)).length) := by
  unfold CommonMap.fromVecWithHasher at hm
  simp only [Res.bind_eq_ok, Res.pure_eq, Res.ok.injEq] at hm
  obtain ⟨r', hr', t, ht, rfl⟩ := hm
  rw [hr] at hr'
  cases hr'
  refine ⟨fun hd =>
    (new_finds_all ht h32 (code := fun k => bh (enc k)) (fun _ _ => rfl) heq hd).congr
    (fun e _ => ?_), fun q hq => new_miss ht h32 (code := fun k => bh (enc k)) (fun _ _ => rfl) hq _⟩
  show tableCounted P.eq P.borrow t (bh (P.enc (P.borrow e.1))) (P.borrow e.1) = _
  rw [henc]

example := (C72_common_map checkedEnv IdxTy.u8 otherTy.probe otherTy_lawful.eq otherTy.enc (fun _ => rfl) exOther
  demoHasher _ exCommon_ok (by decide) _ (Res.built (by decide +kernel))).1 exOther_distinct

/-- Integer maps, whose codes are the values. -/
theorem C72_integer_map [Target] (env : Env) (S : IdxTy) (payload : List (Int × V))
    (m : IntegerMap V)
    (hm : IntegerMap.fromVec env S payload = .ok m) (h32 : payload.length < 2 ^ 32)
    (r : HashAnalysis) (hr : analyzeHashCodes (payload.map (fun e => asU64 e.1)) = .ok r) :
    ((payload.map (·.1)).Nodup → FindsAll m.getKeyValueCounted payload
      (payload.length + sharing r.numHashSlots (payload.map (fun e => asU64 e.1)))) ∧
    ∀ q, (∀ e ∈ payload, q ≠ e.1) →
      m.getKeyValueCounted q = .ok (none, ((payload.map (fun e => asU64 e.1)).filter
        (fun d => d % r.numHashSlots = asU64 q % r.numHashSlots)).length) := by
  unfold IntegerMap.fromVec at hm
  simp only [Res.bind_eq_ok, Res.pure_eq, Res.ok.injEq] at hm
  obtain ⟨r', hr', t, ht, rfl⟩ := hm
  rw [hr] at hr'
  cases hr'
  have hd' : (payload.map (·.1)).Nodup →
      DistinctKeys (fun a b => IntegerMap.ieq (id a) (id b)) payload := by
    intro hd
    rw [List.Nodup, List.pairwise_map] at hd
    exact hd.imp (fun h => decide_eq_false h)
  exact ⟨fun hd => new_finds_all ht h32 (code := asU64) (fun _ _ => rfl) lawfulEq_decide (hd' hd),
    fun q hq => new_miss (eq := IntegerMap.ieq) (borrow := id) ht h32 (code := asU64)
      (fun _ _ => rfl) (fun e he => decide_eq_false (hq e he)) _⟩

example := (C72_integer_map checkedEnv IdxTy.u8 exOther _ exInteger_ok (by decide) _ (Res.built (by decide +kernel))).1 exOther_nodup

/-- Length maps, whose codes are the lengths. -/
theorem C72_length_map [Target] (env : Env) (S : IdxTy) (borrow : K → Q) (eq : Q → Q → Bool)
    (heq : LawfulEq eq) (lenK : K → Nat) (lenQ : Q → Nat) (hlen : ∀ k, lenQ (borrow k) = lenK k)
    (payload : List (K × V)) (m : LengthMap K V) (hm : LengthMap.fromVec env S lenK payload = .ok m)
    (h32 : payload.length < 2 ^ 32) (r : HashAnalysis)
    (hr : analyzeHashCodes (payload.map (fun e => lenK e.1)) = .ok r) :
    (DistinctKeys (fun a b => eq (borrow a) (borrow b)) payload →
      FindsAll (fun k => m.getKeyValueCounted borrow eq lenQ (borrow k)) payload
        (payload.length + sharing r.numHashSlots (payload.map (fun e => lenK e.1)))) ∧
    ∀ q, (∀ e ∈ payload, eq q (borrow e.1) = false) →
      m.getKeyValueCounted borrow eq lenQ q = .ok (none, ((payload.map (fun e => lenK e.1)).filter
        (fun d => d % r.numHashSlots = lenQ q % r.numHashSlots)).length) := by
  unfold LengthMap.fromVec at hm
  simp only [Res.bind_eq_ok, Res.pure_eq, Res.ok.injEq] at hm
  obtain ⟨r', hr', t, ht, rfl⟩ := hm
  rw [hr] at hr'
  cases hr'
  refine ⟨fun hd => (new_finds_all ht h32 (code := lenK) (fun _ _ => rfl) heq hd).congr
    (fun e _ => ?_), fun q hq => new_miss ht h32 (code := lenK) (fun _ _ => rfl) hq _⟩
  show tableCounted eq borrow t (lenQ (borrow e.1)) (borrow e.1) = _
  rw [hlen]

example := (C72_length_map checkedEnv IdxTy.u8 id (fun a b : Bytes => decide (a = b)) lawfulEq_decide List.length List.length
  (fun _ => rfl) exBytes _ exLengths_ok (by decide) _ (Res.built (by decide +kernel))).1 exBytes_distinct

/-- Left slice maps (built only from keys that reach the end of the range), whose codes are the hashes of that
range. An absent string too short for the range is compared with the keys of the first slot. -/
theorem C72_left_slice_map [Target] (env : Env) (S : IdxTy) (payload : List (Bytes × V))
    (a b : Nat) (hab : payload = [] → a ≤ b) (bh : Hasher) (m : LeftSliceMap V)
    (hm : LeftSliceMap.fromVecWithHasher env S payload a b bh = .ok m)
    (h32 : payload.length < 2 ^ 32) (r : HashAnalysis)
    (hr : analyzeHashCodes (payload.map (fun e => bh [.write ((e.1.drop a).take (b - a))])) = .ok r) :
    ((payload.map (·.1)).Nodup → FindsAll m.getKeyValueCounted payload (payload.length
      + sharing r.numHashSlots (payload.map (fun e => bh [.write ((e.1.drop a).take (b - a))])))) ∧
    ∀ q, (∀ e ∈ payload, q ≠ e.1) →
      m.getKeyValueCounted q = .ok (none,
        ((payload.map (fun e => bh [.write ((e.1.drop a).take (b - a))])).filter
        (fun d => d % r.numHashSlots = (if b ≤ q.length then bh [.write ((q.drop a).take (b - a))]
          else 0) % r.numHashSlots)).length) := by
  have hlong := LeftSliceMap.built_long hm
  replace hab : a ≤ b := LeftSliceMap.built_ordered hab hm
  have hcodes : Res.mapList (fun e : Bytes × V => LeftSliceMap.analysisCode bh a b e.1) payload
      = .ok (payload.map (fun e => bh [.write (sub e.1 a b)])) := by
    apply Res.mapList_ok
    intro e he
    unfold LeftSliceMap.analysisCode
    rw [if_pos (hlong e he), sliceHash_ok hab (hlong e he)]
  unfold LeftSliceMap.fromVecWithHasher at hm
  simp only [Res.bind_eq_ok, Res.pure_eq, Res.ok.injEq] at hm
  obtain ⟨codes, hc, r', hr', t, ht, rfl⟩ := hm
  rw [hcodes] at hc
  cases hc
  have hrr : r' = r := Res.ok.inj (hr'.symm.trans hr)
  subst hrr
  have hcode : ∀ e ∈ payload, sliceHash bh e.1 a b = .ok (bh [.write (sub e.1 a b)]) :=
    fun e he => sliceHash_ok hab (hlong e he)
  have hd' : (payload.map (·.1)).Nodup →
      DistinctKeys (fun a b => beq (id a) (id b)) payload := by
    intro hd
    rw [List.Nodup, List.pairwise_map] at hd
    exact hd.imp (fun h => by simpa [beq] using h)
  have hq : ∀ q : Bytes, LeftSliceMap.getKeyValueCounted ⟨t, bh, a, b⟩ q = tableCounted beq id t
      (if b ≤ q.length then bh [.write (sub q a b)] else 0) q := by
    intro q
    unfold LeftSliceMap.getKeyValueCounted LeftSliceMap.getHashInfo tableCounted
    by_cases h : b ≤ q.length
    · rw [if_pos h, if_pos h, sliceHash_ok hab h]
      rfl
    · rw [if_neg h, if_neg h]
      rfl
  refine ⟨fun hd => (new_finds_all ht h32 (code := fun k => bh [.write (sub k a b)]) hcode
    lawfulEq_decide (hd' hd)).congr (fun e he => ?_), fun q hn => ?_⟩
  · rw [hq, if_pos (hlong e he)]
    rfl
  · rw [hq]
    exact new_miss (eq := beq) (borrow := id) ht h32 (code := fun k => bh [.write (sub k a b)]) hcode
      (fun e he => by simpa [beq] using hn e he) _

example := (C72_left_slice_map checkedEnv IdxTy.u8 exBytes 1 2 (by decide) demoHasher _ exLeftSlice_ok
  (by decide) _ (Res.built (by decide +kernel))).1 exBytes_nodup

/-- The linear scan: `n * (n + 1) / 2` comparisons to find all `n` keys, `n` for an absent one. -/
theorem C72_scanning_map (P : Probe K Q) (heq : LawfulEq P.eq) (payload : List (K × V)) :
    (DistinctKeys (fun a b => P.eq (P.borrow a) (P.borrow b)) payload →
      FindsAll (fun k => (ScanningMap.fromVec payload).getKeyValueCounted P (P.borrow k)) payload
        (payload.length * (payload.length + 1) / 2)) ∧
    ∀ q, (∀ e ∈ payload, P.eq q (P.borrow e.1) = false) →
      (ScanningMap.fromVec payload).getKeyValueCounted P q = .ok (none, payload.length) := by
  refine ⟨fun hd => ?_, fun q hq => congrArg Res.ok (scanCounted_miss _ _ _ _ hq 0)⟩
  have hsymm : ∀ a b : K × V, P.eq (P.borrow a.1) (P.borrow b.1) = false →
      P.eq (P.borrow b.1) (P.borrow a.1) = false := by
    intro a b h1
    cases h2 : P.eq (P.borrow b.1) (P.borrow a.1) with
    | false => rfl
    | true => rw [heq.symm _ _ h2] at h1; cases h1
  obtain ⟨counts, h1, h2⟩ := costs_from (code := fun _ : K × V => 0) (size := 1)
    (lookup := fun k => (ScanningMap.fromVec payload).getKeyValueCounted P (P.borrow k))
    (all := payload) (by
      intro pre e post hall
      refine ⟨0 + pre.length, ?_⟩
      rw [List.filter_eq_self.2 (by simp)]
      show Res.ok (scanCounted P.eq P.borrow (P.borrow e.1) 0 payload) = _
      have hd' := hd
      rw [hall] at hd'
      rw [hall]
      exact congrArg Res.ok (scanCounted_hit P.eq P.borrow _ pre e post (fun x hx =>
        hsymm _ _ ((List.pairwise_append.1 hd').2.2 x hx e (by simp))) (heq.refl _) 0))
    payload [] rfl
  have hs : ∀ l : List (K × V), 2 * (l.length + sharing 1 (l.map (fun _ => 0)))
      = l.length * (l.length + 1) := by
    intro l
    induction l with
    | nil => rfl
    | cons e l ih =>
      simp only [List.map_cons, sharing, List.length_cons]
      rw [List.filter_eq_self.2 (by simp), List.length_map]
      generalize sharing 1 (List.map (fun _ => 0) l) = x at *
      generalize l.length = n at *
      calc 2 * (n + 1 + (n + x)) = 2 * (n + x) + 2 * (n + 1) := by ring
        _ = n * (n + 1) + 2 * (n + 1) := by rw [ih]
        _ = _ := by ring
  refine ⟨counts, ?_, h1⟩
  have := hs payload
  simp only [List.map_nil, sharing, Nat.add_zero] at h2
  omega

example := (C72_scanning_map otherTy.probe otherTy_lawful.eq exOther).1 exOther_distinct

/-- The pairs sharing a slot of the table that the analysis recommends are few if it reports few
collisions, and none if it reports none. -/
theorem C72_few_collisions (codes : List Nat) (r : HashAnalysis)
    (hr : analyzeHashCodes codes = .ok r) :
    sharing r.numHashSlots codes ≤ r.numHashCollisions * (r.numHashCollisions + 1) / 2 := by
  by_cases hne : codes = []
  · subst hne
    simp [sharing]
  · obtain ⟨r', hr', _, _, _, hc, _⟩ := analyze_spec codes hne
    rw [hr] at hr'
    cases hr'
    have := sharing_le r.numHashSlots codes
    rw [hc]
    unfold distinctResidues
    omega

example := C72_few_collisions [3, 8, 13, 4, 9, 2] _ (Res.built (by decide +kernel))

/-- Counting changes no answer. -/
theorem C72_same_answers [Target] (env : Env) (ty : KeyTy K) (m : FrozenMap K V) (k : K) :
    (m.getKeyValueCounted env ty k).map Prod.fst = m.getKeyValue env ty k := by
  have hmap : ∀ {A B : Type} (f : A → B) (x : Res (A × Nat)),
      (x.map (Prod.map f id)).map Prod.fst = (x.map Prod.fst).map f := by
    intro A B f x
    cases x <;> rfl
  have htab : ∀ {A : Type} {eq : A → A → Bool} (T : HashTable A V) (code : Nat) (q : A),
      (tableCounted eq id T code q).map Prod.fst = tableLookup eq id T code q :=
    fun T code q => tableCounted_fst _ id T code q
  cases m with
  | scanning m => exact congrArg Res.ok (scanCounted_fst _ _ _ _ _)
  | commonSmall m => exact htab m.table _ k
  | commonLarge m => exact htab m.table _ k
  | u32Small m => exact (hmap _ _).trans (congrArg _ (htab m.table _ _))
  | u32Large m => exact (hmap _ _).trans (congrArg _ (htab m.table _ _))
  | u32Range m =>
    refine (hmap _ _).trans (congrArg _ ?_)
    unfold IntegerRangeMap.getKeyValueCounted
    cases m.getKeyValue env.oc IntTy.u32 (ty.toInt k) <;> rfl
  | leftSmall m | leftLarge m =>
    refine (hmap _ _).trans (congrArg _ ?_)
    unfold LeftSliceMap.getKeyValueCounted LeftSliceMap.getKeyValue
    cases m.getHashInfo (ty.toB k) with
    | ok r =>
      simp only [Res.ok_bind]
      cases sliceUnchecked m.table.entries r.1 r.2 with
      | ok es => simp [scanCounted_fst]
      | panic => rfl
      | ub => rfl
    | panic => rfl
    | ub => rfl
  | rightSmall m | rightLarge m =>
    refine (hmap _ _).trans (congrArg _ ?_)
    unfold RightSliceMap.getKeyValueCounted RightSliceMap.getKeyValue
    cases m.getHashInfo env.oc (ty.toB k) with
    | ok r =>
      simp only [Res.ok_bind]
      cases sliceUnchecked m.table.entries r.1 r.2 with
      | ok es => simp [scanCounted_fst]
      | panic => rfl
      | ub => rfl
    | panic => rfl
    | ub => rfl
  | lengthSmall m => exact (hmap _ _).trans (congrArg _ (htab m.table _ _))

/-- `FrozenMap` with four entries or more whose keys are filed by a code. -/
theorem C72_frozen_map [Target] (env : Env) (ty : KeyTy K) (hty : LawfulKey ty)
    (payload : List (K × V)) (bh : Hasher) (m : FrozenMap K V)
    (hm : FrozenMap.new env ty payload bh = .ok m) (h32 : payload.length < 2 ^ 32)
    (h4 : 4 ≤ payload.length) (code : K → Nat)
    (hf : filedBy env.oc ty bh (payload.map (·.1)) = some code) (r : HashAnalysis)
    (hr : analyzeHashCodes (payload.map (fun e => code e.1)) = .ok r) :
    (DistinctKeys ty.eq payload → FindsAll (m.getKeyValueCounted env ty) payload
      (payload.length + sharing r.numHashSlots (payload.map (fun e => code e.1)))) ∧
    ∀ q, ¬Present ty.eq payload q →
      m.getKeyValueCounted env ty q = .ok (none, ((payload.map (fun e => code e.1)).filter
        (fun d => d % r.numHashSlots = code q % r.numHashSlots)).length) := by
  have habs : ∀ q, ¬Present ty.eq payload q → ∀ e ∈ payload, ty.eq q e.1 = false := by
    intro q hq e he
    cases h : ty.eq q e.1 with
    | false => rfl
    | true => exact (hq ⟨e, he, h⟩).elim
  have hcommon : ∀ {S : IdxTy} {m' : CommonMap K V},
      CommonMap.fromVecWithHasher env S ty.enc payload bh = .ok m' →
      code = (fun k => bh (ty.enc k)) →
      (DistinctKeys ty.eq payload → FindsAll (fun k => m'.getKeyValueCounted ty.probe k) payload
        (payload.length + sharing r.numHashSlots (payload.map (fun e => code e.1)))) ∧
      ∀ q, ¬Present ty.eq payload q →
        m'.getKeyValueCounted ty.probe q = .ok (none, ((payload.map (fun e => code e.1)).filter
          (fun d => d % r.numHashSlots = code q % r.numHashSlots)).length) := by
    intro S m' hm' hcode
    subst hcode
    obtain ⟨h1, h2⟩ := C72_common_map env S ty.probe hty.eq ty.enc (fun _ => rfl) payload bh m' hm'
      h32 r hr
    exact ⟨h1, fun q hq => h2 q (habs q hq)⟩
  have hne : payload ≠ [] := by rintro rfl; simp at h4
  unfold FrozenMap.new at hm
  rw [if_neg (by omega)] at hm
  unfold filedBy at hf
  cases hk : ty.kind with
  | other =>
    simp only [hk, FrozenMap.newCommonMap] at hm
    simp only [hk, Option.some.injEq] at hf
    split at hm <;>
    · simp only [Res.bind_eq_ok, Res.pure_eq, Res.ok.injEq] at hm
      obtain ⟨m', hm', rfl⟩ := hm
      exact hcommon hm' hf.symm
  | u32 f g =>
    have hl := hty.kind
    rw [hk] at hl
    obtain ⟨h1, h2, h3⟩ := hl
    have hto : ∀ k, ty.toInt k = f k := fun k => by simp only [KeyTy.toInt, hk]
    have hof : ∀ (k : K) (x : Ref V), ty.ofIntKV (some (f k, x)) = some (k, x) := fun k x => by
      simp [KeyTy.ofIntKV, hk, h1]
    have hofn : ty.ofIntKV (none : Option (Int × Ref V)) = none := by simp [KeyTy.ofIntKV, hk]
    simp only [hk, FrozenMap.newU32Map, Res.bind_eq_ok] at hm
    obtain ⟨v, hv, hm⟩ := hm
    have hkeys : (payload.map (fun e => (f e.1, e.2))).map (·.1) = (payload.map (·.1)).map f := by
      simp
    rw [hkeys] at hv
    have hd' : DistinctKeys ty.eq payload →
        ((payload.map (fun e => (f e.1, e.2))).map (·.1)).Nodup := by
      intro hd
      rw [List.map_map, List.Nodup, List.pairwise_map]
      exact hd.imp (fun h => by simpa [h3] using h)
    cases v with
    | range =>
      simp only [hk] at hf
      rw [if_pos hv] at hf
      cases hf
    | normal =>
      simp only [hk, hv, Res.ok.injEq, reduceCtorEq, if_false, Option.some.injEq] at hf
      subst hf
      have hcodes : (payload.map (fun e => (f e.1, e.2))).map (fun e => asU64 e.1)
          = payload.map (fun e => asU64 (f e.1)) := by simp
      have hint : ∀ {S : IdxTy} {m' : IntegerMap V},
          IntegerMap.fromVec env S (payload.map (fun e => (f e.1, e.2))) = .ok m' →
          (DistinctKeys ty.eq payload →
            FindsAll (fun k => (m'.getKeyValueCounted (ty.toInt k)).map (Prod.map ty.ofIntKV id))
              payload (payload.length
                + sharing r.numHashSlots (payload.map (fun e => asU64 (f e.1))))) ∧
          ∀ q, ¬Present ty.eq payload q →
            (m'.getKeyValueCounted (ty.toInt q)).map (Prod.map ty.ofIntKV id)
              = .ok (none, ((payload.map (fun e => asU64 (f e.1))).filter
              (fun d => d % r.numHashSlots = asU64 (f q) % r.numHashSlots)).length) := by
        intro S m' hm'
        obtain ⟨a1, a2⟩ := C72_integer_map env S _ m' hm' (by simpa using h32) r
          (by rw [hcodes]; exact hr)
        rw [hcodes, List.length_map] at a1
        rw [hcodes] at a2
        refine ⟨fun hd => (a1 (hd' hd)).map (f := f) (fun k v i n h => ?_), fun q hq => ?_⟩
        · simp only [hto]
          rw [h]
          simp [hof]
        · simp only [hto]
          rw [a2 (f q) ?_]
          · simp [hofn]
          · intro e he
            obtain ⟨e', he', rfl⟩ := List.mem_map.1 he
            have := habs q hq e' he'
            simpa [h3] using this
      simp only at hm
      split at hm <;>
      · simp only [Res.bind_eq_ok, Res.pure_eq, Res.ok.injEq] at hm
        obtain ⟨m', hm', rfl⟩ := hm
        exact hint hm'
  | string f g =>
    have hl := hty.kind
    rw [hk] at hl
    obtain ⟨h1, h2, h3⟩ := hl
    have hto : ∀ k, ty.toB k = f k := fun k => by simp only [KeyTy.toB, hk]
    have hof : ∀ (k : K) (x : Ref V), ty.ofBKV (some (f k, x)) = some (k, x) := fun k x => by
      simp [KeyTy.ofBKV, hk, h1]
    have hofn : ty.ofBKV (none : Option (Bytes × Ref V)) = none := by simp [KeyTy.ofBKV, hk]
    have hkeys : (payload.map (fun e => (f e.1, e.2))).map (·.1) = (payload.map (·.1)).map f := by
      simp
    have hback : (payload.map (fun e => (f e.1, e.2))).map (fun e => (g e.1, e.2)) = payload := by
      rw [List.map_map]
      have : ((fun e : Bytes × V => (g e.1, e.2)) ∘ fun e : K × V => (f e.1, e.2)) = id := by
        funext e; simp [h1]
      rw [this, List.map_id]
    have hne' : (payload.map (·.1)).map f ≠ [] := by simpa using hne
    have hlt : ∀ k ∈ (payload.map (·.1)).map f, k.length < usz := by
      intro k hk
      obtain ⟨k', _, rfl⟩ := List.mem_map.1 hk
      have := h2 k'
      omega
    have hd' : DistinctKeys ty.eq payload →
        ((payload.map (fun e => (f e.1, e.2))).map (·.1)).Nodup := by
      intro hd
      rw [List.map_map, List.Nodup, List.pairwise_map]
      exact hd.imp (fun h => by simpa [h3] using h)
    have hd'' : DistinctKeys ty.eq payload →
        DistinctKeys (fun a b => beq (id a) (id b)) (payload.map (fun e => (f e.1, e.2))) := by
      intro hd
      have hd' := hd' hd
      rw [List.Nodup, List.pairwise_map] at hd'
      exact hd'.imp (fun h => decide_eq_false h)
    have hnot : ∀ q, ¬Present ty.eq payload q →
        ∀ e ∈ payload.map (fun e => (f e.1, e.2)), f q ≠ e.1 := by
      intro q hq e he
      obtain ⟨e', he', rfl⟩ := List.mem_map.1 he
      have := habs q hq e' he'
      simpa [h3] using this
    simp only [hk, FrozenMap.newStringMap, hback, hkeys, List.length_map, Res.bind_eq_ok] at hm
    obtain ⟨v, hv, hm⟩ := hm
    simp only [hk, hv] at hf
    have hleft : ∀ {S : IdxTy} {i l : Nat} {m' : LeftSliceMap V}, v = .left i l →
        LeftSliceMap.fromVecWithHasher env S (payload.map (fun e => (f e.1, e.2))) i (i + l) bh
          = .ok m' →
        (DistinctKeys ty.eq payload →
          FindsAll (fun k => (m'.getKeyValueCounted (ty.toB k)).map (Prod.map ty.ofBKV id)) payload
            (payload.length + sharing r.numHashSlots (payload.map (fun e => code e.1)))) ∧
        ∀ q, ¬Present ty.eq payload q →
          (m'.getKeyValueCounted (ty.toB q)).map (Prod.map ty.ofBKV id)
            = .ok (none, ((payload.map (fun e => code e.1)).filter
            (fun d => d % r.numHashSlots = code q % r.numHashSlots)).length) := by
      intro S i l m' hvl hm'
      subst hvl
      simp only [Option.some.injEq] at hf
      subst hf
      have hin := (left_verdict_in_bounds hne' hlt hv).2.2
      have hin' : ∀ e ∈ payload, i + l ≤ (f e.1).length := fun e he =>
        hin _ (List.mem_map.2 ⟨e.1, List.mem_map.2 ⟨e, he, rfl⟩, rfl⟩)
      have hcodes : (payload.map (fun e => (f e.1, e.2))).map
            (fun e => bh [.write ((e.1.drop i).take (i + l - i))])
          = payload.map (fun e => if i + l ≤ (f e.1).length
              then bh [.write (((f e.1).drop i).take l)] else 0) := by
        rw [List.map_map]
        refine List.map_congr_left (fun e he => ?_)
        rw [if_pos (hin' e he)]
        simp
      obtain ⟨a1, a2⟩ := C72_left_slice_map env S _ i (i + l) (by omega) bh m' hm'
        (by simpa using h32) r (by rw [hcodes]; exact hr)
      rw [hcodes, List.length_map] at a1
      rw [hcodes] at a2
      refine ⟨fun hd => (a1 (hd' hd)).map (f := f) (fun k v i n h => ?_), fun q hq => ?_⟩
      · simp only [hto]
        rw [h]
        simp [hof]
      · simp only [hto]
        rw [a2 (f q) (hnot q hq)]
        simp [hofn]
    have hright : ∀ {S : IdxTy} {i l : Nat} {m' : RightSliceMap V}, v = .right i l →
        RightSliceMap.fromVecWithHasher env S (payload.map (fun e => (f e.1, e.2))) i (i + l) bh
          = .ok m' → False := by
      intro S i l m' hvr hm'
      subst hvr
      obtain ⟨rfl, hin⟩ := right_verdict_in_bounds hne' hlt hv
      obtain ⟨k, hk'⟩ := List.exists_mem_of_ne_nil _ hne'
      have hb : i + 1 < usz := lt_of_le_of_lt (hin k hk') (hlt k hk')
      exact RightSliceMap.fromVec_never_ok env (by omega) hb (by simpa using hne) bh _ hm'
    split at hm
    · rename_i h255
      cases v with
      | normal =>
        simp only [Res.bind_eq_ok, Res.pure_eq, Res.ok.injEq] at hm
        obtain ⟨m', hm', rfl⟩ := hm
        exact hcommon hm' (Option.some.inj hf).symm
      | left i l =>
        simp only [Res.bind_eq_ok, Res.pure_eq, Res.ok.injEq] at hm
        obtain ⟨m', hm', rfl⟩ := hm
        exact hleft rfl hm'
      | right i l =>
        simp only [Res.bind_eq_ok, Res.pure_eq, Res.ok.injEq] at hm
        obtain ⟨m', hm', rfl⟩ := hm
        exact (hright rfl hm').elim
      | length =>
        simp only [Res.bind_eq_ok, Res.pure_eq, Res.ok.injEq] at hm
        obtain ⟨m', hm', rfl⟩ := hm
        simp only [List.length_map, if_pos h255, Option.some.injEq] at hf
        subst hf
        have hcodes : (payload.map (fun e => (f e.1, e.2))).map (fun e => e.1.length)
            = payload.map (fun e => (f e.1).length) := by simp
        obtain ⟨a1, a2⟩ := C72_length_map env IdxTy.u8 id beq lawfulEq_decide List.length List.length
          (fun _ => rfl) _ m' hm' (by simpa using h32) r (by rw [hcodes]; exact hr)
        rw [hcodes, List.length_map] at a1
        rw [hcodes] at a2
        refine ⟨fun hd => (a1 (hd'' hd)).map (f := f) (fun k v i n h => ?_), fun q hq => ?_⟩
        · simp only [FrozenMap.getKeyValueCounted, hto]
          have h' : m'.getKeyValueCounted id beq List.length (f k) = _ := h
          rw [h']
          simp [hof]
        · simp only [FrozenMap.getKeyValueCounted, hto]
          rw [a2 (f q) (fun e he => decide_eq_false (hnot q hq e he))]
          simp [hofn]
    · rename_i h255
      cases v with
      | normal =>
        simp only [Res.bind_eq_ok, Res.pure_eq, Res.ok.injEq] at hm
        obtain ⟨m', hm', rfl⟩ := hm
        exact hcommon hm' (Option.some.inj hf).symm
      | length =>
        simp only [Res.bind_eq_ok, Res.pure_eq, Res.ok.injEq] at hm
        obtain ⟨m', hm', rfl⟩ := hm
        simp only [List.length_map, if_neg h255, Option.some.injEq] at hf
        exact hcommon hm' hf.symm
      | left i l =>
        simp only [Res.bind_eq_ok, Res.pure_eq, Res.ok.injEq] at hm
        obtain ⟨m', hm', rfl⟩ := hm
        exact hleft rfl hm'
      | right i l =>
        simp only [Res.bind_eq_ok, Res.pure_eq, Res.ok.injEq] at hm
        obtain ⟨m', hm', rfl⟩ := hm
        exact (hright rfl hm').elim

example := (C72_frozen_map checkedEnv stringTy stringTy_lawful exLeft demoHasher _ exMapLeft_ok (by decide) (by decide) _
  rfl _ (Res.built (by decide +kernel))).1 exLeft_distinct

/-- `FrozenMap` over contiguous `u32` keys: no stored key is ever compared. -/
theorem C72_frozen_map_range [Target] (env : Env) (ty : KeyTy K) (hty : LawfulKey ty)
    (payload : List (K × V)) (hd : DistinctKeys ty.eq payload) (bh : Hasher) (m : FrozenMap K V)
    (hm : FrozenMap.new env ty payload bh = .ok m) (h32 : payload.length < 2 ^ 32)
    (h4 : 4 ≤ payload.length) (hf : filedBy env.oc ty bh (payload.map (·.1)) = none) :
    FindsAll (m.getKeyValueCounted env ty) payload 0 ∧
    ∀ q, ¬Present ty.eq payload q → m.getKeyValueCounted env ty q = .ok (none, 0) := by
  have hb := new_built env hty h32 hm
  have hg : ∀ k, m.getKeyValue env ty k = .ok (scan ty.eq id k 0 (m.entries ty)) :=
    Good.getKeyValue hty (hb.good (Or.inr hd)) env
  have hrange : ∃ r, m = .u32Range r := by
    unfold FrozenMap.new at hm
    rw [if_neg (by omega)] at hm
    unfold filedBy at hf
    cases hk : ty.kind with
    | other => simp [hk] at hf
    | u32 f g =>
      simp only [hk, FrozenMap.newU32Map, Res.bind_eq_ok] at hm
      obtain ⟨v, hv, hm⟩ := hm
      have hkeys : (payload.map (fun e => (f e.1, e.2))).map (·.1) = (payload.map (·.1)).map f := by
        simp
      rw [hkeys] at hv
      cases v with
      | normal =>
        simp only [hk, hv] at hf
        rw [if_neg (by simp)] at hf
        cases hf
      | range =>
        simp only [Res.bind_eq_ok, Res.pure_eq, Res.ok.injEq] at hm
        obtain ⟨r, _, rfl⟩ := hm
        exact ⟨r, rfl⟩
    | string f g =>
      simp only [hk] at hf
      split at hf
      · cases hf
      · split at hf <;> cases hf
      · cases hf
  obtain ⟨r, rfl⟩ := hrange
  have hzero : ∀ k o, FrozenMap.getKeyValue env ty (.u32Range r) k = .ok o →
      FrozenMap.getKeyValueCounted env ty (.u32Range r) k = .ok (o, 0) := by
    intro k o h
    simp only [FrozenMap.getKeyValue] at h
    simp only [FrozenMap.getKeyValueCounted, IntegerRangeMap.getKeyValueCounted]
    cases hx : r.getKeyValue env.oc IntTy.u32 (ty.toInt k) with
    | ok x =>
      rw [hx] at h
      simp only [Res.map_ok, Res.ok.injEq] at h
      simp [h]
    | panic => rw [hx] at h; cases h
    | ub => rw [hx] at h; cases h
  have hsymm : ∀ {a b : K × V}, ty.eq a.1 b.1 = false → ty.eq b.1 a.1 = false := by
    intro a b h1
    cases h2 : ty.eq b.1 a.1 with
    | false => rfl
    | true => rw [hty.eq.symm _ _ h2] at h1; cases h1
  have hde : DistinctKeys ty.eq (FrozenMap.entries ty (.u32Range r)) :=
    (hb.perm.pairwise_iff (fun h => hsymm h)).2 hd
  refine ⟨⟨payload.map (fun _ => 0), by simp, ?_⟩, fun q hq => hzero _ _ ?_⟩
  · rw [List.forall₂_map_right_iff, List.forall₂_same]
    intro e he
    obtain ⟨pre, post, hsplit⟩ := List.append_of_mem (hb.perm.mem_iff.2 he)
    refine ⟨0 + pre.length, hzero _ _ ?_⟩
    rw [hg, hsplit, ← scanCounted_fst]
    rw [hsplit] at hde
    rw [scanCounted_hit ty.eq id e.1 pre e post (fun x hx =>
      hsymm ((List.pairwise_append.1 hde).2.2 x hx e (by simp))) (hty.eq.refl _) 0]
  · rw [hg, ← scanCounted_fst, scanCounted_miss]
    intro e he
    cases h : ty.eq q e.1 with
    | false => exact h
    | true => exact (hq ⟨e, hb.perm.mem_iff.1 he, h⟩).elim

example := C72_frozen_map_range checkedEnv u32Ty u32Ty_lawful exRange exRange_distinct demoHasher _ exMapRange_ok (by decide)
  (by decide) rfl

/-- `FrozenMap` with fewer than four entries: a linear scan. -/
theorem C72_frozen_map_small [Target] (env : Env) (ty : KeyTy K) (hty : LawfulKey ty)
    (payload : List (K × V)) (bh : Hasher) (m : FrozenMap K V)
    (hm : FrozenMap.new env ty payload bh = .ok m) (h4 : payload.length < 4) :
    (DistinctKeys ty.eq payload →
      FindsAll (m.getKeyValueCounted env ty) payload (payload.length * (payload.length + 1) / 2)) ∧
    ∀ q, ¬Present ty.eq payload q → m.getKeyValueCounted env ty q = .ok (none, payload.length) := by
  unfold FrozenMap.new at hm
  rw [if_pos h4] at hm
  cases hm
  obtain ⟨h1, h2⟩ := C72_scanning_map ty.probe hty.eq payload
  refine ⟨h1, fun q hq => h2 q (fun e he => ?_)⟩
  cases h : ty.eq q e.1 with
  | false => exact h
  | true => exact (hq ⟨e, he, h⟩).elim

example := (C72_frozen_map_small checkedEnv u32Ty u32Ty_lawful exScan demoHasher _ rfl (by decide)).1 exScan_distinct

/-! Maps of five keys: all filed in one slot, each in its own, by value, and contiguous; strings told
apart by length and by a range. -/

example : (∃ m, FrozenMap.new checkedEnv otherTy exOther (fun _ => 3) = .ok m) ∧
    DistinctKeys otherTy.eq exOther ∧
    analyzeHashCodes (exOther.map (fun _ => 3)) = .ok ⟨5, 4⟩ ∧
    sharing 5 (exOther.map (fun _ => 3)) = 10 :=
  ⟨Res.of_isOk (by decide +kernel), exOther_distinct, by decide +kernel, by decide +kernel⟩

example : (filedBy true otherTy (fun _ => 3) (exOther.map (·.1))).map
      (fun code => exOther.map (fun e => code e.1)) = some [3, 3, 3, 3, 3] ∧
    (filedBy true u32Ty demoHasher (exU32.map (·.1))).map
      (fun code => exU32.map (fun e => code e.1)) = some [10, 500, 7, 9000, 3] ∧
    (filedBy true stringTy demoHasher (exLen.map (·.1))).map
      (fun code => exLen.map (fun e => code e.1)) = some [1, 2, 3, 0] ∧
    (filedBy true stringTy demoHasher (exLeft.map (·.1))).map
      (fun code => exLeft.map (fun e => code e.1)) = some [314, 315, 316, 317] :=
  ⟨by decide +kernel, by decide +kernel, by decide +kernel, by decide +kernel⟩

example : analyzeHashCodes [10, 500, 7, 9000, 3] = .ok ⟨6, 0⟩ ∧
    analyzeHashCodes [314, 315, 316, 317] = .ok ⟨4, 0⟩ ∧ sharing 4 [314, 315, 316, 317] = 0 ∧
    sharing 2 [314, 315, 316, 317] = 2 :=
  ⟨by decide +kernel, by decide +kernel, by decide +kernel, by decide +kernel⟩

example : (filedBy true u32Ty demoHasher (exRange.map (·.1))).isNone = true := by decide +kernel

end FC
