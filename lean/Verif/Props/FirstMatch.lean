import Verif.Lemmas.FirstMatch
import Verif.Props.History

/-
C55: with or without repeated keys, a map is a list of its pairs in which the first match counts.
-/

set_option autoImplicit false

namespace FC
variable {K V Q : Type}

/-! ### C55 -/

/-- Any `Eq` at all; the list is the payload in the order given. -/
theorem C55_scanning_map (P : Probe K Q) (payload : List (K × V)) :
    IsList (scanningApi P) P.eq P.borrow (ScanningMap.fromVec payload) payload :=
  (scanning_scanMap P).isList (m := ScanningMap.fromVec payload) trivial

/-- Repeated keys. -/
def exRepeated : List (Int × Nat) := [(1, 1), (8, 2), (1, 3), (3, 4), (3, 5), (8, 6)]

/-- `Eq` need not be an equivalence, only agree with `Hash`. -/
theorem C55_common_map [Target] (env : Env) (S : IdxTy) (P : Probe K Q) (enc : K → List HCall)
    (henc : ∀ k q, P.eq q (P.borrow k) = true → P.enc q = enc k) (payload : List (K × V))
    (bh : Hasher) (m : CommonMap K V)
    (hm : CommonMap.fromVecWithHasher env S enc payload bh = .ok m) (h32 : payload.length < 2 ^ 32) :
    ∃ d : List (K × V), d.Perm payload ∧ IsList (commonApi P) P.eq P.borrow m d :=
  ⟨_, (CommonMap.filed hm h32).2, (common_scanMap P enc henc).isList (CommonMap.filed hm h32).1⟩

example := C55_common_map checkedEnv IdxTy.u8 otherTy.probe otherTy.enc exOther_enc
  exRepeated demoHasher _
  (Res.built (r := CommonMap.fromVecWithHasher checkedEnv IdxTy.u8 otherTy.enc exRepeated demoHasher)
    (by decide +kernel)) (by decide)

theorem C55_integer_map [Target] (env : Env) (S : IdxTy) (payload : List (Int × V)) (m : IntegerMap V)
    (hm : IntegerMap.fromVec env S payload = .ok m) (h32 : payload.length < 2 ^ 32) :
    ∃ d : List (Int × V), d.Perm payload ∧
      IsList integerApi (fun a b => decide (a = b)) id m d :=
  ⟨_, (IntegerMap.filed hm h32).2, integer_scanMap.isList (IntegerMap.filed hm h32).1⟩

example := C55_integer_map checkedEnv IdxTy.u8 exRepeated _
  (Res.built (r := IntegerMap.fromVec checkedEnv IdxTy.u8 exRepeated) (by decide +kernel)) (by decide)

theorem C55_length_map [Target] (env : Env) (S : IdxTy) (borrow : K → Q) (eq : Q → Q → Bool)
    (lenK : K → Nat) (lenQ : Q → Nat) (hlen : ∀ k q, eq q (borrow k) = true → lenQ q = lenK k)
    (payload : List (K × V)) (m : LengthMap K V)
    (hm : LengthMap.fromVec env S lenK payload = .ok m) (h32 : payload.length < 2 ^ 32) :
    ∃ d : List (K × V), d.Perm payload ∧ IsList (lengthApi borrow eq lenQ) eq borrow m d :=
  ⟨_, (LengthMap.filed hm h32).2,
    (length_scanMap borrow eq lenK lenQ hlen).isList (LengthMap.filed hm h32).1⟩

example := C55_length_map checkedEnv IdxTy.u8 id (fun a b : Bytes => decide (a = b)) List.length List.length
  exBytes_len (exBytes ++ exBytes) _
  (Res.built (r := LengthMap.fromVec checkedEnv IdxTy.u8 List.length (exBytes ++ exBytes)) (by decide +kernel))
  (by decide)

theorem C55_left_slice_map [Target] (env : Env) (S : IdxTy) (payload : List (Bytes × V)) (a b : Nat)
    (hab : payload = [] → a ≤ b) (bh : Hasher) (m : LeftSliceMap V)
    (hm : LeftSliceMap.fromVecWithHasher env S payload a b bh = .ok m) (h32 : payload.length < 2 ^ 32) :
    ∃ d : List (Bytes × V), d.Perm payload ∧ IsList leftApi (fun a b => decide (a = b)) id m d :=
  ⟨_, (LeftSliceMap.built hab hm h32).2, left_scanMap.isList (LeftSliceMap.built hab hm h32).1⟩

example := C55_left_slice_map checkedEnv IdxTy.u8 (exBytes ++ exBytes) 1 2 (by decide) demoHasher _
  (Res.built (r := LeftSliceMap.fromVecWithHasher checkedEnv IdxTy.u8 (exBytes ++ exBytes) 1 2 demoHasher)
    (by decide +kernel)) (by decide)

theorem C55_right_slice_map [Target] (env : Env) (S : IdxTy) (payload : List (Bytes × V))
    (a b : Nat) (hne : payload = [] → b ≤ a) (ha : a < usz) (hb : b < usz) (bh : Hasher)
    (m : RightSliceMap V)
    (hm : RightSliceMap.fromVecWithHasher env S payload a b bh = .ok m) (h32 : payload.length < 2 ^ 32) (oc : Bool) :
    ∃ d : List (Bytes × V), d.Perm payload ∧
      IsList (rightApi oc) (fun a b => decide (a = b)) id m d := by
  obtain ⟨_, _, h, hp⟩ := RightSliceMap.built hne ha hb hm h32
  exact ⟨_, hp, (right_scanMap oc).isList h⟩

example := C55_right_slice_map checkedEnv IdxTy.u8 (exBytes ++ exBytes) 2 1 (by decide) (by decide)
  (by decide) demoHasher _
  (Res.built (r := RightSliceMap.fromVecWithHasher checkedEnv IdxTy.u8 (exBytes ++ exBytes) 2 1 demoHasher)
    (by decide +kernel)) (by decide) true

/-- Distinct keys only (see `C55_u32_repeats` for what happens otherwise); the list is the payload
sorted by key. -/
theorem C55_range_map [Target] (oc oc' : Bool) (t : IntTy) (hb : 0 < t.bits) (payload : List (Int × V))
    (hne : payload ≠ []) (hr : ∀ e ∈ payload, t.InRange e.1) (hd : (payload.map (·.1)).Nodup)
    (m : IntegerRangeMap V) (hm : IntegerRangeMap.fromVec oc t payload = .ok m) :
    ∃ d : List (Int × V), d.Perm payload ∧ d.Pairwise (fun a b => a.1 < b.1) ∧
      IsList (rangeApi oc' t) (fun a b => decide (a = b)) id m d := by
  obtain ⟨h1, hp⟩ := rangeFromVec_rangeOK hb hne hr hd hm
  refine ⟨m.entries, hp, ?_, (range_scanMap oc' t).isList h1⟩
  rw [List.pairwise_iff_getElem]
  intro i j hi hj hij
  have e1 := h1.keys i _ (List.getElem?_eq_getElem hi)
  have e2 := h1.keys j _ (List.getElem?_eq_getElem hj)
  omega

example := C55_range_map true false IntTy.i8 (by decide) exInts (by decide) exInts_inRange exInts_nodup
  exIntRange exIntRange_ok

/-- The range representation is chosen only when the keys span their number. -/
theorem u32Range_spans [Target] {env : Env} {ty : KeyTy K} (hty : LawfulKey ty) {payload : List (K × V)}
    (hcap : payload.length < 2 ^ 32) {bh : Hasher} {r : IntegerRangeMap V}
    (h : FrozenMap.new env ty payload bh = .ok (.u32Range r)) :
    ∃ f g, ty.kind = .u32 f g ∧ SpansCount f payload ∧
      r.entries = stableSortByKey (·.1) (payload.map (fun e => (f e.1, e.2))) ∧
      IsMin (payload.map (fun e => f e.1)) r.min ∧ IsMax (payload.map (fun e => f e.1)) r.max := by
  obtain ⟨⟨f, g, hk⟩, _⟩ := (new_built env hty hcap h).shape r rfl
  have hl := hty.kind
  rw [hk] at hl
  obtain ⟨_, h2, _⟩ := hl
  unfold FrozenMap.new at h
  split at h
  · cases h
  · rename_i hlen
    rw [hk] at h
    simp only at h
    unfold FrozenMap.newU32Map at h
    simp only at h
    rw [Res.bind_eq_ok] at h
    obtain ⟨v, _, h⟩ := h
    cases v with
    | normal =>
      simp only at h
      split at h <;>
      · rw [Res.bind_eq_ok] at h
        obtain ⟨_, _, h⟩ := h
        cases h
    | range =>
      simp only at h
      rw [Res.bind_eq_ok] at h
      obtain ⟨r', hr', h⟩ := h
      simp only [Res.pure_eq, Res.ok.injEq, FrozenMap.u32Range.injEq] at h
      subst h
      have hr : ∀ e ∈ payload.map (fun e => (f e.1, e.2)), IntTy.u32.InRange e.1 := by
        intro e he
        obtain ⟨e', _, rfl⟩ := List.mem_map.1 he
        exact h2 _
      have hne : payload ≠ [] := by rintro rfl; simp at hlen
      obtain ⟨hmin, hmax, hs, _, _, hent⟩ := rangeFromVec_ok (by decide) (by simpa using hne) hr hr'
      rw [List.map_map] at hmin hmax
      refine ⟨f, g, hk, ?_, hent, hmin, hmax⟩
      obtain ⟨a, ha, ha'⟩ := List.mem_map.1 hmin.1
      obtain ⟨b, hb, hb'⟩ := List.mem_map.1 hmax.1
      simp only [Function.comp] at ha' hb'
      refine ⟨a, ha, b, hb, fun e he => ⟨?_, ?_⟩, ?_⟩
      · rw [ha']; exact hmin.2 _ (List.mem_map_of_mem (f := fun e : K × V => f e.1) he)
      · rw [hb']; exact hmax.2 _ (List.mem_map_of_mem (f := fun e : K × V => f e.1) he)
      · rw [ha', hb']
        simpa using hs

theorem RepeatsFine.good [Target] {env : Env} {ty : KeyTy K} (hty : LawfulKey ty) {payload : List (K × V)}
    (hcap : payload.length < 2 ^ 32) (hrep : RepeatsFine ty payload) {bh : Hasher}
    {m : FrozenMap K V} (hm : FrozenMap.new env ty payload bh = .ok m) :
    Good ty m ∧ (m.entries ty).Perm payload := by
  have hb := new_built env hty hcap hm
  refine ⟨hb.good ?_, hb.perm⟩
  rcases hrep with hd | hl | h
  · exact Or.inr hd
  · left
    rintro r rfl
    unfold FrozenMap.new at hm
    rw [if_pos hl] at hm
    cases hm
  · left
    rintro r rfl
    obtain ⟨f, g, hk, hs, _⟩ := u32Range_spans hty hcap hm
    exact h f g hk hs

theorem C55_frozen_map [Target] (env env' : Env) (ty : KeyTy K) (hty : LawfulKey ty)
    (payload : List (K × V)) (hcap : payload.length < 2 ^ 32) (hrep : RepeatsFine ty payload)
    (bh : Hasher) (m : FrozenMap K V) (hm : FrozenMap.new env ty payload bh = .ok m) :
    ∃ d : List (K × V), d.Perm payload ∧ IsList (frozenApi env' ty) ty.eq id m d :=
  ⟨_, (hrep.good hty hcap hm).2, (frozen_scanMap env' hty).isList (hrep.good hty hcap hm).1⟩

/-- Two such maps compare as their lists do. This shows where `==` on repeated keys is not
symmetric: the values of later repeats count on the left and not on the right. -/
theorem C55_frozen_map_eq [Target] (env : Env) (ty : KeyTy K) (hty : LawfulKey ty) (veq : V → V → Bool)
    (p₁ p₂ : List (K × V)) (hc₁ : p₁.length < 2 ^ 32) (hc₂ : p₂.length < 2 ^ 32)
    (hrep₁ : RepeatsFine ty p₁) (hrep₂ : RepeatsFine ty p₂)
    (bh₁ bh₂ : Hasher) (m₁ m₂ : FrozenMap K V) (hm₁ : FrozenMap.new env ty p₁ bh₁ = .ok m₁)
    (hm₂ : FrozenMap.new env ty p₂ bh₂ = .ok m₂) :
    ∃ d₁ d₂ : List (K × V), d₁.Perm p₁ ∧ d₂.Perm p₂ ∧
      IsList (frozenApi env ty) ty.eq id m₁ d₁ ∧ IsList (frozenApi env ty) ty.eq id m₂ d₂ ∧
      EqIsList (frozenApi env ty) ty.eq veq m₁ m₂ d₁ d₂ := by
  obtain ⟨g₁, q₁⟩ := hrep₁.good hty hc₁ hm₁
  obtain ⟨g₂, q₂⟩ := hrep₂.good hty hc₂ hm₂
  exact ⟨_, _, q₁, q₂, (frozen_scanMap env hty).isList g₁, (frozen_scanMap env hty).isList g₂,
    (frozen_scanMap env hty).eqIsList veq g₁ g₂⟩

example := C55_frozen_map_eq checkedEnv otherTy otherTy_lawful (· == ·)
  exRepeated exOther (by decide) (by decide)
  (Or.inr (Or.inr (by simp [otherTy]))) (Or.inr (Or.inr (by simp [otherTy]))) demoHasher demoHasher
  _ exMapOther (Res.built (r := FrozenMap.new checkedEnv otherTy exRepeated demoHasher) (by decide +kernel))
  exMapOther_ok

/-- The range representation is chosen when the keys span their number. -/
theorem new_u32Range [Target] {env : Env} {ty : KeyTy K} (hty : LawfulKey ty) {f : K → Int}
    {g : Int → K} (hk : ty.kind = .u32 f g) {payload : List (K × V)}
    (hcap : payload.length < 2 ^ 32) (hfour : 4 ≤ payload.length) (hs : SpansCount f payload)
    {bh : Hasher} {m : FrozenMap K V} (hm : FrozenMap.new env ty payload bh = .ok m) :
    ∃ r, m = .u32Range r := by
  have hl := hty.kind
  rw [hk] at hl
  obtain ⟨hfg, h2, h3⟩ := hl
  obtain ⟨a, ha, b, hb, hall, hspan⟩ := hs
  unfold FrozenMap.new at hm
  rw [if_neg (by omega), hk] at hm
  simp only at hm
  unfold FrozenMap.newU32Map at hm
  simp only at hm
  have hkeys : ((payload.map (fun e => (f e.1, e.2))).map (·.1))
      = payload.map (fun e => f e.1) := by simp
  have hu : IntTy.u32.hi = 2 ^ 32 - 1 := rfl
  have hc : (payload.length : Int) < 2 ^ 32 := by exact_mod_cast hcap
  rw [hkeys, analyzeIntKeys_ok (mn := f a.1) (mx := f b.1)
    (by intro k hk'; obtain ⟨e, _, rfl⟩ := List.mem_map.1 hk'; exact h2 _)
    ⟨List.mem_map_of_mem (f := fun e : K × V => f e.1) ha, by
      intro k hk'; obtain ⟨e, he, rfl⟩ := List.mem_map.1 hk'; exact (hall e he).1⟩
    ⟨List.mem_map_of_mem (f := fun e : K × V => f e.1) hb, by
      intro k hk'; obtain ⟨e, he, rfl⟩ := List.mem_map.1 hk'; exact (hall e he).2⟩
    (by rw [List.length_map]; omega) (by omega),
    if_pos (by rw [List.length_map]; exact hspan)] at hm
  simp only [Res.ok_bind, Res.bind_eq_ok, Res.pure_eq, Res.ok.injEq] at hm
  obtain ⟨r, _, rfl⟩ := hm
  exact ⟨r, rfl⟩

/-- A range map of any integer type, repeats or not: the pairs are sorted by key, and probe `k` gets the
pair at distance `k - smallest key`, whatever its key. -/
theorem C55_range_repeats [Target] (oc oc' : Bool) (t : IntTy) (hb : 0 < t.bits)
    (payload : List (Int × V)) (hne : payload ≠ []) (hr : ∀ e ∈ payload, t.InRange e.1)
    (m : IntegerRangeMap V) (hm : IntegerRangeMap.fromVec oc t payload = .ok m) :
    ∃ (d : List (Int × V)) (lo : Int), d.Perm payload ∧ d.Pairwise (fun a b => a.1 ≤ b.1) ∧
      (∃ e ∈ payload, e.1 = lo) ∧ (∀ e ∈ payload, lo ≤ e.1) ∧ m.len = payload.length ∧
      (∀ n, (calls MapIter.next n ((rangeApi oc' t).iter m)).1 = firstCalls d n) ∧
      ∀ k, ∃ o, m.getKeyValue oc' t k = .ok o ∧ m.get oc' t k = .ok (o.map (·.2)) ∧
        m.getMut oc' t k = .ok (o.map (·.2)) ∧ m.containsKey oc' t k = .ok o.isSome ∧
        o.map (fun r => (r.1, r.2.val)) = if lo ≤ k then d[(k - lo).toNat]? else none := by
  obtain ⟨hmin, _, hspan, hfit, hus, hent⟩ := rangeFromVec_ok hb hne hr hm
  have hperm : m.entries.Perm payload := hent ▸ stableSort_perm _ _
  have hlen := hperm.length_eq
  refine ⟨m.entries, m.min, hperm, hent ▸ stableSort_sorted _ _, ?_, ?_, hlen, ?_, fun k => ?_⟩
  · obtain ⟨e, he, he'⟩ := List.mem_map.1 hmin.1
    exact ⟨e, he, he'⟩
  · intro e he
    exact hmin.2 _ (List.mem_map_of_mem (f := fun e : Int × V => e.1) he)
  · exact fun n => (C13_iter true _ n).1
  · have h0 := t.lo_le_zero
    have hpos : m.position oc' t k
        = .ok (if m.min ≤ k ∧ k ≤ m.max then some (k - m.min).toNat else none) := by
      unfold IntegerRangeMap.position
      split
      · rename_i h
        rw [IntTy.arith_ok ⟨by omega, by omega⟩]
        simp only [toUsize]
        rw [if_pos ⟨by omega, by omega⟩]
      · rfl
    unfold IntegerRangeMap.containsKey IntegerRangeMap.getKeyValue IntegerRangeMap.get
      IntegerRangeMap.getMut
    rw [hpos]
    by_cases hin : m.min ≤ k ∧ k ≤ m.max
    · have hi : (k - m.min).toNat < m.entries.length := by omega
      refine ⟨some (m.entries[(k - m.min).toNat].1, ⟨(k - m.min).toNat, m.entries[(k - m.min).toNat].2⟩),
        ?_, ?_, ?_, ?_, ?_⟩
      all_goals simp [hin, IntegerRangeMap.entryAt, List.getElem?_eq_getElem hi]
    · refine ⟨none, ?_, ?_, ?_, ?_, ?_⟩
      · simp [hin]
      · simp [hin]
      · simp [hin]
      · simp [hin]
      · by_cases hlo : m.min ≤ k
        · rw [if_pos hlo, List.getElem?_eq_none (by omega)]
          rfl
        · rw [if_neg hlo]
          rfl

example := C55_range_repeats true false IntTy.i8 (by decide) [(7, 'a'), (5, 'b'), (5, 'c')] (by decide)
  (by decide) _ (Res.built (by decide +kernel))

/-- The remaining `u32` payloads, those with repeats that span their number: the pairs are sorted by
key, and probe `k` gets the pair at distance `k - smallest key`, whatever its key. -/
theorem C55_u32_repeats [Target] (env env' : Env) (ty : KeyTy K) (hty : LawfulKey ty) (f : K → Int)
    (g : Int → K) (hk : ty.kind = .u32 f g) (payload : List (K × V))
    (hcap : payload.length < 2 ^ 32) (hfour : 4 ≤ payload.length) (hs : SpansCount f payload)
    (bh : Hasher) (m : FrozenMap K V) (hm : FrozenMap.new env ty payload bh = .ok m) :
    ∃ (d : List (K × V)) (lo : Int), d.Perm payload ∧ d.Pairwise (fun a b => f a.1 ≤ f b.1) ∧
      (∃ e ∈ payload, f e.1 = lo) ∧ (∀ e ∈ payload, lo ≤ f e.1) ∧
      m.len = payload.length ∧
      ∀ k, ∃ o, m.getKeyValue env' ty k = .ok o ∧
        o.map (fun r => (r.1, r.2.val)) = if lo ≤ f k then d[(f k - lo).toNat]? else none := by
  have hcap' : payload.length < 2 ^ 32 := hcap
  have hl := hty.kind
  rw [hk] at hl
  obtain ⟨hfg, h2, h3⟩ := hl
  obtain ⟨r, rfl⟩ := new_u32Range hty hk hcap hfour hs hm
  have hb := new_built env hty hcap' hm
  obtain ⟨f', g', hk', _, hent, hmin, hmax⟩ := u32Range_spans hty hcap' hm
  rw [hk] at hk'
  cases hk'
  have hsafe := hb.safe
  have hsorted := stableSort_sorted (fun e : Int × V => e.1) (payload.map (fun e => (f e.1, e.2)))
  rw [← hent] at hsorted
  have him := (ofIntEntries_perm hty hk (payload := payload) (es := r.entries)
    (hent ▸ stableSort_perm (fun e : Int × V => e.1) (payload.map (fun e => (f e.1, e.2))))).2
  obtain ⟨_, hshape⟩ := hb.shape r rfl
  refine ⟨(FrozenMap.u32Range r : FrozenMap K V).entries ty, r.min, hb.perm, ?_, ?_, ?_, ?_, ?_⟩
  · show (ty.ofIntEntries r.entries).Pairwise _
    rw [show ty.ofIntEntries r.entries = r.entries.map (fun e => (g e.1, e.2)) by
      unfold KeyTy.ofIntEntries; rw [hk], List.pairwise_map]
    refine hsorted.imp_of_mem ?_
    intro x y hx hy hxy
    obtain ⟨kx, ex⟩ := him x hx
    obtain ⟨ky, ey⟩ := him y hy
    simp only [← ex, ← ey, hfg]
    rw [ex, ey]
    exact hxy
  · obtain ⟨e, he, he'⟩ := List.mem_map.1 hmin.1
    exact ⟨e, he, he'⟩
  · intro e he
    exact hmin.2 _ (List.mem_map_of_mem (f := fun e : K × V => f e.1) he)
  · show r.entries.length = _
    rw [hent, (stableSort_perm _ _).length_eq, List.length_map]
  · intro k
    have htoInt : ty.toInt k = f k := by unfold KeyTy.toInt; rw [hk]
    have hlen : ((FrozenMap.u32Range r : FrozenMap K V).entries ty).length = r.entries.length := by
      show (ty.ofIntEntries r.entries).length = _
      unfold KeyTy.ofIntEntries
      rw [hk]
      simp
    have h4 := hshape.len
    rcases hsafe.kv hty env' k with ⟨hnone, hkv⟩ | ⟨i, e, hsome, hi, hkv⟩
    · refine ⟨none, hkv, ?_⟩
      unfold loc at hnone
      simp only [htoInt] at hnone
      by_cases hlo : r.min ≤ f k
      · rw [if_pos hlo]
        have : ¬ f k ≤ r.max := fun h => by rw [if_pos ⟨hlo, h⟩] at hnone; cases hnone
        rw [List.getElem?_eq_none (by omega)]
        rfl
      · rw [if_neg hlo]; rfl
    · refine ⟨_, hkv, ?_⟩
      unfold loc at hsome
      simp only [htoInt] at hsome
      split at hsome
      · rename_i hin
        rw [if_pos hin.1]
        simp only [Option.some.injEq] at hsome
        rw [hsome, hi]
        rfl
      · cases hsome

example := C55_u32_repeats checkedEnv releaseEnv u32Ty u32Ty_lawful _ _ rfl exDup (by decide) (by decide)
  (by unfold SpansCount; decide +kernel) demoHasher _ exDup_ok

/-- The case C04 leaves out always goes wrong: whenever repeated `u32` keys span their number, some
key that is not in the payload is reported as present. (`hall`: every `u32` value is a key.) -/
theorem C04_otherwise_always_wrong_partial [Target] (env env' : Env) (ty : KeyTy K) (hty : LawfulKey ty)
    (f : K → Int) (g : Int → K) (hk : ty.kind = .u32 f g)
    (hall : ∀ n, IntTy.u32.InRange n → ∃ k, f k = n) (payload : List (K × V))
    (hcap : payload.length < 2 ^ 32) (hfour : 4 ≤ payload.length) (hs : SpansCount f payload)
    (hrep : ¬ DistinctKeys ty.eq payload)
    (bh : Hasher) (m : FrozenMap K V) (hm : FrozenMap.new env ty payload bh = .ok m) :
    ∃ k r, m.get env' ty k = .ok (some r) ∧ ¬ Present ty.eq payload k := by
  obtain ⟨d, lo, hperm, _, ⟨elo, helo, rfl⟩, hlo, _, hget⟩ :=
    C55_u32_repeats env env' ty hty f g hk payload hcap hfour hs bh m hm
  have hl := hty.kind
  rw [hk] at hl
  obtain ⟨_, h2, h3⟩ := hl
  by_contra hno
  apply hrep
  obtain ⟨a, ha, b, hb, hab, hspan⟩ := hs
  have hlo' : f elo.1 = f a.1 := le_antisymm (hlo a ha) (hab elo helo).1
  have hcover : ∀ j : Nat, j < payload.length → f elo.1 + j ∈ payload.map (fun e => f e.1) := by
    intro j hj
    obtain ⟨k, hkj⟩ := hall (f elo.1 + j) ⟨by have := (h2 elo.1).1; omega, by
      have := (h2 b.1).2; omega⟩
    obtain ⟨o, ho, ho'⟩ := hget k
    rw [hkj, if_pos (by omega), show (f elo.1 + (j : Int) - f elo.1).toNat = j by omega,
      List.getElem?_eq_getElem (by rw [hperm.length_eq]; exact hj)] at ho'
    obtain ⟨x, rfl⟩ : ∃ x, o = some x := by
      cases o with
      | none => cases ho'
      | some x => exact ⟨x, rfl⟩
    have hcap' : payload.length < 2 ^ 32 := hcap
    have hsafe := (new_built env hty hcap' hm).safe
    have hg := hsafe.get_kv hty env' k
    rw [ho] at hg
    by_contra hnot
    refine hno ⟨k, x.2, hg, ?_⟩
    rintro ⟨e, he, hke⟩
    rw [h3] at hke
    apply hnot
    rw [← hkj, of_decide_eq_true hke]
    exact List.mem_map_of_mem (f := fun e : K × V => f e.1) he
  have hnd : ((List.range payload.length).map (fun j : Nat => f elo.1 + (j : Int))).Nodup :=
    List.nodup_range.map (fun a b h => by simpa using h)
  have hsub : ((List.range payload.length).map (fun j : Nat => f elo.1 + (j : Int))).Subperm
      (payload.map (fun e => f e.1)) := by
    refine hnd.subperm ?_
    intro x hx
    obtain ⟨j, hj, rfl⟩ := List.mem_map.1 hx
    exact hcover j (List.mem_range.1 hj)
  have hp := hsub.perm_of_length_le (by simp)
  have hnd' := hp.nodup_iff.1 hnd
  refine (List.pairwise_map.1 hnd').imp ?_
  intro x y hxy
  rw [h3]
  exact decide_eq_false hxy

/-! ### Non-vacuity -/

/-- Repeated general keys, in a table where the repeats land in one bucket and iteration order is not
payload order: the first match in iteration order is found, written and compared. -/
example : ∃ m, FrozenMap.new checkedEnv otherTy
      [(1, 1), (8, 2), (1, 3), (3, 4), (3, 5), (8, 6)] demoHasher = .ok m ∧
    RepeatsFine otherTy [(1, 1), (8, 2), (1, 3), (3, 4), (3, 5), (8, 6)] ∧
    ∃ d : List (Int × Nat), d.Perm [(1, 1), (8, 2), (1, 3), (3, 4), (3, 5), (8, 6)] ∧
      IsList (frozenApi releaseEnv otherTy) otherTy.eq id m d := by
  obtain ⟨m, h⟩ := Res.of_isOk (r := FrozenMap.new checkedEnv otherTy
    [(1, 1), (8, 2), (1, 3), (3, 4), (3, 5), (8, 6)] demoHasher) (by decide +kernel)
  have hf : RepeatsFine otherTy [((1 : Int), 1), (8, 2), (1, 3), (3, 4), (3, 5), (8, 6)] :=
    Or.inr (Or.inr (by simp [otherTy]))
  exact ⟨m, h, hf, C55_frozen_map checkedEnv releaseEnv otherTy otherTy_lawful _ (by decide) hf _ m h⟩

/-- What such a map shows. -/
example : (do let m ← FrozenMap.new checkedEnv otherTy
                [(1, 1), (8, 2), (1, 3), (3, 4), (3, 5), (8, 6)] demoHasher
              return (← (frozenApi checkedEnv otherTy).run m
                [.get 1, .getMut 1 9, .get 1, .getManyMut [(3, 20), (8, 21)], .len, .iter]).1) =
    (do return (← FirstMatch.run otherTy.eq id
          [(3, 5), (3, 4), (8, 6), (8, 2), (1, 3), (1, 1)]
          [.get 1, .getMut 1 9, .get 1, .getManyMut [(3, 20), (8, 21)], .len, .iter]).1) := by
  decide +kernel

/-- The repeated `u32` keys 0, 0, 3, 3 span their number; 0, 0, 3, 4 do not. -/
example : SpansCount (fun k : UInt32 => (k.toNat : Int)) exDup ∧
    ¬ SpansCount (fun k : UInt32 => (k.toNat : Int)) [(0, 1), (0, 2), (3, 3), (4, 4)] := by
  unfold SpansCount; decide +kernel

/-- And so 1 or 2 is wrongly found in the map from keys 0, 0, 3, 3. -/
example (m : FrozenMap UInt32 Nat) (hm : FrozenMap.new checkedEnv u32Ty exDup demoHasher = .ok m) :
    ∃ k r, m.get checkedEnv u32Ty k = .ok (some r) ∧ ¬ Present u32Ty.eq exDup k := by
  refine C04_otherwise_always_wrong_partial checkedEnv checkedEnv u32Ty u32Ty_lawful _ _ rfl ?_ exDup
    (by decide) (by decide) (by unfold SpansCount; decide +kernel)
    (by unfold DistinctKeys; decide +kernel) demoHasher m hm
  rintro n ⟨h1, h2⟩
  have h1' : 0 ≤ n := h1
  have h2' : n ≤ 2 ^ 32 - 1 := h2
  refine ⟨UInt32.ofNat n.toNat, ?_⟩
  show ((UInt32.ofNat n.toNat).toNat : Int) = n
  rw [UInt32.toNat_ofNat_of_lt' (by show n.toNat < 2 ^ 32; omega)]
  omega

end FC
