import Verif.Examples
import Verif.Lemmas.Lookup
import Verif.Lemmas.Sets

/-
C17, C28, C29, C30: the hash-based specialized maps used directly.
-/

set_option autoImplicit false

namespace FC
variable {K V Q : Type}

theorem exact_scan {eq : Q → Q → Bool} {borrow : K → Q} {q : Q} {es payload : List (K × V)}
    (hp : es.Perm payload) : Exact (fun k => eq q (borrow k)) payload (scan eq borrow q 0 es) := by
  unfold Exact
  split
  · rename_i k r h
    obtain ⟨_, h1, h2, _⟩ := scan_some h
    exact ⟨hp.mem_iff.1 (List.mem_of_getElem? h1), h2⟩
  · rename_i h
    intro e he
    exact scan_none.1 h e (hp.mem_iff.2 he)

/-! ### C30 -/

theorem C30_scanning_map (P : Probe K Q) (payload : List (K × V)) (q : Q) :
    let m := ScanningMap.fromVec payload
    AnswersProbe (fun k => P.eq q (P.borrow k)) payload (m.getKeyValue P q) (m.get P q)
      (m.getMut P q) (m.containsKey P q) ∧ m.len = payload.length := by
  refine ⟨⟨_, rfl, rfl, rfl, ?_, exact_scan (List.Perm.refl _)⟩, rfl⟩
  simp [ScanningMap.containsKey, ScanningMap.get, ScanningMap.fromVec]

theorem C30_common_map [Target] (env : Env) (S : IdxTy) (P : Probe K Q) (enc : K → List HCall)
    (henc : ∀ k q, P.eq q (P.borrow k) = true → P.enc q = enc k)
    (payload : List (K × V)) (bh : Hasher) (m : CommonMap K V)
    (hm : CommonMap.fromVecWithHasher env S enc payload bh = .ok m) (h32 : payload.length < 2 ^ 32) (q : Q) :
    AnswersProbe (fun k => P.eq q (P.borrow k)) payload (m.getKeyValue P q) (m.get P q)
      (m.getMut P q) (m.containsKey P q) ∧ m.len = payload.length := by
  unfold CommonMap.fromVecWithHasher at hm
  simp only [Res.bind_eq_ok, Res.pure_eq, Res.ok.injEq] at hm
  obtain ⟨r, _, t, ht, rfl⟩ := hm
  obtain ⟨hp, g, hg, hT, _⟩ := HashTable.new_inv ht h32
  have hkv : (CommonMap.mk t bh).getKeyValue P q = .ok (scan P.eq P.borrow q 0 t.entries) := by
    rw [CommonMap.getKV_lookup]
    refine tableLookup_eq hT ?_
    intro e he hq
    have := hg e (hp.mem_iff.1 he)
    simp only [Res.ok.injEq] at this
    simp only [← this, henc _ _ hq]
  have hget := CommonMap.get_eq_kv P ⟨t, bh⟩ q
  rw [hkv] at hget
  refine ⟨⟨_, hkv, hget, hget, ?_, exact_scan hp⟩, hp.length_eq⟩
  rw [CommonMap.containsKey, hget]
  simp

example := C30_common_map checkedEnv IdxTy.u8 otherTy.probe otherTy.enc exOther_enc exOther demoHasher _ exCommon_ok (by decide)

theorem C30_integer_map [Target] (env : Env) (S : IdxTy) (payload : List (Int × V)) (m : IntegerMap V)
    (hm : IntegerMap.fromVec env S payload = .ok m) (h32 : payload.length < 2 ^ 32) (q : Int) :
    AnswersProbe (fun k => decide (q = k)) payload (m.getKeyValue q) (m.get q)
      (m.getMut q) (m.containsKey q) ∧ m.len = payload.length := by
  unfold IntegerMap.fromVec at hm
  simp only [Res.bind_eq_ok, Res.pure_eq, Res.ok.injEq] at hm
  obtain ⟨r, _, t, ht, rfl⟩ := hm
  obtain ⟨hp, g, hg, hT, _⟩ := HashTable.new_inv ht h32
  have hkv : (IntegerMap.mk t).getKeyValue q = .ok (scan IntegerMap.ieq id q 0 t.entries) := by
    rw [IntegerMap.getKV_lookup]
    refine tableLookup_eq hT ?_
    intro e he hq
    have := hg e (hp.mem_iff.1 he)
    simp only [Res.ok.injEq] at this
    simp only [← this, of_decide_eq_true hq, id]
  have hget := IntegerMap.get_eq_kv ⟨t⟩ q
  rw [hkv] at hget
  refine ⟨⟨_, hkv, hget, hget, ?_, exact_scan (eq := IntegerMap.ieq) hp⟩, hp.length_eq⟩
  rw [IntegerMap.containsKey, hget]
  simp

example := C30_integer_map checkedEnv IdxTy.u8 exOther _ exInteger_ok (by decide)

theorem C30_length_map [Target] (env : Env) (S : IdxTy) (borrow : K → Q) (eq : Q → Q → Bool)
    (lenK : K → Nat) (lenQ : Q → Nat) (hlen : ∀ k q, eq q (borrow k) = true → lenQ q = lenK k)
    (payload : List (K × V)) (m : LengthMap K V)
    (hm : LengthMap.fromVec env S lenK payload = .ok m) (h32 : payload.length < 2 ^ 32) (q : Q) :
    AnswersProbe (fun k => eq q (borrow k)) payload (m.getKeyValue borrow eq lenQ q)
      (m.get borrow eq lenQ q) (m.getMut borrow eq lenQ q) (m.containsKey borrow eq lenQ q) ∧
      m.len = payload.length := by
  unfold LengthMap.fromVec at hm
  simp only [Res.bind_eq_ok, Res.pure_eq, Res.ok.injEq] at hm
  obtain ⟨r, _, t, ht, rfl⟩ := hm
  obtain ⟨hp, g, hg, hT, _⟩ := HashTable.new_inv ht h32
  have hkv : (LengthMap.mk t).getKeyValue borrow eq lenQ q
      = .ok (scan eq borrow q 0 t.entries) := by
    rw [LengthMap.getKV_lookup]
    refine tableLookup_eq hT ?_
    intro e he hq
    have := hg e (hp.mem_iff.1 he)
    simp only [Res.ok.injEq] at this
    simp only [← this, hlen _ _ hq]
  have hget := LengthMap.get_eq_kv borrow eq lenQ ⟨t⟩ q
  rw [hkv] at hget
  refine ⟨⟨_, hkv, hget, hget, ?_, exact_scan hp⟩, hp.length_eq⟩
  rw [LengthMap.containsKey, hget]
  simp

example := C30_length_map checkedEnv IdxTy.u8 id (fun a b : Bytes => decide (a = b)) List.length List.length exBytes_len exBytes _
  exLengths_ok (by decide)

/-- A map keyed by owned strings probed through a borrowed type (here case-sensitive bytes), with a
repeated key. -/
def exProbe : Probe RString Bytes := ⟨(·.1), fun a b => decide (a = b), fun b => [.writeStr b]⟩

example : (∀ k q, exProbe.eq q (exProbe.borrow k) = true → exProbe.enc q = stringTy.enc k) ∧
    ∃ m, CommonMap.fromVecWithHasher checkedEnv IdxTy.u8 stringTy.enc (exLen ++ exLen) demoHasher
      = .ok m := by
  refine ⟨fun k q h => ?_, Res.of_isOk (by decide +kernel)⟩
  have : q = k.1 := of_decide_eq_true h
  simp [exProbe, stringTy, this]

/-! ### C28 -/

/-- Keys reaching the end of the range: every probe of every length is answered correctly. -/
theorem C28_lookup [Target] (env : Env) (S : IdxTy) (cap : Nat) (hS : S.capacity = some cap)
    (payload : List (Bytes × V)) (hcap : payload.length ≤ cap) (a b : Nat) (hab : a ≤ b)
    (hlong : ∀ e ∈ payload, b ≤ e.1.length) (bh : Hasher) :
    ∃ m, LeftSliceMap.fromVecWithHasher env S payload a b bh = .ok m ∧ m.len = payload.length ∧
      ∀ q, AnswersProbe (fun k => decide (q = k)) payload (m.getKeyValue q) (m.get q) (m.getMut q)
        (m.containsKey q) := by
  obtain ⟨m, h1, h2, _, _, _, hp, _⟩ := LeftSliceMap.fromVec_ok env hS hcap hab hlong bh
  refine ⟨m, h1, hp.length_eq, fun q => ?_⟩
  have hkv := LeftSliceMap.getKV_eq h2 q
  have hget := LeftSliceMap.get_eq_kv m q
  rw [hkv] at hget
  refine ⟨_, hkv, hget, hget, ?_, exact_scan (eq := beq) hp⟩
  rw [LeftSliceMap.containsKey, hget]
  simp

example := C28_lookup checkedEnv IdxTy.u8 255 (by decide) exBytes (by decide) 1 2 (by decide) exBytes_long demoHasher

/-- Construction performs an out-of-bounds access exactly when the range is inverted or some key
does not reach its end. -/
theorem C28_construction_ub_iff [Target] (env : Env) (S : IdxTy) (cap : Nat) (hS : S.capacity = some cap)
    (payload : List (Bytes × V)) (hcap : payload.length ≤ cap) (a b : Nat) (bh : Hasher) :
    LeftSliceMap.fromVecWithHasher env S payload a b bh = .ub ↔
      ∃ e ∈ payload, ¬ (a ≤ b ∧ b ≤ e.1.length) := by
  constructor
  · intro h
    by_contra hno
    push Not at hno
    by_cases hne : payload = []
    · subst hne
      have : ∃ m, LeftSliceMap.fromVecWithHasher env S ([] : List (Bytes × V)) a b bh = .ok m := by
        unfold LeftSliceMap.fromVecWithHasher
        simp only [Res.mapList, Res.ok_bind, analyze_nil]
        exact ⟨_, rfl⟩
      obtain ⟨m, hm⟩ := this
      rw [hm] at h; cases h
    · obtain ⟨e, he⟩ := List.exists_mem_of_ne_nil payload hne
      obtain ⟨m, h1, _⟩ := LeftSliceMap.fromVec_ok env hS hcap (hno e he).1
        (fun e he => (hno e he).2) bh
      rw [h1] at h; cases h
  · intro h
    obtain ⟨h1, h2, _⟩ := IdxTy.capacity_some hS
    exact LeftSliceMap.fromVec_ub env h1 (hcap.trans h2) h bh

example := C28_construction_ub_iff checkedEnv IdxTy.u8 255 (by decide) exBytes (by decide) 1 3 demoHasher

/-- Probes shorter than the range on a real map. -/
example : (∀ e ∈ [(([1, 2, 3] : Bytes), 1), ([4, 5, 6], 2)], 3 ≤ e.1.length) ∧
    (do let m ← LeftSliceMap.fromVecWithHasher checkedEnv IdxTy.u8
          [(([1, 2, 3] : Bytes), 1), ([4, 5, 6], 2)] 1 3 demoHasher
        let x ← m.get [4]; let y ← m.get []; let z ← m.get [4, 5, 6]
        return (x.isNone, y.isNone, z.map Ref.val)) = .ok (true, true, some 2) := by
  decide +kernel

/-! ### C29 -/

/-- C29 is false: with the range given in ascending order, as the analysis and the facades give it,
construction is undefined behaviour for every non-empty payload of sufficiently long keys. -/
theorem C29_counterexample [Target] (env : Env) (S : IdxTy) (payload : List (Bytes × V)) (a b : Nat)
    (hab : a < b) (hne : payload ≠ []) (hlong : ∀ e ∈ payload, b ≤ e.1.length) (bh : Hasher) :
    RightSliceMap.fromVecWithHasher env S payload a b bh = .ub :=
  RightSliceMap.fromVec_ub env hab hne hlong bh

/-- Whatever the keys, such a construction never succeeds. -/
theorem C29_never_constructed_counterexample [Target] (env : Env) (S : IdxTy)
    (payload : List (Bytes × V))
    (a b : Nat) (hab : a < b) (hb : b < usz) (hne : payload ≠ []) (bh : Hasher) :
    ∀ m, RightSliceMap.fromVecWithHasher env S payload a b bh ≠ .ok m :=
  RightSliceMap.fromVec_never_ok env hab hb hne bh

/-- With the range in descending order (`start` and `end` counted from the right) everything works.
Missing from C29: ascending ranges, where it is false. -/
theorem C29_descending_partial [Target] (env : Env) (S : IdxTy) (cap : Nat) (hS : S.capacity = some cap)
    (payload : List (Bytes × V)) (hcap : payload.length ≤ cap) (a b : Nat) (hab : b ≤ a)
    (hlong : ∀ e ∈ payload, a ≤ e.1.length) (bh : Hasher) :
    ∃ m, RightSliceMap.fromVecWithHasher env S payload a b bh = .ok m ∧ m.len = payload.length ∧
      ∀ oc q, AnswersProbe (fun k => decide (q = k)) payload (m.getKeyValue oc q) (m.get oc q)
        (m.getMut oc q) (m.containsKey oc q) := by
  obtain ⟨m, h1, h2, _, _, _, hp⟩ := RightSliceMap.fromVec_ok env hS hcap hab hlong bh
  refine ⟨m, h1, hp.length_eq, fun oc q => ?_⟩
  have hkv := RightSliceMap.getKV_eq (oc := oc) h2 q
  have hget := RightSliceMap.get_eq_kv oc m q
  rw [hkv] at hget
  refine ⟨_, hkv, hget, hget, ?_, exact_scan (eq := beq) hp⟩
  rw [RightSliceMap.containsKey, hget]
  simp

/-- Exactly which constructions succeed, given something to hold and an index type with room for it:
those with the range in descending order and inside every key. All others read out of bounds, or, in
builds with overflow checks only, may panic instead. Missing from C29: the ascending ranges. -/
theorem C29_built_iff_partial [Target] (env : Env) (S : IdxTy) (cap : Nat) (hS : S.capacity = some cap)
    (payload : List (Bytes × V)) (hcap : payload.length ≤ cap) (hne : payload ≠ []) (a b : Nat)
    (ha : a < usz) (hb : b < usz) (bh : Hasher) :
    ((∃ m, RightSliceMap.fromVecWithHasher env S payload a b bh = .ok m) ↔
      b ≤ a ∧ ∀ e ∈ payload, a ≤ e.1.length) ∧
    (¬ (b ≤ a ∧ ∀ e ∈ payload, a ≤ e.1.length) →
      RightSliceMap.fromVecWithHasher env S payload a b bh = .ub ∨
      env.oc = true ∧ RightSliceMap.fromVecWithHasher env S payload a b bh = .panic) := by
  obtain ⟨_, _, h31⟩ := IdxTy.capacity_some hS
  refine ⟨⟨?_, ?_⟩, ?_⟩
  · rintro ⟨m, hm⟩
    obtain ⟨h1, h2, _⟩ := RightSliceMap.built (fun h => absurd h hne) ha hb hm (by omega)
    exact ⟨h1, h2⟩
  · rintro ⟨h1, h2⟩
    obtain ⟨m, hm, _⟩ := RightSliceMap.fromVec_ok env hS hcap h1 h2 bh
    exact ⟨m, hm⟩
  · intro hn
    refine (RightSliceMap.not_built hS hcap ha hb ?_).symm
    by_contra hno
    push Not at hno
    obtain ⟨e, he⟩ := List.exists_mem_of_ne_nil payload hne
    exact hn ⟨(hno e he).1, fun e he => (hno e he).2⟩

/-- A range in descending order that a key does not reach: a panic with overflow checks, undefined
behaviour without. -/
example :
    (RightSliceMap.fromVecWithHasher checkedEnv IdxTy.u8 [(([1, 2] : Bytes), 1)] 3 1 demoHasher).map
      RightSliceMap.len = .panic ∧
    (RightSliceMap.fromVecWithHasher { checkedEnv with oc := false } IdxTy.u8
      [(([1, 2] : Bytes), 1)] 3 1 demoHasher).map RightSliceMap.len = .ub ∧
    (RightSliceMap.fromVecWithHasher checkedEnv IdxTy.u8 exBytes 2 1 demoHasher).map
      RightSliceMap.len = .ok exBytes.length := by
  decide +kernel

example := C29_built_iff_partial checkedEnv IdxTy.u8 255 (by decide) exBytes (by decide) (by decide) 2 1
  (by decide) (by decide) demoHasher

/-- So every right slice map that was built from something (and the empty ones over a range in descending
order) answers every probe of every length
correctly, whatever its range. Missing from C29: the maps that cannot be built. -/
theorem C29_built_partial [Target] (env : Env) (S : IdxTy) (payload : List (Bytes × V))
    (a b : Nat) (hne : payload = [] → b ≤ a) (ha : a < usz) (hb : b < usz) (bh : Hasher)
    (m : RightSliceMap V)
    (hm : RightSliceMap.fromVecWithHasher env S payload a b bh = .ok m)
    (h32 : payload.length < 2 ^ 32) :
    m.len = payload.length ∧
      ∀ oc q, AnswersProbe (fun k => decide (q = k)) payload (m.getKeyValue oc q) (m.get oc q)
        (m.getMut oc q) (m.containsKey oc q) := by
  obtain ⟨_, _, h2, hp⟩ := RightSliceMap.built hne ha hb hm h32
  refine ⟨hp.length_eq, fun oc q => ?_⟩
  have hkv := RightSliceMap.getKV_eq (oc := oc) h2 q
  have hget := RightSliceMap.get_eq_kv oc m q
  rw [hkv] at hget
  refine ⟨_, hkv, hget, hget, ?_, exact_scan (eq := beq) hp⟩
  rw [RightSliceMap.containsKey, hget]
  simp

example := C29_built_partial checkedEnv IdxTy.u8 exBytes 2 1 (by decide) (by decide) (by decide) demoHasher _
  (Res.built (r := RightSliceMap.fromVecWithHasher checkedEnv IdxTy.u8 exBytes 2 1 demoHasher)
    (by decide +kernel)) (by decide)

example := C29_descending_partial checkedEnv IdxTy.u8 255 (by decide) exBytes (by decide) 2 1 (by decide) exBytes_long demoHasher

example : ([(([1, 2, 3] : Bytes), 1), ([4, 5, 6], 2)] ≠ []) ∧
    (∀ e ∈ [(([1, 2, 3] : Bytes), 1), ([4, 5, 6], 2)], 2 ≤ e.1.length) := by decide

/-! ### C17 -/

/-- C17 is false for index types wider than `usize`: a `u128`-indexed map cannot hold even one
entry. -/
theorem C17_counterexample (bh : Hasher) :
    CommonMap.fromVecWithHasher (V := Nat) checkedEnv IdxTy.u128 otherTy.enc [(1, 1)] bh = .panic :=
  CommonMap.fromVec_panics checkedEnv _ bh (by simp) (Or.inl (by decide))

/-- C17 is false for index types that can number more entries than an `i32` can count: a build with
overflow checks refuses `2^31` entries although `S::MAX` is not reached. -/
theorem C17_counters_counterexample [Target] (env : Env) (hoc : env.oc = true) (bh : Hasher) :
    ∃ payload : List (Int × Nat), payload.length ≤ (⟨32⟩ : IdxTy).max ∧
      CommonMap.fromVecWithHasher env ⟨32⟩ otherTy.enc payload bh = .panic := by
  have hS : (⟨32⟩ : IdxTy).capacity = some (2 ^ 31 - 1) := by
    have h := usz_ge
    unfold IdxTy.capacity
    rw [show (⟨32⟩ : IdxTy).max = 4294967295 from rfl, if_pos (by omega)]
    rfl
  refine ⟨List.replicate (2 ^ 31) (0, 0), ?_, CommonMap.fromVec_refuses hS _ bh (Or.inl ⟨hoc, ?_⟩)⟩
  · rw [List.length_replicate, show (⟨32⟩ : IdxTy).max = 4294967295 from rfl]; omega
  · rw [List.length_replicate]; omega

/-- `S` is `u8`, `u16`, `u32`, `u64` or `usize`; `cap` is `S::MAX` or `i32::MAX`, whichever is less.
Missing from C17: `u128`, and index types that can number more than `i32::MAX` entries, for which it
is false. -/
theorem C17_common_map_partial [Target] (env : Env) (S : IdxTy) (cap : Nat) (hS : S.capacity = some cap)
    (P : Probe K Q) (enc : K → List HCall) (hrefl : ∀ q, P.eq q q = true)
    (henc : ∀ k q, P.eq q (P.borrow k) = true → P.enc q = enc k)
    (payload : List (K × V)) (bh : Hasher) :
    (payload.length ≤ cap → ∃ m, CommonMap.fromVecWithHasher env S enc payload bh = .ok m ∧
      ∀ e ∈ payload, ∃ r, m.get P (P.borrow e.1) = .ok (some r)) ∧
    (env.oc = true ∧ cap < payload.length ∨ S.max < payload.length → CommonMap.fromVecWithHasher env S enc payload bh = .panic) := by
  refine ⟨fun h => ?_, fun h => ?_⟩
  · obtain ⟨m, hm, _⟩ := CommonMap.fromVec_ok env hS enc h bh
    refine ⟨m, hm, fun e he => ?_⟩
    obtain ⟨⟨o, _, hg, _, _, hx⟩, _⟩ := C30_common_map env S P enc henc payload bh m hm (by have := (IdxTy.capacity_some hS).2.2; omega)
      (P.borrow e.1)
    cases o with
    | none =>
      have := hx e he
      simp only [hrefl] at this
      cases this
    | some r => exact ⟨r.2, hg⟩
  · exact CommonMap.fromVec_refuses hS enc bh h

example := C17_common_map_partial checkedEnv IdxTy.u8 255 (by decide) otherTy.probe otherTy.enc otherTy_lawful.eq.refl exOther_enc
  exOther demoHasher

theorem C17_integer_map_partial [Target] (env : Env) (S : IdxTy) (cap : Nat) (hS : S.capacity = some cap)
    (payload : List (Int × V)) :
    (payload.length ≤ cap → ∃ m, IntegerMap.fromVec env S payload = .ok m ∧
      ∀ e ∈ payload, ∃ r, m.get e.1 = .ok (some r)) ∧
    (env.oc = true ∧ cap < payload.length ∨ S.max < payload.length → IntegerMap.fromVec env S payload = .panic) := by
  refine ⟨fun h => ?_, fun h => ?_⟩
  · obtain ⟨m, hm, _⟩ := IntegerMap.fromVec_ok env hS h
    refine ⟨m, hm, fun e he => ?_⟩
    obtain ⟨⟨o, _, hg, _, _, hx⟩, _⟩ := C30_integer_map env S payload m hm
      (by have := (IdxTy.capacity_some hS).2.2; omega) e.1
    cases o with
    | none =>
      have := hx e he
      simp at this
    | some r => exact ⟨r.2, hg⟩
  · exact IntegerMap.fromVec_refuses hS h

example := C17_integer_map_partial checkedEnv IdxTy.u8 255 (by decide) exOther

theorem C17_length_map_partial [Target] (env : Env) (S : IdxTy) (cap : Nat) (hS : S.capacity = some cap)
    (borrow : K → Q) (eq : Q → Q → Bool) (lenK : K → Nat) (lenQ : Q → Nat)
    (hrefl : ∀ q, eq q q = true) (hlen : ∀ k q, eq q (borrow k) = true → lenQ q = lenK k)
    (payload : List (K × V)) :
    (payload.length ≤ cap → ∃ m, LengthMap.fromVec env S lenK payload = .ok m ∧
      ∀ e ∈ payload, ∃ r, m.get borrow eq lenQ (borrow e.1) = .ok (some r)) ∧
    (env.oc = true ∧ cap < payload.length ∨ S.max < payload.length → LengthMap.fromVec env S lenK payload = .panic) := by
  refine ⟨fun h => ?_, fun h => ?_⟩
  · obtain ⟨m, hm, _⟩ := LengthMap.fromVec_ok env hS lenK h
    refine ⟨m, hm, fun e he => ?_⟩
    obtain ⟨⟨o, _, hg, _, _, hx⟩, _⟩ := C30_length_map env S borrow eq lenK lenQ hlen payload m hm
      (by have := (IdxTy.capacity_some hS).2.2; omega)
      (borrow e.1)
    cases o with
    | none =>
      have := hx e he
      simp only [hrefl] at this
      cases this
    | some r => exact ⟨r.2, hg⟩
  · exact LengthMap.fromVec_refuses hS lenK h

example := C17_length_map_partial checkedEnv IdxTy.u8 255 (by decide) id (fun a b : Bytes => decide (a = b)) List.length List.length
  (fun _ => decide_eq_true rfl) exBytes_len exBytes

theorem C17_left_slice_map_partial [Target] (env : Env) (S : IdxTy) (cap : Nat)
    (hS : S.capacity = some cap) (payload : List (Bytes × V)) (a b : Nat) (hab : a ≤ b)
    (hlong : ∀ e ∈ payload, b ≤ e.1.length) (bh : Hasher) :
    (payload.length ≤ cap → ∃ m, LeftSliceMap.fromVecWithHasher env S payload a b bh = .ok m ∧
      ∀ e ∈ payload, ∃ r, m.get e.1 = .ok (some r)) ∧
    (env.oc = true ∧ cap < payload.length ∨ S.max < payload.length → LeftSliceMap.fromVecWithHasher env S payload a b bh = .panic) := by
  refine ⟨fun h => ?_, fun h => ?_⟩
  · obtain ⟨m, hm, _, hx⟩ := C28_lookup env S cap hS payload h a b hab hlong bh
    refine ⟨m, hm, fun e he => ?_⟩
    obtain ⟨o, _, hg, _, _, hx⟩ := hx e.1
    cases o with
    | none =>
      have := hx e he
      simp at this
    | some r => exact ⟨r.2, hg⟩
  · exact LeftSliceMap.fromVec_refuses hS hab hlong bh h

example := C17_left_slice_map_partial checkedEnv IdxTy.u8 255 (by decide) exBytes 1 2 (by decide) exBytes_long demoHasher

/-- The sets inherit the limit; here for general sets. -/
theorem C17_common_set_partial [Target] (env : Env) (S : IdxTy) (cap : Nat) (hS : S.capacity = some cap)
    (P : Probe K Q) (enc : K → List HCall) (hrefl : ∀ q, P.eq q q = true)
    (henc : ∀ k q, P.eq q (P.borrow k) = true → P.enc q = enc k) (payload : List K) (bh : Hasher) :
    (payload.length ≤ cap → ∃ s, CommonSet.fromVecWithHasher env S enc payload bh = .ok s ∧
      ∀ x ∈ payload, s.contains P (P.borrow x) = .ok true) ∧
    (env.oc = true ∧ cap < payload.length ∨ S.max < payload.length → CommonSet.fromVecWithHasher env S enc payload bh = .panic) := by
  obtain ⟨h1, h2⟩ := C17_common_map_partial env S cap hS P enc hrefl henc (unitPayload payload) bh
  rw [unitPayload_length] at h1 h2
  refine ⟨fun h => ?_, fun h => ?_⟩
  · obtain ⟨m, hm, hx⟩ := h1 h
    refine ⟨⟨m⟩, by unfold CommonSet.fromVecWithHasher; rw [hm]; rfl, fun x hxm => ?_⟩
    obtain ⟨r, hr⟩ := hx (x, ()) (List.mem_map.2 ⟨x, hxm, rfl⟩)
    rw [CommonMap.get_eq_kv] at hr
    unfold CommonSet.contains CommonSet.get keyOf
    cases hk : m.getKeyValue P (P.borrow x) with
    | ok o => rw [hk] at hr; cases o <;> simp_all
    | panic => rw [hk] at hr; cases hr
    | ub => rw [hk] at hr; cases hr
  · unfold CommonSet.fromVecWithHasher
    rw [h2 h]
    rfl

example := C17_common_set_partial checkedEnv IdxTy.u8 255 (by decide) otherTy.probe otherTy.enc otherTy_lawful.eq.refl exOther_enc
  exElems demoHasher

theorem C17_integer_set_partial [Target] (env : Env) (S : IdxTy) (cap : Nat) (hS : S.capacity = some cap)
    (payload : List Int) :
    (payload.length ≤ cap → ∃ s, IntegerSet.fromVec env S payload = .ok s ∧
      ∀ x ∈ payload, s.contains x = .ok true) ∧
    (env.oc = true ∧ cap < payload.length ∨ S.max < payload.length → IntegerSet.fromVec env S payload = .panic) := by
  obtain ⟨h1, h2⟩ := C17_integer_map_partial env S cap hS (unitPayload payload)
  rw [unitPayload_length] at h1 h2
  refine ⟨fun h => ?_, fun h => ?_⟩
  · obtain ⟨m, hm, hx⟩ := h1 h
    refine ⟨⟨m⟩, by unfold IntegerSet.fromVec; rw [hm]; rfl, fun x hxm => ?_⟩
    obtain ⟨r, hr⟩ := hx (x, ()) (List.mem_map.2 ⟨x, hxm, rfl⟩)
    rw [IntegerMap.get_eq_kv] at hr
    simp only at hr
    unfold IntegerSet.contains IntegerSet.get keyOf
    simp only
    cases hk : m.getKeyValue x with
    | ok o => rw [hk] at hr; cases o <;> simp_all
    | panic => rw [hk] at hr; cases hr
    | ub => rw [hk] at hr; cases hr
  · unfold IntegerSet.fromVec
    rw [h2 h]
    rfl

example := C17_integer_set_partial checkedEnv IdxTy.u8 255 (by decide) exElems

/-- The facade picks an index type that suffices: general keys never hit the limit. -/
theorem C17_facade_partial [Target] (env : Env) (ty : KeyTy K) (payload : List (K × V))
    (hcap : payload.length < 2 ^ 31) (bh : Hasher) (hk : ty.kind = .other) :
    ∃ m, FrozenMap.new env ty payload bh = .ok m := by
  unfold FrozenMap.new
  split
  · exact ⟨_, rfl⟩
  · rw [hk]
    obtain ⟨m, hm, _⟩ := newCommon_total env ty hcap bh
    exact ⟨m, hm⟩

example := C17_facade_partial checkedEnv otherTy exOther (by decide) demoHasher rfl

/-- The usual index types and their limits. -/
example : IdxTy.u8.capacity = some 255 ∧ IdxTy.u16.capacity = some 65535 ∧
    (⟨32⟩ : IdxTy).capacity = some 2147483647 ∧ IdxTy.usize.capacity = some 2147483647 := by
  decide

end FC
