import Verif.Examples
import Verif.Lemmas.Reach

/-
C01, C04, C05: lookups of a constructed FrozenMap. C12: len and is_empty. C40: indexing.
C41: independence of hasher, order and sort.
-/

set_option autoImplicit false

namespace FC
variable {K V : Type}

/-! ### C01 -/

/-- Distinct keys: every `get` returns the payload's answer. -/
theorem C01_get_agrees_with_payload [Target] (env : Env) (ty : KeyTy K) (hty : LawfulKey ty)
    (payload : List (K × V)) (hcap : payload.length < 2 ^ 32) (hd : DistinctKeys ty.eq payload)
    (bh : Hasher) (m : FrozenMap K V) (hm : FrozenMap.new env ty payload bh = .ok m) (k : K) :
    ∃ o, m.get env ty k = .ok o ∧ value o = lookup ty.eq payload k := by
  have hb := new_built env hty hcap hm
  obtain ⟨o, h1, h2⟩ := hb.get hty (Or.inr hd) env k
  refine ⟨o, h1, ?_⟩
  rw [h2]
  exact (lookup_perm hty.eq hb.perm.symm hd k).symm

example := C01_get_agrees_with_payload checkedEnv u32Ty u32Ty_lawful exU32 (by decide) exU32_distinct demoHasher
  exMapU32 exMapU32_ok 9000

/-- A key paired with `v` in the payload is found with `v`. -/
theorem C01_present [Target] (env : Env) (ty : KeyTy K) (hty : LawfulKey ty)
    (payload : List (K × V)) (hcap : payload.length < 2 ^ 32) (hd : DistinctKeys ty.eq payload)
    (bh : Hasher) (m : FrozenMap K V) (hm : FrozenMap.new env ty payload bh = .ok m)
    (k s : K) (v : V) (hmem : (s, v) ∈ payload) (hks : ty.eq k s = true) :
    ∃ r, m.get env ty k = .ok (some r) ∧ r.val = v := by
  obtain ⟨o, h1, h2⟩ := C01_get_agrees_with_payload env ty hty payload hcap hd bh m hm k
  rw [lookup_unique hty.eq hd ⟨(s, v), hmem, hks, rfl⟩] at h2
  cases o with
  | none => simp [value] at h2
  | some r => exact ⟨r, h1, by simpa [value] using h2⟩

/-- A key equal to no payload key is not found. -/
theorem C01_absent [Target] (env : Env) (ty : KeyTy K) (hty : LawfulKey ty)
    (payload : List (K × V)) (hcap : payload.length < 2 ^ 32) (hd : DistinctKeys ty.eq payload)
    (bh : Hasher) (m : FrozenMap K V) (hm : FrozenMap.new env ty payload bh = .ok m)
    (k : K) (hk : ∀ e ∈ payload, ty.eq k e.1 = false) : m.get env ty k = .ok none := by
  obtain ⟨o, h1, h2⟩ := C01_get_agrees_with_payload env ty hty payload hcap hd bh m hm k
  have : lookup ty.eq payload k = none := by
    rw [lookup_eq_none]
    rintro ⟨e, he, hke⟩
    rw [hk e he] at hke
    simp at hke
  rw [this] at h2
  cases o with
  | none => exact h1
  | some r => simp [value] at h2

/-- Hypotheses are met by payloads that get each representation (see Examples). -/
example : ∃ m, FrozenMap.new checkedEnv u32Ty exRange demoHasher = .ok m ∧
    ∃ r, m.get checkedEnv u32Ty 13 = .ok (some r) ∧ r.val = 3 := by
  obtain ⟨m, h⟩ := exRange_ok
  exact ⟨m, h, C01_present _ _ u32Ty_lawful _ (by decide) exRange_distinct _ m h 13 13 3
      (by decide +kernel) (by decide +kernel)⟩
example : ∃ m, FrozenMap.new checkedEnv stringTy exLeft demoHasher = .ok m ∧
    m.get checkedEnv stringTy ⟨[], by decide⟩ = .ok none := by
  obtain ⟨m, h⟩ := exLeft_ok
  exact ⟨m, h, C01_absent _ _ stringTy_lawful _ (by decide) exLeft_distinct _ m h _
      (by decide +kernel)⟩

/-! ### C04 -/

/-- C04 is false: from keys 0, 0, 3, 3 the map is judged a contiguous range, `get(&1)` finds a value
though 1 is no payload key. -/
theorem C04_counterexample :
    ∃ m, FrozenMap.new checkedEnv u32Ty exDup demoHasher = .ok m ∧
      m.get checkedEnv u32Ty 1 = .ok (some ⟨1, 2⟩) ∧ ¬ Present u32Ty.eq exDup 1 := by
  refine ⟨.u32Range ⟨0, 3, [(0, 1), (0, 2), (3, 3), (3, 4)]⟩, ?_, by decide +kernel, ?_⟩
  · rfl
  · unfold Present
    decide +kernel

/-- Presence and values are exact for every payload, repeated keys included, unless the range
representation was chosen for repeated `u32` keys. Missing from C04: that one case, where it is
false. -/
theorem C04_presence_exact_partial [Target] (env : Env) (ty : KeyTy K) (hty : LawfulKey ty)
    (payload : List (K × V)) (hcap : payload.length < 2 ^ 32) (bh : Hasher) (m : FrozenMap K V)
    (hm : FrozenMap.new env ty payload bh = .ok m)
    (hr : (∀ r, m ≠ .u32Range r) ∨ DistinctKeys ty.eq payload) (k : K) :
    ∃ o, m.get env ty k = .ok o ∧ (o.isSome = true ↔ Present ty.eq payload k) ∧
      ∀ r, o = some r → Associated ty.eq payload k r.val := by
  have hb := new_built env hty hcap hm
  obtain ⟨o, h1, h2⟩ := hb.get hty hr env k
  refine ⟨o, h1, ?_, ?_⟩
  · rw [← present_perm hb.perm]
    cases o with
    | none => simpa using lookup_eq_none.1 h2.symm
    | some r =>
      have : ¬ lookup ty.eq (m.entries ty) k = none := by rw [← h2]; simp [value]
      rw [lookup_eq_none, not_not] at this
      simp [this]
  · rintro r rfl
    rw [← associated_perm hb.perm]
    exact lookup_eq_some h2.symm

def exRepeats : List (Int × Nat) := [(1, 1), (1, 2), (3, 3), (3, 4)]
/-- The range representation was chosen. -/
def FrozenMap.isRange : FrozenMap K V → Bool
  | .u32Range _ => true
  | _ => false
example := C04_presence_exact_partial checkedEnv otherTy otherTy_lawful exRepeats (by decide) demoHasher _
  (Res.built (by decide +kernel))
  (Or.inl (fun _ h => Bool.noConfusion ((show FrozenMap.isRange
    ((FrozenMap.new checkedEnv otherTy exRepeats demoHasher).get _) = false by decide +kernel).symm.trans
      (congrArg FrozenMap.isRange h)))) 1

/-- In particular for general and string keys, and for `u32` payloads below four entries, whatever
is repeated. -/
theorem C04_presence_exact_not_u32_partial [Target] (env : Env) (ty : KeyTy K) (hty : LawfulKey ty)
    (payload : List (K × V)) (hcap : payload.length < 2 ^ 32)
    (hk : (∀ f g, ty.kind ≠ .u32 f g) ∨ payload.length < 4)
    (bh : Hasher) (m : FrozenMap K V) (hm : FrozenMap.new env ty payload bh = .ok m) (k : K) :
    ∃ o, m.get env ty k = .ok o ∧ (o.isSome = true ↔ Present ty.eq payload k) ∧
      ∀ r, o = some r → Associated ty.eq payload k r.val := by
  refine C04_presence_exact_partial env ty hty payload hcap bh m hm (Or.inl ?_) k
  rintro r rfl
  rcases hk with hk | hl
  · obtain ⟨⟨f, g, h⟩, _⟩ := (new_built env hty hcap hm).shape r rfl
    exact hk f g h
  · unfold FrozenMap.new at hm
    rw [if_pos hl] at hm
    simp at hm

/-- Repeated general keys meet the hypotheses. -/
example : ∃ m, FrozenMap.new checkedEnv otherTy [(1, 1), (1, 2), (3, 3), (3, 4)] demoHasher = .ok m ∧
    ∀ k, ∃ o, m.get checkedEnv otherTy k = .ok o ∧
      (o.isSome = true ↔ Present otherTy.eq [(1, 1), (1, 2), (3, 3), (3, 4)] k) := by
  obtain ⟨m, h⟩ := Res.of_isOk (r := FrozenMap.new checkedEnv otherTy
    [(1, 1), (1, 2), (3, 3), (3, 4)] demoHasher) (by decide +kernel)
  refine ⟨m, h, fun k => ?_⟩
  obtain ⟨o, h1, h2, _⟩ := C04_presence_exact_not_u32_partial _ _ otherTy_lawful _ (by decide)
    (Or.inl (by simp [otherTy])) _ m h k
  exact ⟨o, h1, h2⟩

/-! ### C05 -/

/-- `get`, `get_key_value`, `get_mut` and `contains_key` agree on every reachable map and probe,
and none of them panics or goes out of bounds. -/
theorem C05_lookups_agree [Target] (env : Env) (ty : KeyTy K) (hty : LawfulKey ty)
    (payload : List (K × V)) (hcap : payload.length < 2 ^ 32) (bh : Hasher) (m : FrozenMap K V)
    (hm : Reachable env ty payload bh m) (k : K) :
    ∃ o : Option (K × Ref V), m.getKeyValue env ty k = .ok o ∧
      m.get env ty k = .ok (o.map (·.2)) ∧ m.getMut env ty k = .ok (o.map (·.2)) ∧
      m.containsKey env ty k = .ok o.isSome := by
  have hs := hm.safe hty hcap
  have hg := hs.get_kv hty env k
  obtain ⟨o, ho⟩ : ∃ o, m.getKeyValue env ty k = .ok o := by
    rcases hs.kv hty env k with ⟨_, h⟩ | ⟨_, _, _, _, h⟩ <;> exact ⟨_, h⟩
  rw [ho, Res.map_ok] at hg
  refine ⟨o, ho, hg, by rw [FrozenMap.getMut_eq, hg], ?_⟩
  unfold FrozenMap.containsKey
  rw [hg]
  simp

/-- With distinct payload keys, the key returned is the one supplied at construction that equals the
probe, and it comes with its value. -/
theorem C05_stored_key [Target] (env : Env) (ty : KeyTy K) (hty : LawfulKey ty)
    (payload : List (K × V)) (hcap : payload.length < 2 ^ 32) (hd : DistinctKeys ty.eq payload)
    (bh : Hasher) (m : FrozenMap K V) (hm : FrozenMap.new env ty payload bh = .ok m)
    (k s : K) (r : Ref V) (h : m.getKeyValue env ty k = .ok (some (s, r))) :
    (s, r.val) ∈ payload ∧ ty.eq k s = true := by
  have hb := new_built env hty hcap hm
  rw [(hb.good (Or.inr hd)).getKeyValue hty] at h
  obtain ⟨_, h2, h3, _⟩ := scan_some (Res.ok.inj h)
  exact ⟨hb.perm.mem_iff.1 (List.mem_of_getElem? h2), h3⟩

example := C05_stored_key checkedEnv u32Ty u32Ty_lawful exRange (by decide) exRange_distinct demoHasher exMapRange
  exMapRange_ok 13 13 ⟨3, 3⟩ (by decide +kernel)

/-- The hypotheses of both are met by every constructed example, e.g. repeated `u32` keys. -/
example : ∃ m, FrozenMap.new checkedEnv u32Ty exDup demoHasher = .ok m ∧
    m.containsKey checkedEnv u32Ty 2 = .ok true ∧
    Reachable checkedEnv u32Ty exDup demoHasher m :=
  ⟨.u32Range ⟨0, 3, [(0, 1), (0, 2), (3, 3), (3, 4)]⟩, rfl, by decide +kernel, .new rfl⟩
example : ∃ m, FrozenMap.new checkedEnv otherTy exOther demoHasher = .ok m ∧
    ∃ s r, m.getKeyValue checkedEnv otherTy 70 = .ok (some (s, r)) := by
  obtain ⟨m, h⟩ := exOther_ok
  obtain ⟨r, hr, _⟩ := C01_present _ _ otherTy_lawful _ (by decide) exOther_distinct _ m h 70 70 3
    (by decide +kernel) (by decide +kernel)
  obtain ⟨o, h1, h2, _⟩ := C05_lookups_agree _ _ otherTy_lawful _ (by decide) _ m (.new h) 70
  rw [hr] at h2
  cases o with
  | none => simp at h2
  | some x => exact ⟨m, h, x.1, x.2, h1⟩

/-! ### C12 -/

/-- `len` and `is_empty` report the payload size on every reachable map. -/
theorem C12_len [Target] (env : Env) (ty : KeyTy K) (hty : LawfulKey ty)
    (payload : List (K × V)) (bh : Hasher) (m : FrozenMap K V)
    (hm : Reachable env ty payload bh m) :
    m.len = payload.length ∧ (m.isEmpty = true ↔ payload = []) := by
  have hl := hm.len hty
  refine ⟨hl, ?_⟩
  unfold FrozenMap.isEmpty
  rw [hl, decide_eq_true_eq]
  exact List.length_eq_zero_iff

example := C12_len checkedEnv stringTy stringTy_lawful exLen demoHasher exMapLen (.new exMapLen_ok)

example : Reachable checkedEnv u32Ty exScan demoHasher (.scanning ⟨exScan⟩) := .new rfl

/-! ### C40 -/

/-- `map[k]` and `map[k] = ..` panic exactly when `get` finds nothing and otherwise reach the place
`get` and `get_mut` reach. -/
theorem C40_index [Target] (env : Env) (ty : KeyTy K) (hty : LawfulKey ty)
    (payload : List (K × V)) (hcap : payload.length < 2 ^ 32) (bh : Hasher) (m : FrozenMap K V)
    (hm : Reachable env ty payload bh m) (k : K) :
    (m.get env ty k = .ok none ∧ m.index env ty k = .panic ∧ m.indexMut env ty k = .panic) ∨
    ∃ r, m.get env ty k = .ok (some r) ∧ m.getMut env ty k = .ok (some r) ∧
      m.index env ty k = .ok r ∧ m.indexMut env ty k = .ok r := by
  obtain ⟨o, h1, h2, h3, _⟩ := C05_lookups_agree env ty hty payload hcap bh m hm k
  unfold FrozenMap.index FrozenMap.indexMut indexOf
  rw [h2, h3]
  cases o with
  | none => exact Or.inl ⟨rfl, rfl, rfl⟩
  | some x => exact Or.inr ⟨x.2, rfl, rfl, rfl, rfl⟩

example := C40_index checkedEnv u32Ty u32Ty_lawful exU32 (by decide) demoHasher exMapU32 (.new exMapU32_ok) 8

/-- With distinct payload keys: panics exactly for keys the payload does not have. -/
theorem C40_index_panics_iff [Target] (env : Env) (ty : KeyTy K) (hty : LawfulKey ty)
    (payload : List (K × V)) (hcap : payload.length < 2 ^ 32) (hd : DistinctKeys ty.eq payload)
    (bh : Hasher) (m : FrozenMap K V) (hm : FrozenMap.new env ty payload bh = .ok m) (k : K) :
    (m.index env ty k = .panic ↔ ¬ Present ty.eq payload k) ∧
    (m.indexMut env ty k = .panic ↔ ¬ Present ty.eq payload k) ∧
    ∀ v, Associated ty.eq payload k v → ∃ r, m.index env ty k = .ok r ∧ r.val = v := by
  obtain ⟨o, h1, h2⟩ := C01_get_agrees_with_payload env ty hty payload hcap hd bh m hm k
  rw [← lookup_eq_none, ← h2]
  rcases C40_index env ty hty payload hcap bh m (.new hm) k with ⟨a, b, c⟩ | ⟨r, a, b, c, d⟩
  · rw [h1] at a
    cases a
    refine ⟨by simp [b, value], by simp [c, value], ?_⟩
    intro v hv
    rw [lookup_unique hty.eq hd hv] at h2
    simp [value] at h2
  · rw [h1] at a
    cases a
    refine ⟨by simp [c, value], by simp [d, value], ?_⟩
    intro v hv
    rw [lookup_unique hty.eq hd hv] at h2
    exact ⟨r, c, by simpa [value] using h2⟩

example := C40_index_panics_iff checkedEnv u32Ty u32Ty_lawful exU32 (by decide) exU32_distinct demoHasher
  exMapU32 exMapU32_ok 8

example : ∃ m, FrozenMap.new checkedEnv u32Ty exScan demoHasher = .ok m ∧
    m.index checkedEnv u32Ty 11 = .panic ∧ m.index checkedEnv u32Ty 500 = .ok ⟨1, 2⟩ :=
  ⟨.scanning ⟨exScan⟩, rfl, by decide +kernel, by decide +kernel⟩

/-! ### C41 -/

/-- Permuted payloads, different hashers, sorts and overflow-check modes: the same answers. -/
theorem C41_content_independent [Target] (env env' : Env) (ty : KeyTy K) (hty : LawfulKey ty)
    (payload payload' : List (K × V)) (hcap : payload.length < 2 ^ 32)
    (hd : DistinctKeys ty.eq payload) (hp : payload.Perm payload') (bh bh' : Hasher)
    (m m' : FrozenMap K V) (hm : FrozenMap.new env ty payload bh = .ok m)
    (hm' : FrozenMap.new env' ty payload' bh' = .ok m') :
    (∀ k, ∃ o o', m.get env ty k = .ok o ∧ m'.get env' ty k = .ok o' ∧ value o = value o') ∧
    (∀ k, m.containsKey env ty k = m'.containsKey env' ty k) ∧ m.len = m'.len := by
  have hcap' : payload'.length < 2 ^ 32 := hp.length_eq ▸ hcap
  have hd' := hd.perm hty.eq hp
  have key : ∀ k, ∃ o o', m.get env ty k = .ok o ∧ m'.get env' ty k = .ok o' ∧
      value o = value o' := by
    intro k
    obtain ⟨o, h1, h2⟩ := C01_get_agrees_with_payload env ty hty payload hcap hd bh m hm k
    obtain ⟨o', h1', h2'⟩ := C01_get_agrees_with_payload env' ty hty payload' hcap' hd' bh' m' hm' k
    exact ⟨o, o', h1, h1', by rw [h2, h2', lookup_perm hty.eq hp hd]⟩
  refine ⟨key, ?_, ?_⟩
  · intro k
    obtain ⟨o, o', h1, h2, h3⟩ := key k
    unfold FrozenMap.containsKey
    rw [h1, h2]
    cases o <;> cases o' <;> simp_all [value]
  · rw [(C12_len env ty hty payload bh m (.new hm)).1,
      (C12_len env' ty hty payload' bh' m' (.new hm')).1, hp.length_eq]

example := C41_content_independent checkedEnv ⟨false, reverseUnstable⟩ u32Ty u32Ty_lawful exU32 exU32.reverse
  (by decide) exU32_distinct (List.reverse_perm _).symm demoHasher (fun _ => 0) exMapU32 _ exMapU32_ok
  (Res.built (r := FrozenMap.new ⟨false, reverseUnstable⟩ u32Ty exU32.reverse (fun _ => 0)) (by decide +kernel))

/-- Two orders, two hashers, two sorts. -/
example : exU32.Perm exU32.reverse ∧ DistinctKeys u32Ty.eq exU32 ∧
    (∃ m, FrozenMap.new checkedEnv u32Ty exU32 demoHasher = .ok m) ∧
    ∃ m, FrozenMap.new ⟨false, reverseUnstable⟩ u32Ty exU32.reverse (fun _ => 0) = .ok m := by
  exact ⟨(List.reverse_perm _).symm, exU32_distinct, exU32_ok, exU32_rev_ok⟩

end FC
