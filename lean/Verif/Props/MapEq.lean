import Verif.Examples
import Verif.Lemmas.Equality
import Verif.Props.MapLookup

/-
C15, C16 (maps) and the equality part of C41.
-/

set_option autoImplicit false

namespace FC
variable {K V : Type}

/-! ### C15 -/

/-- With distinct keys, `a == b` returns and is true exactly when every `get` answers the same on
both maps: same keys present, values equal under `V`'s `==`. The maps may come from different
payloads, hashers and representations, and may have been written to. -/
theorem C15_eq_iff_same_answers [Target] (env : Env) (ty : KeyTy K) (hty : LawfulKey ty)
    (veq : V → V → Bool) (p q : List (K × V)) (hp : p.length < 2 ^ 32) (hq : q.length < 2 ^ 32)
    (hdp : DistinctKeys ty.eq p) (hdq : DistinctKeys ty.eq q) (env₁ env₂ : Env) (bh bh' : Hasher)
    (a b : FrozenMap K V) (ha : Reachable env₁ ty p bh a) (hb : Reachable env₂ ty q bh' b) :
    ∃ r, a.eq env ty veq b = .ok r ∧
      (r = true ↔ ∀ k, ∃ o o', a.get env ty k = .ok o ∧ b.get env ty k = .ok o' ∧
        SameAnswer veq (value o) (value o')) := by
  unfold FrozenMap.eq
  rw [(ha.safe hty hp).len, (hb.safe hty hq).len]
  obtain ⟨r, h1, h2⟩ := mapEq_spec hty.eq veq (ha.distinct hty hdp) (hb.distinct hty hdq)
    (hb.get hty hq hdq env)
  refine ⟨r, h1, h2.trans (forall_congr' fun k => ?_)⟩
  obtain ⟨o, ho, hov⟩ := ha.get hty hp hdp env k
  obtain ⟨o', ho', hov'⟩ := hb.get hty hq hdq env k
  rw [← hov, ← hov']
  constructor
  · intro h; exact ⟨o, o', ho, ho', h⟩
  · rintro ⟨x, y, hx, hy, h⟩
    rw [ho] at hx; rw [ho'] at hy
    cases hx; cases hy
    exact h

example := C15_eq_iff_same_answers releaseEnv u32Ty u32Ty_lawful (· == ·) exU32 exRange (by decide) (by decide)
  exU32_distinct exRange_distinct checkedEnv checkedEnv demoHasher demoHasher exMapU32 exMapRange
  (.new exMapU32_ok) (.new exMapRange_ok)

/-- In terms of the payloads of two freshly built maps. -/
theorem C15_eq_iff_payload [Target] (env : Env) (ty : KeyTy K) (hty : LawfulKey ty)
    (veq : V → V → Bool) (p q : List (K × V)) (hp : p.length < 2 ^ 32) (hq : q.length < 2 ^ 32)
    (hdp : DistinctKeys ty.eq p) (hdq : DistinctKeys ty.eq q) (env₁ env₂ : Env) (bh bh' : Hasher)
    (a b : FrozenMap K V) (ha : FrozenMap.new env₁ ty p bh = .ok a)
    (hb : FrozenMap.new env₂ ty q bh' = .ok b) :
    ∃ r, a.eq env ty veq b = .ok r ∧
      (r = true ↔ ∀ k, SameAnswer veq (lookup ty.eq p k) (lookup ty.eq q k)) := by
  obtain ⟨r, h1, h2⟩ := C15_eq_iff_same_answers env ty hty veq p q hp hq hdp hdq env₁ env₂ bh bh' a b
    (.new ha) (.new hb)
  refine ⟨r, h1, h2.trans (forall_congr' fun k => ?_)⟩
  obtain ⟨o, ho, hov⟩ := (Reachable.new ha).get hty hp hdp env k
  obtain ⟨o', ho', hov'⟩ := (Reachable.new hb).get hty hq hdq env k
  rw [lookup_perm hty.eq (new_built env₁ hty hp ha).perm
    ((Reachable.new ha).distinct hty hdp)] at hov
  rw [lookup_perm hty.eq (new_built env₂ hty hq hb).perm
    ((Reachable.new hb).distinct hty hdq)] at hov'
  rw [← hov, ← hov']
  constructor
  · rintro ⟨x, y, hx, hy, h⟩
    rw [ho] at hx; rw [ho'] at hy
    cases hx; cases hy
    exact h
  · intro h; exact ⟨o, o', ho, ho', h⟩

/-- Reflexive, when `V`'s `==` is. -/
theorem C15_refl [Target] (env : Env) (ty : KeyTy K) (hty : LawfulKey ty)
    (veq : V → V → Bool) (hv : ∀ v, veq v v = true) (p : List (K × V)) (hp : p.length < 2 ^ 32)
    (hdp : DistinctKeys ty.eq p) (env₁ : Env) (bh : Hasher) (a : FrozenMap K V)
    (ha : Reachable env₁ ty p bh a) : a.eq env ty veq a = .ok true := by
  obtain ⟨r, h1, h2⟩ := C15_eq_iff_same_answers env ty hty veq p p hp hp hdp hdp env₁ env₁ bh bh a a ha ha
  rw [h1, h2.2]
  intro k
  obtain ⟨o, ho, _⟩ := ha.get hty hp hdp env k
  refine ⟨o, o, ho, ho, ?_⟩
  cases value o <;> simp [SameAnswer, hv]

example := C15_refl releaseEnv stringTy stringTy_lawful (· == ·) (by simp) exLeft (by decide) exLeft_distinct
  checkedEnv demoHasher exMapLeft (.new exMapLeft_ok)

/-- Symmetric, when `V`'s `==` is. -/
theorem C15_symm [Target] (env : Env) (ty : KeyTy K) (hty : LawfulKey ty)
    (veq : V → V → Bool) (hv : ∀ v w, veq v w = true → veq w v = true)
    (p q : List (K × V)) (hp : p.length < 2 ^ 32) (hq : q.length < 2 ^ 32)
    (hdp : DistinctKeys ty.eq p) (hdq : DistinctKeys ty.eq q) (env₁ env₂ : Env) (bh bh' : Hasher)
    (a b : FrozenMap K V) (ha : Reachable env₁ ty p bh a) (hb : Reachable env₂ ty q bh' b) :
    a.eq env ty veq b = b.eq env ty veq a := by
  have key : ∀ {p q : List (K × V)} (_ : p.length < 2 ^ 32) (_ : q.length < 2 ^ 32)
      (_ : DistinctKeys ty.eq p) (_ : DistinctKeys ty.eq q) {env₁ env₂ : Env} {bh bh' : Hasher}
      {a b : FrozenMap K V} (_ : Reachable env₁ ty p bh a) (_ : Reachable env₂ ty q bh' b),
      a.eq env ty veq b = .ok true → b.eq env ty veq a = .ok true := by
    intro p q hp hq hdp hdq env₁ env₂ bh bh' a b ha hb h
    obtain ⟨r, h1, h2⟩ := C15_eq_iff_same_answers env ty hty veq p q hp hq hdp hdq env₁ env₂ bh bh' a b ha hb
    obtain ⟨r', h1', h2'⟩ := C15_eq_iff_same_answers env ty hty veq q p hq hp hdq hdp env₂ env₁ bh' bh b a hb ha
    rw [h1] at h
    cases h
    rw [h1', h2'.2]
    intro k
    obtain ⟨o, o', x, y, z⟩ := h2.1 rfl k
    exact ⟨o', o, y, x, z.symm hv⟩
  obtain ⟨r, h1, -⟩ := C15_eq_iff_same_answers env ty hty veq p q hp hq hdp hdq env₁ env₂ bh bh' a b ha hb
  obtain ⟨r', h1', -⟩ := C15_eq_iff_same_answers env ty hty veq q p hq hp hdq hdp env₂ env₁ bh' bh b a hb ha
  cases r with
  | true => rw [h1, key hp hq hdp hdq ha hb h1]
  | false =>
    cases r' with
    | false => rw [h1, h1']
    | true => rw [key hq hp hdq hdp hb ha h1', h1']

example := C15_symm releaseEnv u32Ty u32Ty_lawful (· == ·) (by simp) exU32 exRange (by decide) (by decide)
  exU32_distinct exRange_distinct checkedEnv checkedEnv demoHasher demoHasher exMapU32 exMapRange
  (.new exMapU32_ok) (.new exMapRange_ok)

/-- Transitive, when `V`'s `==` is. -/
theorem C15_trans [Target] (env : Env) (ty : KeyTy K) (hty : LawfulKey ty)
    (veq : V → V → Bool) (hv : ∀ u v w, veq u v = true → veq v w = true → veq u w = true)
    (p q s : List (K × V)) (hp : p.length < 2 ^ 32) (hq : q.length < 2 ^ 32) (hs : s.length < 2 ^ 32)
    (hdp : DistinctKeys ty.eq p) (hdq : DistinctKeys ty.eq q) (hds : DistinctKeys ty.eq s)
    (env₁ env₂ env₃ : Env) (bh bh' bh'' : Hasher) (a b c : FrozenMap K V)
    (ha : Reachable env₁ ty p bh a) (hb : Reachable env₂ ty q bh' b)
    (hc : Reachable env₃ ty s bh'' c)
    (h1 : a.eq env ty veq b = .ok true) (h2 : b.eq env ty veq c = .ok true) :
    a.eq env ty veq c = .ok true := by
  obtain ⟨r, e1, i1⟩ := C15_eq_iff_same_answers env ty hty veq p q hp hq hdp hdq env₁ env₂ bh bh' a b ha hb
  obtain ⟨r', e2, i2⟩ := C15_eq_iff_same_answers env ty hty veq q s hq hs hdq hds env₂ env₃ bh' bh'' b c hb hc
  obtain ⟨r'', e3, i3⟩ := C15_eq_iff_same_answers env ty hty veq p s hp hs hdp hds env₁ env₃ bh bh'' a c ha hc
  rw [e1] at h1; rw [e2] at h2
  cases h1; cases h2
  rw [e3, i3.2]
  intro k
  obtain ⟨o, o', x, y, z⟩ := i1.1 rfl k
  obtain ⟨u, u', x', y', z'⟩ := i2.1 rfl k
  rw [y] at x'
  cases x'
  exact ⟨o, u', x, y', z.trans hv z'⟩

example := C15_trans releaseEnv otherTy otherTy_lawful (· == ·) (by simp) exOther exOther exOther (by decide)
  (by decide) (by decide) exOther_distinct exOther_distinct exOther_distinct checkedEnv checkedEnv checkedEnv
  demoHasher demoHasher demoHasher exMapOther exMapOther exMapOther (.new exMapOther_ok) (.new exMapOther_ok)
  (.new exMapOther_ok) (by decide +kernel) (by decide +kernel)

/-- Different orders, hashers and sorts: the maps compare equal both ways. -/
example : ∃ a b, FrozenMap.new checkedEnv u32Ty exU32 demoHasher = .ok a ∧
    FrozenMap.new checkedEnv u32Ty exU32.reverse (fun _ => 0) = .ok b ∧
    a.eq checkedEnv u32Ty (fun x y => decide (x = y)) b = .ok true := by
  obtain ⟨a, ha⟩ := exU32_ok
  obtain ⟨b, hb⟩ := Res.of_isOk (r := FrozenMap.new checkedEnv u32Ty exU32.reverse (fun _ => 0))
    (by decide +kernel)
  refine ⟨a, b, ha, hb, ?_⟩
  have hp : exU32.Perm exU32.reverse := (List.reverse_perm _).symm
  obtain ⟨r, h1, h2⟩ := C15_eq_iff_payload checkedEnv u32Ty u32Ty_lawful (fun x y => decide (x = y))
    exU32 exU32.reverse (by decide) (by decide) exU32_distinct
    (exU32_distinct.perm u32Ty_lawful.eq hp) _ _ _ _ a b ha hb
  rw [h1, h2.2]
  intro k
  rw [lookup_perm u32Ty_lawful.eq hp exU32_distinct]
  cases lookup u32Ty.eq exU32.reverse k <;> simp [SameAnswer]

/-- A changed value, or a missing key, makes them unequal. -/
example : Reachable checkedEnv u32Ty exScan demoHasher (.scanning ⟨exScan⟩) ∧
    (FrozenMap.scanning ⟨exScan⟩).eq checkedEnv u32Ty (fun x y => decide (x = y))
      ((FrozenMap.scanning ⟨exScan⟩).write 1 99) = .ok false ∧
    (FrozenMap.scanning ⟨exScan⟩).eq checkedEnv u32Ty (fun x y => decide (x = y))
      (.scanning ⟨[(10, 1), (500, 2), (8, 3)]⟩) = .ok false :=
  ⟨.new rfl, by decide +kernel, by decide +kernel⟩

/-! ### C16 -/

/-- C16 is false: with repeated keys `==` can hold one way only. -/
theorem C16_counterexample :
    ∃ a b : FrozenMap UInt32 Nat,
      FrozenMap.new checkedEnv u32Ty [(1, 0), (1, 0), (2, 0)] demoHasher = .ok a ∧
      FrozenMap.new checkedEnv u32Ty [(1, 0), (2, 0), (3, 0)] demoHasher = .ok b ∧
      a.eq checkedEnv u32Ty (fun x y => decide (x = y)) b = .ok true ∧
      b.eq checkedEnv u32Ty (fun x y => decide (x = y)) a = .ok false :=
  ⟨.scanning ⟨[(1, 0), (1, 0), (2, 0)]⟩, .scanning ⟨[(1, 0), (2, 0), (3, 0)]⟩, rfl, rfl,
    by decide +kernel, by decide +kernel⟩

/-- Symmetric when neither payload repeats keys. Missing from C16: repeated keys, where it is
false. -/
theorem C16_map_symm_partial [Target] (env : Env) (ty : KeyTy K) (hty : LawfulKey ty)
    (veq : V → V → Bool) (hv : ∀ v w, veq v w = true → veq w v = true)
    (p q : List (K × V)) (hp : p.length < 2 ^ 32) (hq : q.length < 2 ^ 32)
    (hdp : DistinctKeys ty.eq p) (hdq : DistinctKeys ty.eq q) (env₁ env₂ : Env) (bh bh' : Hasher)
    (a b : FrozenMap K V) (ha : Reachable env₁ ty p bh a) (hb : Reachable env₂ ty q bh' b)
    (h : a.eq env ty veq b = .ok true) : b.eq env ty veq a = .ok true := by
  rw [← C15_symm env ty hty veq hv p q hp hq hdp hdq env₁ env₂ bh bh' a b ha hb]
  exact h

example := C16_map_symm_partial releaseEnv otherTy otherTy_lawful (· == ·) (by simp) exOther exOther (by decide)
  (by decide) exOther_distinct exOther_distinct checkedEnv checkedEnv demoHasher demoHasher exMapOther exMapOther
  (.new exMapOther_ok) (.new exMapOther_ok) (by decide +kernel)

/-- It is enough that the map on the left has distinct keys, if the other is not one of the range
maps with repeated keys: then `a == b` implies that `b` has distinct keys too and that `b == a`.
Missing from C16: repeated keys on the left, where it is false. -/
theorem C16_map_receiver_distinct_partial [Target] (env : Env) (ty : KeyTy K) (hty : LawfulKey ty)
    (veq : V → V → Bool) (hv : ∀ v w, veq v w = true → veq w v = true)
    (p q : List (K × V)) (hp : p.length < 2 ^ 32) (hq : q.length < 2 ^ 32)
    (hdp : DistinctKeys ty.eq p) (env₁ env₂ : Env) (bh bh' : Hasher)
    (a b : FrozenMap K V) (ha : Reachable env₁ ty p bh a) (hb : Reachable env₂ ty q bh' b)
    (hr : (∀ r, b ≠ .u32Range r) ∨ DistinctKeys ty.eq q)
    (h : a.eq env ty veq b = .ok true) :
    DistinctKeys ty.eq q ∧ b.eq env ty veq a = .ok true := by
  have hdq : DistinctKeys ty.eq q := by
    rcases hr with hr | hd
    · have h' := h
      unfold FrozenMap.eq mapEq at h'
      rw [(ha.safe hty hp).len, (hb.safe hty hq).len] at h'
      split at h'
      · simp at h'
      · rename_i hlen
        have hall := Res.allList_true h'
        have hkb := hb.keys hty
        have hda := (ha.distinct hty hdp).keys
        have hdb := distinct_of_match hty.eq hda (q := (b.entries ty).map (·.1)) (by
          intro x hx
          obtain ⟨e, he, rfl⟩ := List.mem_map.1 hx
          have h1 := hall e he
          obtain ⟨o, ho, hov⟩ := hb.get_not_range hty hq hr env e.1
          rw [ho, Res.map_ok] at h1
          cases o with
          | none => simp at h1
          | some r =>
            obtain ⟨e', he', hk', _⟩ := lookup_eq_some hov.symm
            exact ⟨e'.1, List.mem_map_of_mem he', hk'⟩) (by simp; omega)
        have := (hkb.pairwise_iff (fun {a b} hab => by rw [hty.eq.symm_eq]; exact hab)).1 hdb
        rwa [List.pairwise_map] at this
    · exact hd
  exact ⟨hdq, C16_map_symm_partial env ty hty veq hv p q hp hq hdp hdq env₁ env₂ bh bh' a b ha hb h⟩

/-- Four distinct keys against a payload of general keys that is not known to be distinct. -/
example : ∃ a b, FrozenMap.new checkedEnv otherTy [(1, 1), (2, 2), (3, 3), (4, 4)] demoHasher = .ok a ∧
    FrozenMap.new checkedEnv otherTy [(4, 4), (3, 3), (1, 1), (2, 2)] (fun _ => 0) = .ok b ∧
    b.eq checkedEnv otherTy (fun x y : Nat => decide (x = y)) a = .ok true := by
  obtain ⟨a, ha⟩ := Res.of_isOk (r := FrozenMap.new checkedEnv otherTy
    [(1, 1), (2, 2), (3, 3), (4, 4)] demoHasher) (by decide +kernel)
  obtain ⟨b, hb⟩ := Res.of_isOk (r := FrozenMap.new checkedEnv otherTy
    [(4, 4), (3, 3), (1, 1), (2, 2)] (fun _ => 0)) (by decide +kernel)
  refine ⟨a, b, ha, hb, ?_⟩
  have hab : ((FrozenMap.new checkedEnv otherTy [(1, 1), (2, 2), (3, 3), (4, 4)] demoHasher).bind
      fun a => (FrozenMap.new checkedEnv otherTy [(4, 4), (3, 3), (1, 1), (2, 2)] (fun _ => 0)).bind
      fun b => a.eq checkedEnv otherTy (fun x y : Nat => decide (x = y)) b) = .ok true := by
    decide +kernel
  rw [ha, hb] at hab
  simp only [Res.bind] at hab
  refine (C16_map_receiver_distinct_partial checkedEnv otherTy otherTy_lawful _ (by
    intro v w h; simpa [eq_comm] using h) _ _ (by decide) (by decide)
    (by unfold DistinctKeys; decide +kernel) _ _ _ _ a b (.new ha) (.new hb) (Or.inl ?_) hab).2
  rintro r rfl
  obtain ⟨⟨f, g, h⟩, _⟩ := (new_built checkedEnv otherTy_lawful (by decide) hb).shape r rfl
  simp [otherTy] at h

/-- The exception is needed: a map of distinct `u32` keys on the left can equal a range map with
repeated keys one way only. -/
theorem C16_range_counterexample :
    ∃ a b : FrozenMap UInt32 Nat,
      FrozenMap.new checkedEnv u32Ty [(0, 0), (1, 1), (2, 2), (3, 3)] demoHasher = .ok a ∧
      FrozenMap.new checkedEnv u32Ty [(0, 0), (0, 1), (3, 2), (3, 3)] demoHasher = .ok b ∧
      a.eq checkedEnv u32Ty (fun x y => decide (x = y)) b = .ok true ∧
      b.eq checkedEnv u32Ty (fun x y => decide (x = y)) a = .ok false :=
  ⟨.u32Range ⟨0, 3, [(0, 0), (1, 1), (2, 2), (3, 3)]⟩, .u32Range ⟨0, 3, [(0, 0), (0, 1), (3, 2), (3, 3)]⟩,
    by rfl, by rfl, by decide +kernel, by decide +kernel⟩

/-! ### C41, equality -/

/-- Permuted payloads, different hashers and sorts: the maps compare equal. -/
theorem C41_compare_equal [Target] (env env₁ env₂ : Env) (ty : KeyTy K) (hty : LawfulKey ty)
    (veq : V → V → Bool) (hv : ∀ v, veq v v = true)
    (payload payload' : List (K × V)) (hcap : payload.length < 2 ^ 32)
    (hd : DistinctKeys ty.eq payload) (hp : payload.Perm payload') (bh bh' : Hasher)
    (m m' : FrozenMap K V) (hm : FrozenMap.new env₁ ty payload bh = .ok m)
    (hm' : FrozenMap.new env₂ ty payload' bh' = .ok m') :
    m.eq env ty veq m' = .ok true := by
  obtain ⟨r, h1, h2⟩ := C15_eq_iff_payload env ty hty veq payload payload' hcap
    (hp.length_eq ▸ hcap) hd (hd.perm hty.eq hp) env₁ env₂ bh bh' m m' hm hm'
  rw [h1, h2.2]
  intro k
  rw [lookup_perm hty.eq hp hd]
  cases lookup ty.eq payload' k <;> simp [SameAnswer, hv]

example := C41_compare_equal releaseEnv checkedEnv ⟨false, reverseUnstable⟩ u32Ty u32Ty_lawful (· == ·) (by simp)
  exU32 exU32.reverse (by decide) exU32_distinct (List.reverse_perm _).symm demoHasher (fun _ => 0) exMapU32 _
  exMapU32_ok
  (Res.built (r := FrozenMap.new ⟨false, reverseUnstable⟩ u32Ty exU32.reverse (fun _ => 0)) (by decide +kernel))

end FC
