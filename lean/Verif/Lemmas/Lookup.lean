import Verif.Lemmas.FrozenMap

/-
From scans of the entry array to lookups in the payload.
-/

set_option autoImplicit false

namespace FC
variable [Target]
variable {K V : Type}

omit [Target] in
theorem scan_find {eq : K → K → Bool} {k : K} (es : List (K × V)) (i : Nat) :
    (scan eq id k i es).map (fun r => (r.1, r.2.val)) = es.find? (fun e => eq k e.1) := by
  induction es generalizing i with
  | nil => rfl
  | cons e es ih =>
    unfold scan
    cases h : eq k e.1 with
    | true => simp [h]
    | false => simp [h, ih]

omit [Target] in
theorem scan_value {eq : K → K → Bool} {k : K} (es : List (K × V)) (i : Nat) :
    value ((scan eq id k i es).map (·.2)) = lookup eq es k := by
  unfold lookup value
  rw [← scan_find es i]
  simp only [Option.map_map]
  rfl

omit [Target] in
theorem LawfulEq.symm_eq {eq : K → K → Bool} (h : LawfulEq eq) (a b : K) : eq a b = eq b a := by
  cases hab : eq a b with
  | true => rw [h.symm a b hab]
  | false =>
    cases hba : eq b a with
    | false => rfl
    | true => rw [h.symm b a hba] at hab; simp at hab

omit [Target] in
theorem DistinctKeys.perm {eq : K → K → Bool} (heq : LawfulEq eq) {p q : List (K × V)}
    (hp : p.Perm q) (hd : DistinctKeys eq p) : DistinctKeys eq q := by
  refine hp.pairwise hd ?_
  intro a b hab
  rw [heq.symm_eq]
  exact hab

omit [Target] in
/-- With distinct keys at most one entry matches a probe. -/
theorem DistinctKeys.unique {eq : K → K → Bool} (heq : LawfulEq eq) {p : List (K × V)}
    (hd : DistinctKeys eq p) {a b : K × V} (ha : a ∈ p) (hb : b ∈ p) {k : K}
    (hka : eq k a.1 = true) (hkb : eq k b.1 = true) : a = b := by
  obtain ⟨i, hi, rfl⟩ := List.getElem_of_mem ha
  obtain ⟨j, hj, rfl⟩ := List.getElem_of_mem hb
  have hab := heq.trans _ _ _ (heq.symm _ _ hka) hkb
  have hd' := List.pairwise_iff_getElem.1 hd
  rcases Nat.lt_trichotomy i j with h | h | h
  · rw [hd' i j hi hj h] at hab; simp at hab
  · subst h; rfl
  · have := hd' j i hj hi h
    rw [heq.symm_eq, hab] at this
    simp at this

omit [Target] in
theorem lookup_eq_some {eq : K → K → Bool} {p : List (K × V)} {k : K} {v : V}
    (h : lookup eq p k = some v) : Associated eq p k v := by
  unfold lookup at h
  rw [Option.map_eq_some_iff] at h
  obtain ⟨e, he, rfl⟩ := h
  exact ⟨e, List.mem_of_find?_eq_some he, by simpa using List.find?_some he, rfl⟩

omit [Target] in
theorem lookup_eq_none {eq : K → K → Bool} {p : List (K × V)} {k : K} :
    lookup eq p k = none ↔ ¬ Present eq p k := by
  unfold lookup Present
  simp

omit [Target] in
/-- With distinct keys the reference lookup does not depend on the order. -/
theorem lookup_unique {eq : K → K → Bool} (heq : LawfulEq eq) {p : List (K × V)}
    (hd : DistinctKeys eq p) {k : K} {v : V} (h : Associated eq p k v) : lookup eq p k = some v := by
  obtain ⟨e, he, hke, rfl⟩ := h
  cases hl : lookup eq p k with
  | none => exact absurd ⟨e, he, hke⟩ (lookup_eq_none.1 hl)
  | some w =>
    obtain ⟨e', he', hke', rfl⟩ := lookup_eq_some hl
    rw [hd.unique heq he he' hke hke']

omit [Target] in
theorem present_perm {eq : K → K → Bool} {p q : List (K × V)} (h : p.Perm q) (k : K) :
    Present eq p k ↔ Present eq q k := by
  unfold Present
  constructor
  · rintro ⟨e, he, hk⟩; exact ⟨e, h.mem_iff.1 he, hk⟩
  · rintro ⟨e, he, hk⟩; exact ⟨e, h.mem_iff.2 he, hk⟩

omit [Target] in
theorem associated_perm {eq : K → K → Bool} {p q : List (K × V)} (h : p.Perm q) (k : K) (v : V) :
    Associated eq p k v ↔ Associated eq q k v := by
  unfold Associated
  constructor
  · rintro ⟨e, he, hk⟩; exact ⟨e, h.mem_iff.1 he, hk⟩
  · rintro ⟨e, he, hk⟩; exact ⟨e, h.mem_iff.2 he, hk⟩

omit [Target] in
theorem lookup_perm {eq : K → K → Bool} (heq : LawfulEq eq) {p q : List (K × V)}
    (hp : p.Perm q) (hd : DistinctKeys eq p) (k : K) : lookup eq p k = lookup eq q k := by
  cases h : lookup eq p k with
  | none =>
    symm
    rw [lookup_eq_none, ← present_perm hp, ← lookup_eq_none]
    exact h
  | some v =>
    symm
    exact lookup_unique heq (hd.perm heq hp) ((associated_perm hp k v).1 (lookup_eq_some h))

omit [Target] in
/-- Lookups of equal keys agree. -/
theorem lookup_congr {eq : K → K → Bool} (heq : LawfulEq eq) {p : List (K × V)} {k k' : K}
    (h : eq k k' = true) : lookup eq p k = lookup eq p k' := by
  unfold lookup
  congr 2
  funext e
  cases hk : eq k e.1 with
  | true => rw [heq.trans _ _ _ (heq.symm _ _ h) hk]
  | false =>
    cases hk' : eq k' e.1 with
    | false => rfl
    | true => rw [heq.trans _ _ _ h hk'] at hk; simp at hk

/-! ### Counting up to an equivalence -/

omit [Target] in
/-- If pairwise unequal items all have an equal item in `q`, they can be matched with part of `q`. -/
theorem match_up {T : Type} {eq : T → T → Bool} (heq : LawfulEq eq) (p : List T) :
    ∀ (q : List T), p.Pairwise (fun a b => eq a b = false) → (∀ a ∈ p, ∃ b ∈ q, eq a b = true) →
      ∃ ms rest, q.Perm (ms ++ rest) ∧ ms.length = p.length ∧ ∀ b ∈ ms, ∃ a ∈ p, eq a b = true := by
  induction p with
  | nil => intro q _ _; exact ⟨[], q, by simp, rfl, by simp⟩
  | cons a p ih =>
    intro q hp hq
    rw [List.pairwise_cons] at hp
    obtain ⟨b, hb, hab⟩ := hq a List.mem_cons_self
    obtain ⟨s, t, rfl⟩ := List.append_of_mem hb
    have hperm : (s ++ b :: t).Perm (b :: (s ++ t)) := List.perm_middle
    obtain ⟨ms, rest, h1, h2, h3⟩ := ih (s ++ t) hp.2 (by
      intro a' ha'
      obtain ⟨b', hb', hab'⟩ := hq a' (List.mem_cons_of_mem _ ha')
      rcases List.mem_cons.1 (hperm.mem_iff.1 hb') with rfl | h
      · have := hp.1 a' ha'
        rw [heq.trans _ _ _ hab (heq.symm _ _ hab')] at this
        simp at this
      · exact ⟨b', h, hab'⟩)
    refine ⟨b :: ms, rest, hperm.trans (h1.cons b), by simp [h2], ?_⟩
    intro b' hb'
    rcases List.mem_cons.1 hb' with rfl | h
    · exact ⟨a, List.mem_cons_self, hab⟩
    · obtain ⟨a', ha', h'⟩ := h3 b' h
      exact ⟨a', List.mem_cons_of_mem _ ha', h'⟩

omit [Target] in
theorem length_le_of_match {T : Type} {eq : T → T → Bool} (heq : LawfulEq eq) {p q : List T}
    (hp : p.Pairwise (fun a b => eq a b = false)) (hq : ∀ a ∈ p, ∃ b ∈ q, eq a b = true) :
    p.length ≤ q.length := by
  obtain ⟨ms, rest, h1, h2, _⟩ := match_up heq p q hp hq
  have := h1.length_eq
  simp at this
  omega

omit [Target] in
/-- An equal pair can be thinned out without losing anything up to equality. -/
theorem thin_out {T : Type} {eq : T → T → Bool} (heq : LawfulEq eq) :
    ∀ q : List T, ¬ q.Pairwise (fun a b => eq a b = false) →
      ∃ q' : List T, q'.length + 1 = q.length ∧ ∀ x ∈ q, ∃ y ∈ q', eq x y = true
  | [], h => absurd List.Pairwise.nil h
  | x :: q, h => by
    by_cases hx : ∃ y ∈ q, eq x y = true
    · refine ⟨q, rfl, fun z hz => ?_⟩
      rcases List.mem_cons.1 hz with rfl | hz
      · exact hx
      · exact ⟨z, hz, heq.refl z⟩
    · obtain ⟨q', h1, h2⟩ := thin_out heq q (fun hp => h (List.pairwise_cons.2
        ⟨fun y hy => by
          cases he : eq x y with
          | false => rfl
          | true => exact absurd ⟨y, hy, he⟩ hx, hp⟩))
      refine ⟨x :: q', by simp [h1], fun z hz => ?_⟩
      rcases List.mem_cons.1 hz with rfl | hz
      · exact ⟨z, List.mem_cons_self, heq.refl z⟩
      · obtain ⟨y, hy, hzy⟩ := h2 z hz
        exact ⟨y, List.mem_cons_of_mem _ hy, hzy⟩

omit [Target] in
/-- If pairwise unequal items all have an equal item in a list that is not longer, the items of that
list are pairwise unequal. -/
theorem distinct_of_match {T : Type} {eq : T → T → Bool} (heq : LawfulEq eq) {p q : List T}
    (hp : p.Pairwise (fun a b => eq a b = false)) (hq : ∀ a ∈ p, ∃ b ∈ q, eq a b = true)
    (hl : q.length ≤ p.length) : q.Pairwise (fun a b => eq a b = false) := by
  by_contra h
  obtain ⟨q', h1, h2⟩ := thin_out heq q h
  have := length_le_of_match heq hp (q := q') (fun a ha => by
    obtain ⟨b, hb, hab⟩ := hq a ha
    obtain ⟨c, hc, hbc⟩ := h2 b hb
    exact ⟨c, hc, heq.trans _ _ _ hab hbc⟩)
  omega

omit [Target] in
/-- Pigeonhole up to equality: as many unequal items on both sides, one side covered by the other,
then both cover each other. -/
theorem match_back {T : Type} {eq : T → T → Bool} (heq : LawfulEq eq) {p q : List T}
    (hp : p.Pairwise (fun a b => eq a b = false)) (hq : ∀ a ∈ p, ∃ b ∈ q, eq a b = true)
    (hlen : q.length ≤ p.length) : ∀ b ∈ q, ∃ a ∈ p, eq b a = true := by
  obtain ⟨ms, rest, h1, h2, h3⟩ := match_up heq p q hp hq
  have hl := h1.length_eq
  simp at hl
  have hr : rest = [] := List.length_eq_zero_iff.1 (by omega)
  subst hr
  intro b hb
  rw [List.append_nil] at h1
  obtain ⟨a, ha, hab⟩ := h3 b (h1.mem_iff.1 hb)
  exact ⟨a, ha, heq.symm _ _ hab⟩

/-! ### Constructed maps -/

/-- `get` on a constructed map with a reliable representation. -/
theorem Built.get {ty : KeyTy K} (hty : LawfulKey ty) {payload : List (K × V)} {m : FrozenMap K V}
    (hb : Built ty payload m) (hd : (∀ r, m ≠ .u32Range r) ∨ DistinctKeys ty.eq payload)
    (env : Env) (k : K) :
    ∃ o, m.get env ty k = .ok o ∧ value o = lookup ty.eq (m.entries ty) k :=
  ⟨_, Good.get hty (hb.good hd) env k, scan_value _ _⟩

end FC
