import Verif.Spec.Sets
import Verif.Examples
import Verif.Lemmas.SetOps

/-
C32-C35, C37-C39: operations between any two consistent sets.
-/

set_option autoImplicit false

namespace FC
variable {T : Type}

/-! ### C32 -/

/-- Union visits exactly the values of either set, each once up to equality; every item visited is
an item of one of the sets; afterwards `None` for ever. -/
theorem C32_union (eq : T → T → Bool) (heq : LawfulEq eq) (a b : SetI T) (ha : Consistent eq a)
    (hb : Consistent eq b) :
    ∃ l : List T,
      (∀ n, ∃ st, rcalls BinIter.unionNext n (BinIter.new a b) = .ok (firstCalls l n, st)) ∧
      Distinct eq l ∧ (∀ x, Has eq l x ↔ Has eq a.iter x ∨ Has eq b.iter x) ∧
      ∀ x ∈ l, x ∈ a.iter ∨ x ∈ b.iter := by
  obtain ⟨c1, h1, k1⟩ := ha.total
  obtain ⟨c2, h2, k2⟩ := hb.total
  refine ⟨unionRest c1 c2 (BinIter.new a b), fun n => ?_, ?_⟩
  · obtain ⟨st, h, _⟩ := (union_describes h1 h2).rcalls n (BinIter.new a b) ⟨rfl, rfl⟩
    exact ⟨st, h⟩
  · unfold unionRest BinIter.new
    simp only
    split
    · refine ⟨distinct_append heq ha.distinct (distinct_filter hb.distinct _) ?_, fun x => ?_, ?_⟩
      · intro y hy
        rw [List.mem_filter] at hy
        rw [← k1]
        simpa using hy.2
      · rw [has_append, has_filter (fun x y h => by rw [test_congr heq k1 x y h])]
        have := k1 x
        cases hc : c1 x <;> simp_all
      · intro x hx
        rcases List.mem_append.1 hx with h | h
        · exact Or.inl h
        · exact Or.inr (List.mem_filter.1 h).1
    · refine ⟨distinct_append heq hb.distinct (distinct_filter ha.distinct _) ?_, fun x => ?_, ?_⟩
      · intro y hy
        rw [List.mem_filter] at hy
        rw [← k2]
        simpa using hy.2
      · rw [has_append, has_filter (fun x y h => by rw [test_congr heq k2 x y h])]
        have := k2 x
        cases hc : c2 x <;> simp_all
      · intro x hx
        rcases List.mem_append.1 hx with h | h
        · exact Or.inr h
        · exact Or.inl (List.mem_filter.1 h).1

/-! ### C33 -/

theorem C33_intersection (eq : T → T → Bool) (heq : LawfulEq eq) (a b : SetI T)
    (ha : Consistent eq a) (hb : Consistent eq b) :
    ∃ l : List T,
      (∀ n, ∃ st, rcalls BinIter.intersectionNext n (BinIter.new a b) = .ok (firstCalls l n, st)) ∧
      Distinct eq l ∧ (∀ x, Has eq l x ↔ Has eq a.iter x ∧ Has eq b.iter x) ∧
      ∀ x ∈ l, x ∈ a.iter ∨ x ∈ b.iter := by
  obtain ⟨c1, h1, k1⟩ := ha.total
  obtain ⟨c2, h2, k2⟩ := hb.total
  refine ⟨intersectionRest c1 c2 (BinIter.new a b), fun n => ?_, ?_⟩
  · obtain ⟨st, h, _⟩ := (intersection_describes h1 h2).rcalls n (BinIter.new a b) ⟨rfl, rfl⟩
    exact ⟨st, h⟩
  · unfold intersectionRest BinIter.new
    simp only
    split
    · refine ⟨distinct_filter ha.distinct _, fun x => ?_, fun x hx => Or.inl (List.mem_filter.1 hx).1⟩
      rw [has_filter (fun x y h => by rw [test_congr heq k2 x y h]), ← k2]
      simp
    · refine ⟨distinct_filter hb.distinct _, fun x => ?_, fun x hx => Or.inr (List.mem_filter.1 hx).1⟩
      rw [has_filter (fun x y h => by rw [test_congr heq k1 x y h]), ← k1]
      simp [and_comm]

theorem C33_difference (eq : T → T → Bool) (heq : LawfulEq eq) (a b : SetI T)
    (ha : Consistent eq a) (hb : Consistent eq b) :
    ∃ l : List T,
      (∀ n, ∃ st, rcalls BinIter.differenceNext n (BinIter.new a b) = .ok (firstCalls l n, st)) ∧
      Distinct eq l ∧ (∀ x, Has eq l x ↔ Has eq a.iter x ∧ ¬ Has eq b.iter x) ∧
      ∀ x ∈ l, x ∈ a.iter := by
  obtain ⟨c2, h2, k2⟩ := hb.total
  refine ⟨differenceRest c2 (BinIter.new a b), fun n => ?_, distinct_filter ha.distinct _,
    fun x => ?_, fun x hx => (List.mem_filter.1 hx).1⟩
  · obtain ⟨st, h, _⟩ := (difference_describes h2).rcalls n (BinIter.new a b) ⟨rfl, rfl⟩
    exact ⟨st, h⟩
  · unfold differenceRest BinIter.new
    rw [has_filter (fun x y h => by rw [test_congr heq k2 x y h]), ← k2]
    simp

theorem C33_symmetric_difference (eq : T → T → Bool) (heq : LawfulEq eq) (a b : SetI T)
    (ha : Consistent eq a) (hb : Consistent eq b) :
    ∃ l : List T,
      (∀ n, ∃ st, rcalls BinIter.symDiffNext n (BinIter.new a b) = .ok (firstCalls l n, st)) ∧
      Distinct eq l ∧
      (∀ x, Has eq l x ↔ (Has eq a.iter x ∧ ¬ Has eq b.iter x) ∨ (Has eq b.iter x ∧ ¬ Has eq a.iter x)) ∧
      ∀ x ∈ l, x ∈ a.iter ∨ x ∈ b.iter := by
  obtain ⟨c1, h1, k1⟩ := ha.total
  obtain ⟨c2, h2, k2⟩ := hb.total
  refine ⟨symDiffRest c1 c2 (BinIter.new a b), fun n => ?_, ?_, fun x => ?_, fun x hx => ?_⟩
  · obtain ⟨st, h, _⟩ := (symDiff_describes h1 h2).rcalls n (BinIter.new a b) ⟨rfl, rfl⟩
    exact ⟨st, h⟩
  · refine distinct_append heq (distinct_filter ha.distinct _) (distinct_filter hb.distinct _) ?_
    intro y hy h
    simp only [BinIter.new, List.mem_filter] at hy
    rw [has_filter (fun x y h => by rw [test_congr heq k2 x y h])] at h
    have := (k1 y).2 h.1
    simp_all
  · unfold symDiffRest BinIter.new
    rw [has_append, has_filter (fun x y h => by rw [test_congr heq k2 x y h]),
      has_filter (fun x y h => by rw [test_congr heq k1 x y h]), ← k1, ← k2]
    simp
  · rcases List.mem_append.1 hx with h | h
    · exact Or.inl (List.mem_filter.1 h).1
    · exact Or.inr (List.mem_filter.1 h).1

/-- Two overlapping sets that meet the hypotheses. -/
def exSetA : SetI Nat := (StdSet.mk [1, 2, 3, 4]).toSetI (fun x y => decide (x = y))
def exSetB : SetI Nat := (StdSet.mk [3, 9, 1]).toSetI (fun x y => decide (x = y))

theorem stdSet_consistent {eq : T → T → Bool} (heq : LawfulEq eq) {l : List T}
    (hl : Distinct eq l) : Consistent eq ((StdSet.mk l).toSetI eq) where
  contains x := by
    refine ⟨_, rfl, ?_⟩
    simp only [StdSet.contains, StdSet.toSetI, List.any_eq_true, Has]
    constructor
    · rintro ⟨y, hy, h⟩; exact ⟨y, hy, heq.symm _ _ h⟩
    · rintro ⟨y, hy, h⟩; exact ⟨y, hy, heq.symm _ _ h⟩
  len := rfl
  distinct := hl

theorem exSetA_consistent : Consistent (fun x y => decide (x = y)) exSetA :=
  stdSet_consistent lawfulEq_decide (by unfold Distinct; decide)
theorem exSetB_consistent : Consistent (fun x y => decide (x = y)) exSetB :=
  stdSet_consistent lawfulEq_decide (by unfold Distinct; decide)

example := C32_union _ lawfulEq_decide exSetA exSetB exSetA_consistent exSetB_consistent
example := C33_intersection _ lawfulEq_decide exSetA exSetB exSetA_consistent exSetB_consistent
example := C33_difference _ lawfulEq_decide exSetA exSetB exSetA_consistent exSetB_consistent
example := C33_symmetric_difference _ lawfulEq_decide exSetA exSetB exSetA_consistent exSetB_consistent

/-- A library set on one side, and the contents differ. -/
example : (rcalls BinIter.unionNext 7 (BinIter.new exSetA exSetB)).map (·.1)
      = .ok [some 1, some 2, some 3, some 4, some 9, none, none] ∧
    (rcalls BinIter.intersectionNext 3 (BinIter.new exSetA exSetB)).map (·.1)
      = .ok [some 3, some 1, none] ∧
    (rcalls BinIter.differenceNext 3 (BinIter.new exSetA exSetB)).map (·.1)
      = .ok [some 2, some 4, none] ∧
    (rcalls BinIter.symDiffNext 4 (BinIter.new exSetA exSetB)).map (·.1)
      = .ok [some 2, some 4, some 9, none] := by decide +kernel

/-! ### C39 -/

/-- Each iterator, once it has returned `None` at some point of its life, returns `None` on every
later call. -/
theorem C39_fused (eq : T → T → Bool) (heq : LawfulEq eq) (a b : SetI T) (ha : Consistent eq a)
    (hb : Consistent eq b)
    (next : BinIter T → Res (Option T × BinIter T))
    (hnext : next = BinIter.unionNext ∨ next = BinIter.intersectionNext ∨
      next = BinIter.differenceNext ∨ next = BinIter.symDiffNext)
    (n m : Nat) (hnm : n ≤ m) (rs : List (Option T)) (st : BinIter T)
    (h : rcalls next (m + 1) (BinIter.new a b) = .ok (rs, st)) (hn : rs[n]? = some none) :
    rs[m]? = some none := by
  have key : ∃ l : List T, ∀ n, ∃ st, rcalls next n (BinIter.new a b) = .ok (firstCalls l n, st) := by
    rcases hnext with rfl | rfl | rfl | rfl
    · obtain ⟨l, h, _⟩ := C32_union eq heq a b ha hb; exact ⟨l, h⟩
    · obtain ⟨l, h, _⟩ := C33_intersection eq heq a b ha hb; exact ⟨l, h⟩
    · obtain ⟨l, h, _⟩ := C33_difference eq heq a b ha hb; exact ⟨l, h⟩
    · obtain ⟨l, h, _⟩ := C33_symmetric_difference eq heq a b ha hb; exact ⟨l, h⟩
  obtain ⟨l, hl⟩ := key
  obtain ⟨st', hs⟩ := hl (m + 1)
  rw [h] at hs
  simp only [Res.ok.injEq, Prod.mk.injEq] at hs
  obtain ⟨rfl, rfl⟩ := hs
  have get : ∀ i, i ≤ m → (firstCalls l (m + 1))[i]? = some l[i]? := by
    intro i hi
    unfold firstCalls
    rw [List.getElem?_map, List.getElem?_range (by omega)]
    rfl
  rw [get n hnm] at hn
  rw [get m le_rfl]
  simp only [Option.some.injEq, List.getElem?_eq_none_iff] at hn ⊢
  omega

example := C39_fused _ lawfulEq_decide exSetA exSetB exSetA_consistent exSetB_consistent BinIter.unionNext
  (Or.inl rfl) 5 6 (by decide) _ _ (Res.built (r := rcalls BinIter.unionNext 7 (BinIter.new exSetA exSetB))
    (by decide +kernel)) (by decide +kernel)
example : ∃ rs st, rcalls BinIter.unionNext 7 (BinIter.new exSetA exSetB) = .ok (rs, st) ∧
    rs[5]? = some none := by
  obtain ⟨x, hx⟩ := Res.of_isOk (r := rcalls BinIter.unionNext 7 (BinIter.new exSetA exSetB))
    (by decide +kernel)
  refine ⟨x.1, x.2, hx, ?_⟩
  have : (rcalls BinIter.unionNext 7 (BinIter.new exSetA exSetB)).map (fun r => r.1[5]?)
      = .ok (some none) := by decide +kernel
  rw [hx] at this
  simpa using this

/-! ### C35 -/

theorem C35_is_disjoint (eq : T → T → Bool) (a b : SetI T)
    (hb : Consistent eq b) (heq : LawfulEq eq) :
    ∃ r, a.isDisjoint b = .ok r ∧ (r = true ↔ ∀ x, ¬ (Has eq a.iter x ∧ Has eq b.iter x)) := by
  obtain ⟨c2, h2, k2⟩ := hb.total
  unfold SetI.isDisjoint
  rw [if_pos le_rfl]
  rw [Res.allList_ok (f := fun v => ! c2 v) (by intro v _; rw [h2]; rfl)]
  refine ⟨_, rfl, ?_⟩
  rw [List.all_eq_true]
  constructor
  · rintro h x ⟨⟨y, hy, hxy⟩, hx⟩
    have := h y hy
    rw [Bool.not_eq_true'] at this
    have h3 := (k2 y).2 ((has_congr heq hxy).1 hx)
    simp_all
  · intro h x hx
    have := h x
    rw [← k2] at this
    cases hc : c2 x with
    | false => rfl
    | true => exact absurd ⟨has_of_mem heq hx, hc⟩ this

example := C35_is_disjoint _ exSetA exSetB exSetB_consistent lawfulEq_decide

theorem C35_is_subset (eq : T → T → Bool) (heq : LawfulEq eq) (a b : SetI T)
    (ha : Consistent eq a) (hb : Consistent eq b) :
    ∃ r, a.isSubset b = .ok r ∧ (r = true ↔ ∀ x, Has eq a.iter x → Has eq b.iter x) := by
  obtain ⟨c2, h2, k2⟩ := hb.total
  have hiff : (∀ x ∈ a.iter, c2 x = true) ↔ ∀ x, Has eq a.iter x → Has eq b.iter x := by
    constructor
    · rintro h x ⟨y, hy, hxy⟩
      exact (has_congr heq hxy).2 ((k2 y).1 (h y hy))
    · intro h x hx
      exact (k2 x).2 (h x (has_of_mem heq hx))
  unfold SetI.isSubset
  by_cases hl : a.len ≤ b.len
  · rw [if_pos hl, Res.allList_ok (f := c2) (by intro v _; exact h2 v)]
    exact ⟨_, rfl, by rw [List.all_eq_true]; exact hiff⟩
  · rw [if_neg hl]
    refine ⟨false, rfl, by simp, fun h => absurd ?_ hl⟩
    rw [ha.len, hb.len]
    exact length_le_of_match heq ha.distinct (fun x hx => h x (has_of_mem heq hx))

example := C35_is_subset _ lawfulEq_decide exSetA exSetB exSetA_consistent exSetB_consistent

theorem C35_is_superset (eq : T → T → Bool) (heq : LawfulEq eq) (a b : SetI T)
    (ha : Consistent eq a) (hb : Consistent eq b) :
    ∃ r, a.isSuperset b = .ok r ∧ (r = true ↔ ∀ x, Has eq b.iter x → Has eq a.iter x) :=
  C35_is_subset eq heq b a hb ha

example := C35_is_superset _ lawfulEq_decide exSetA exSetB exSetA_consistent exSetB_consistent

example : exSetA.isSubset exSetB = .ok false ∧ exSetA.isDisjoint exSetB = .ok false ∧
    exSetA.isSuperset ((StdSet.mk [4, 2]).toSetI (fun x y => decide (x = y))) = .ok true := by
  decide +kernel

/-! ### C34 -/

/-- `collect` into a `HashSet` keeps membership and drops repeats. -/
theorem collect_spec {eq : T → T → Bool} (heq : LawfulEq eq) (l : List T) :
    Distinct eq (StdSet.collect eq l).items ∧
      ∀ x, Has eq (StdSet.collect eq l).items x ↔ Has eq l x := by
  have key : ∀ (l acc : List T), Distinct eq acc →
      Distinct eq (l.foldl (StdSet.insert eq) ⟨acc⟩).items ∧
      ∀ x, Has eq (l.foldl (StdSet.insert eq) ⟨acc⟩).items x ↔ Has eq acc x ∨ Has eq l x := by
    intro l
    induction l with
    | nil => intro acc h; exact ⟨h, fun x => by simp [Has]⟩
    | cons y ys ih =>
      intro acc h
      rw [List.foldl_cons, show StdSet.insert eq ⟨acc⟩ y
        = if acc.any (fun z => eq z y) = true then ⟨acc⟩ else ⟨acc ++ [y]⟩ from rfl]
      by_cases hy : acc.any (fun z => eq z y) = true
      · rw [if_pos hy]
        obtain ⟨h1, h2⟩ := ih acc h
        refine ⟨h1, fun x => ?_⟩
        rw [h2]
        rw [List.any_eq_true] at hy
        obtain ⟨z, hz, hzy⟩ := hy
        constructor
        · rintro (hx | ⟨w, hw, hxw⟩)
          · exact Or.inl hx
          · exact Or.inr ⟨w, List.mem_cons_of_mem _ hw, hxw⟩
        · rintro (hx | ⟨w, hw, hxw⟩)
          · exact Or.inl hx
          · rcases List.mem_cons.1 hw with rfl | hw
            · exact Or.inl ⟨z, hz, heq.trans _ _ _ hxw (heq.symm _ _ hzy)⟩
            · exact Or.inr ⟨w, hw, hxw⟩
      · rw [if_neg hy]
        have hacc : Distinct eq (acc ++ [y]) := by
          refine distinct_append heq h (by simp [Distinct]) ?_
          intro w hw
          rw [List.mem_singleton] at hw
          subst hw
          rintro ⟨z, hz, hwz⟩
          exact hy (List.any_eq_true.2 ⟨z, hz, heq.symm _ _ hwz⟩)
        obtain ⟨h1, h2⟩ := ih _ hacc
        refine ⟨h1, fun x => ?_⟩
        rw [h2, has_append]
        simp only [Has, List.mem_cons, List.not_mem_nil, or_false]
        constructor
        · rintro ((hx | ⟨w, rfl, hxw⟩) | ⟨w, hw, hxw⟩)
          · exact Or.inl hx
          · exact Or.inr ⟨w, Or.inl rfl, hxw⟩
          · exact Or.inr ⟨w, Or.inr hw, hxw⟩
        · rintro (hx | ⟨w, rfl | hw, hxw⟩)
          · exact Or.inl (Or.inl hx)
          · exact Or.inl (Or.inr ⟨w, rfl, hxw⟩)
          · exact Or.inr ⟨w, hw, hxw⟩
  obtain ⟨h1, h2⟩ := key l [] (by simp [Distinct])
  exact ⟨h1, fun x => by rw [StdSet.collect, StdSet.empty, h2]; simp [Has]⟩

theorem hasExactly {eq : T → T → Bool} (heq : LawfulEq eq) {l : List T} {P : T → Prop}
    (h : ∀ x, Has eq l x ↔ P x) : HasExactly eq (StdSet.collect eq l) P := by
  obtain ⟨h1, h2⟩ := collect_spec heq l
  refine ⟨h1, fun x => ?_⟩
  rw [← h, ← h2]
  simp only [StdSet.contains, List.any_eq_true, Has]
  constructor
  · rintro ⟨y, hy, h⟩; exact ⟨y, hy, heq.symm _ _ h⟩
  · rintro ⟨y, hy, h⟩; exact ⟨y, hy, heq.symm _ _ h⟩

/-- Draining gives the same list as repeated `next`. -/
theorem drain_eq {next : BinIter T → Res (Option T × BinIter T)} {inv : BinIter T → Prop}
    {rest : BinIter T → List T} (h : Describes next inv rest)
    (hdec : ∀ s x s', next s = .ok (some x, s') → s'.size < s.size) {s : BinIter T} (hs : inv s)
    {l : List T} (hl : ∀ n, ∃ st, rcalls next n s = .ok (firstCalls l n, st)) :
    drain next BinIter.size hdec s = .ok l := by
  rw [h.drain _ hdec _ s hs rfl]
  congr 1
  apply List.ext_getElem?
  intro i
  obtain ⟨st, h1⟩ := hl (i + 1)
  obtain ⟨st', h2, _⟩ := h.rcalls (i + 1) s hs
  rw [h1] at h2
  simp only [Res.ok.injEq, Prod.mk.injEq] at h2
  have := congrArg (fun l => l[i]?) h2.1
  simpa [firstCalls] using this.symm

theorem C34_bit_or (eq : T → T → Bool) (heq : LawfulEq eq) (a b : SetI T) (ha : Consistent eq a)
    (hb : Consistent eq b) :
    ∃ s, a.bitOr eq b = .ok s ∧ HasExactly eq s (fun x => Has eq a.iter x ∨ Has eq b.iter x) := by
  obtain ⟨c1, h1, k1⟩ := ha.total
  obtain ⟨c2, h2, k2⟩ := hb.total
  obtain ⟨l, hl, _, hm, _⟩ := C32_union eq heq a b ha hb
  refine ⟨StdSet.collect eq l, ?_, hasExactly heq hm⟩
  unfold SetI.bitOr BinIter.unionAll
  rw [drain_eq (union_describes h1 h2) _ ⟨rfl, rfl⟩ hl]
  rfl

example := C34_bit_or _ lawfulEq_decide exSetA exSetB exSetA_consistent exSetB_consistent

theorem C34_bit_and (eq : T → T → Bool) (heq : LawfulEq eq) (a b : SetI T) (ha : Consistent eq a)
    (hb : Consistent eq b) :
    ∃ s, a.bitAnd eq b = .ok s ∧ HasExactly eq s (fun x => Has eq a.iter x ∧ Has eq b.iter x) := by
  obtain ⟨c1, h1, k1⟩ := ha.total
  obtain ⟨c2, h2, k2⟩ := hb.total
  obtain ⟨l, hl, _, hm, _⟩ := C33_intersection eq heq a b ha hb
  refine ⟨StdSet.collect eq l, ?_, hasExactly heq hm⟩
  unfold SetI.bitAnd BinIter.intersectionAll
  rw [drain_eq (intersection_describes h1 h2) _ ⟨rfl, rfl⟩ hl]
  rfl

example := C34_bit_and _ lawfulEq_decide exSetA exSetB exSetA_consistent exSetB_consistent

theorem C34_bit_xor (eq : T → T → Bool) (heq : LawfulEq eq) (a b : SetI T) (ha : Consistent eq a)
    (hb : Consistent eq b) :
    ∃ s, a.bitXor eq b = .ok s ∧ HasExactly eq s (fun x =>
      (Has eq a.iter x ∧ ¬ Has eq b.iter x) ∨ (Has eq b.iter x ∧ ¬ Has eq a.iter x)) := by
  obtain ⟨c1, h1, k1⟩ := ha.total
  obtain ⟨c2, h2, k2⟩ := hb.total
  obtain ⟨l, hl, _, hm, _⟩ := C33_symmetric_difference eq heq a b ha hb
  refine ⟨StdSet.collect eq l, ?_, hasExactly heq hm⟩
  unfold SetI.bitXor BinIter.symDiffAll
  rw [drain_eq (symDiff_describes h1 h2) _ ⟨rfl, rfl⟩ hl]
  rfl

theorem C34_sub (eq : T → T → Bool) (heq : LawfulEq eq) (a b : SetI T) (ha : Consistent eq a)
    (hb : Consistent eq b) :
    ∃ s, a.sub eq b = .ok s ∧ HasExactly eq s (fun x => Has eq a.iter x ∧ ¬ Has eq b.iter x) := by
  obtain ⟨c2, h2, k2⟩ := hb.total
  obtain ⟨l, hl, _, hm, _⟩ := C33_difference eq heq a b ha hb
  refine ⟨StdSet.collect eq l, ?_, hasExactly heq hm⟩
  unfold SetI.sub BinIter.differenceAll
  rw [drain_eq (difference_describes (a := a) h2) _ ⟨rfl, rfl⟩ hl]
  rfl

example := C34_sub _ lawfulEq_decide exSetA exSetB exSetA_consistent exSetB_consistent

example : ∃ s, exSetA.bitXor (fun x y => decide (x = y)) exSetB = .ok s ∧
    s.contains (fun x y => decide (x = y)) 9 = true ∧
    s.contains (fun x y => decide (x = y)) 3 = false := by
  obtain ⟨s, h1, h2⟩ := C34_bit_xor _ lawfulEq_decide exSetA exSetB exSetA_consistent
    exSetB_consistent
  refine ⟨s, h1, (h2.2 9).2 (Or.inr ?_), ?_⟩
  · unfold Has; decide +kernel
  · rw [← Bool.not_eq_true, h2.2]
    unfold Has; decide +kernel

/-! ### C37 -/

/-- `a == b` returns and is true exactly when both contain the same values. -/
theorem C37_eq_iff (eq : T → T → Bool) (heq : LawfulEq eq) (a b : SetI T) (ha : Consistent eq a)
    (hb : Consistent eq b) :
    ∃ r, a.eq b = .ok r ∧ (r = true ↔ ∀ x, Has eq a.iter x ↔ Has eq b.iter x) := by
  obtain ⟨r, h1, h2⟩ := C35_is_subset eq heq a b ha hb
  unfold SetI.eq
  by_cases hl : a.len = b.len
  · rw [if_neg (by simpa using hl)]
    unfold SetI.isSubset at h1
    rw [if_pos hl.le] at h1
    refine ⟨r, h1, h2.trans ⟨fun h x => ⟨h x, ?_⟩, fun h x => (h x).1⟩⟩
    rintro ⟨y, hy, hxy⟩
    obtain ⟨z, hz, hyz⟩ := match_back heq ha.distinct
      (fun x hx => h x (has_of_mem heq hx)) (by rw [← ha.len, ← hb.len, hl]) y hy
    exact ⟨z, hz, heq.trans _ _ _ hxy hyz⟩
  · rw [if_pos hl]
    refine ⟨false, rfl, by simp, fun h => absurd ?_ hl⟩
    rw [ha.len, hb.len]
    exact Nat.le_antisymm
      (length_le_of_match heq ha.distinct (fun x hx => (h x).1 (has_of_mem heq hx)))
      (length_le_of_match heq hb.distinct (fun x hx => (h x).2 (has_of_mem heq hx)))

example := C37_eq_iff _ lawfulEq_decide exSetA exSetB exSetA_consistent exSetB_consistent

theorem C37_refl (eq : T → T → Bool) (heq : LawfulEq eq) (a : SetI T) (ha : Consistent eq a) :
    a.eq a = .ok true := by
  obtain ⟨r, h1, h2⟩ := C37_eq_iff eq heq a a ha ha
  rw [h1, h2.2 (fun _ => Iff.rfl)]

example := C37_refl _ lawfulEq_decide exSetA exSetA_consistent

theorem C37_symm (eq : T → T → Bool) (heq : LawfulEq eq) (a b : SetI T) (ha : Consistent eq a)
    (hb : Consistent eq b) : a.eq b = b.eq a := by
  obtain ⟨r, h1, h2⟩ := C37_eq_iff eq heq a b ha hb
  obtain ⟨r', h1', h2'⟩ := C37_eq_iff eq heq b a hb ha
  rw [h1, h1']
  have : r = true ↔ r' = true := by
    rw [h2, h2']
    exact forall_congr' fun x => Iff.comm
  cases r <;> cases r' <;> simp_all

example := C37_symm _ lawfulEq_decide exSetA exSetB exSetA_consistent exSetB_consistent

theorem C37_trans (eq : T → T → Bool) (heq : LawfulEq eq) (a b c : SetI T) (ha : Consistent eq a)
    (hb : Consistent eq b) (hc : Consistent eq c) (h : a.eq b = .ok true) (h' : b.eq c = .ok true) :
    a.eq c = .ok true := by
  obtain ⟨r, h1, h2⟩ := C37_eq_iff eq heq a b ha hb
  obtain ⟨r', h1', h2'⟩ := C37_eq_iff eq heq b c hb hc
  obtain ⟨r'', h1'', h2''⟩ := C37_eq_iff eq heq a c ha hc
  rw [h1] at h; rw [h1'] at h'
  cases h; cases h'
  rw [h1'', h2''.2 (fun x => (h2.1 rfl x).trans (h2'.1 rfl x))]

example := C37_trans _ lawfulEq_decide exSetA ((StdSet.mk [4, 2, 1, 3]).toSetI (fun x y => decide (x = y))) exSetA
  exSetA_consistent (stdSet_consistent lawfulEq_decide (by unfold Distinct; decide)) exSetA_consistent
  (by decide +kernel) (by decide +kernel)

example : exSetA.eq ((StdSet.mk [4, 2, 1, 3]).toSetI (fun x y => decide (x = y))) = .ok true ∧
    exSetA.eq exSetB = .ok false := by decide +kernel

/-! ### C38 -/

/-- C38 is false for `Union`: after one item of `{1,2,3} ∪ {}` two remain, but the lower bound is
still three. -/
theorem C38_counterexample :
    ∃ a b : SetI Nat, Consistent (fun x y => decide (x = y)) a ∧
      Consistent (fun x y => decide (x = y)) b ∧
      ∃ st, rcalls BinIter.unionNext 1 (BinIter.new a b) = .ok ([some 1], st) ∧
        (rcalls BinIter.unionNext 3 st).map (·.1) = .ok [some 2, some 3, none] ∧
        st.unionSizeHint = (3, some 3) := by
  refine ⟨(StdSet.mk [1, 2, 3]).toSetI (fun x y => decide (x = y)),
    (StdSet.mk []).toSetI (fun x y => decide (x = y)),
    stdSet_consistent lawfulEq_decide (by unfold Distinct; decide),
    stdSet_consistent lawfulEq_decide (by unfold Distinct; decide), _, rfl, by decide +kernel,
    by decide +kernel⟩

theorem checkedAdd_some [Target] {a b u : Nat} (h : BinIter.checkedAdd a b = some u) : u = a + b := by
  unfold BinIter.checkedAdd at h
  split at h
  · simpa using h.symm
  · cases h

/-- `Union`: the upper bound holds at every point, and the lower bound holds exactly as long as no
more items were taken than the second set adds to the first. Missing from C38: the lower bound of
`Union` later on, where it is false. -/
theorem C38_union_partial [Target] (eq : T → T → Bool) (heq : LawfulEq eq) (a b : SetI T)
    (ha : Consistent eq a) (hb : Consistent eq b) :
    ∃ l : List T, a.iter.length ≤ l.length ∧ ∀ n, ∃ st,
      rcalls BinIter.unionNext n (BinIter.new a b) = .ok (firstCalls l n, st) ∧
      (∀ u, st.unionSizeHint.2 = some u → l.length - n ≤ u) ∧
      (n ≤ l.length → (HintOK st.unionSizeHint (l.length - n) ↔ n ≤ l.length - a.iter.length)) := by
  obtain ⟨c1, h1, k1⟩ := ha.total
  obtain ⟨c2, h2, k2⟩ := hb.total
  obtain ⟨l, hl, hd, hm, hmem⟩ := C32_union eq heq a b ha hb
  have hge : a.iter.length ≤ l.length :=
    length_le_of_match heq ha.distinct (fun x hx => (hm x).2 (Or.inl (has_of_mem heq hx)))
  have hle : l.length ≤ a.iter.length + b.iter.length := by
    have := length_le_of_match heq (q := a.iter ++ b.iter) hd (fun x hx => by
      rcases hmem x hx with h | h
      · exact ⟨x, List.mem_append_left _ h, heq.refl x⟩
      · exact ⟨x, List.mem_append_right _ h, heq.refl x⟩)
    simpa using this
  refine ⟨l, hge, fun n => ?_⟩
  obtain ⟨st, hst, _, hover⟩ := (union_describes h1 h2).rcalls n (BinIter.new a b) ⟨rfl, rfl⟩
  obtain ⟨st', hst'⟩ := hl n
  rw [hst'] at hst
  simp only [Res.ok.injEq, Prod.mk.injEq] at hst
  obtain ⟨_, rfl⟩ := hst
  have hup : ∀ u, st'.unionSizeHint.2 = some u → l.length - n ≤ u := by
    intro u hu
    simp only [BinIter.unionSizeHint, hover.1, hover.2] at hu
    rw [checkedAdd_some hu, ha.len, hb.len]
    omega
  refine ⟨st', hst', hup, fun hn => ?_⟩
  unfold HintOK
  have : st'.unionSizeHint.1 = a.iter.length := by
    simp only [BinIter.unionSizeHint, hover.1, ha.len]
  rw [this]
  constructor
  · rintro ⟨h, _⟩; omega
  · intro h; exact ⟨by omega, hup⟩

example := C38_union_partial _ lawfulEq_decide exSetA exSetB exSetA_consistent exSetB_consistent

theorem C38_intersection (eq : T → T → Bool) (a b : SetI T)
    (ha : Consistent eq a) (hb : Consistent eq b) :
    ∃ l : List T, ∀ n, ∃ st,
      rcalls BinIter.intersectionNext n (BinIter.new a b) = .ok (firstCalls l n, st) ∧
      HintOK st.intersectionSizeHint (l.length - n) := by
  obtain ⟨c1, h1, k1⟩ := ha.total
  obtain ⟨c2, h2, k2⟩ := hb.total
  refine ⟨intersectionRest c1 c2 (BinIter.new a b), fun n => ?_⟩
  obtain ⟨st, hst, _, hover⟩ := (intersection_describes h1 h2).rcalls n (BinIter.new a b) ⟨rfl, rfl⟩
  refine ⟨st, hst, by simp [BinIter.intersectionSizeHint], ?_⟩
  intro u hu
  simp only [BinIter.intersectionSizeHint, hover.1, hover.2, ha.len, hb.len,
    Option.some.injEq] at hu
  have h3 := List.length_filter_le (fun x => c2 x == true) a.iter
  have h4 := List.length_filter_le (fun x => c1 x == true) b.iter
  unfold intersectionRest BinIter.new
  simp only
  split <;> omega

example := C38_intersection _ exSetA exSetB exSetA_consistent exSetB_consistent

theorem C38_difference (eq : T → T → Bool) (a b : SetI T)
    (ha : Consistent eq a) (hb : Consistent eq b) :
    ∃ l : List T, ∀ n, ∃ st,
      rcalls BinIter.differenceNext n (BinIter.new a b) = .ok (firstCalls l n, st) ∧
      HintOK st.differenceSizeHint (l.length - n) := by
  obtain ⟨c2, h2, k2⟩ := hb.total
  refine ⟨differenceRest c2 (BinIter.new a b), fun n => ?_⟩
  obtain ⟨st, hst, _, hover⟩ := (difference_describes (a := a) h2).rcalls n (BinIter.new a b) ⟨rfl, rfl⟩
  refine ⟨st, hst, by simp [BinIter.differenceSizeHint], ?_⟩
  intro u hu
  simp only [BinIter.differenceSizeHint, hover.1, ha.len, Option.some.injEq] at hu
  have h3 := List.length_filter_le (fun x => c2 x == false) a.iter
  unfold differenceRest BinIter.new
  simp only
  omega

example := C38_difference _ exSetA exSetB exSetA_consistent exSetB_consistent

theorem C38_symmetric_difference [Target] (eq : T → T → Bool) (a b : SetI T)
    (ha : Consistent eq a) (hb : Consistent eq b) :
    ∃ l : List T, ∀ n, ∃ st,
      rcalls BinIter.symDiffNext n (BinIter.new a b) = .ok (firstCalls l n, st) ∧
      HintOK st.symDiffSizeHint (l.length - n) := by
  obtain ⟨c1, h1, k1⟩ := ha.total
  obtain ⟨c2, h2, k2⟩ := hb.total
  refine ⟨symDiffRest c1 c2 (BinIter.new a b), fun n => ?_⟩
  obtain ⟨st, hst, _, hover⟩ := (symDiff_describes h1 h2).rcalls n (BinIter.new a b) ⟨rfl, rfl⟩
  refine ⟨st, hst, by simp [BinIter.symDiffSizeHint], ?_⟩
  intro u hu
  simp only [BinIter.symDiffSizeHint, hover.1, hover.2] at hu
  rw [checkedAdd_some hu, ha.len, hb.len]
  have h3 := List.length_filter_le (fun x => c2 x == false) a.iter
  have h4 := List.length_filter_le (fun x => c1 x == false) b.iter
  unfold symDiffRest BinIter.new
  simp only [List.length_append]
  omega

example := C38_symmetric_difference _ exSetA exSetB exSetA_consistent exSetB_consistent

example : Consistent (fun x y => decide (x = y)) exSetA ∧
    (BinIter.new exSetA exSetB).intersectionSizeHint = (0, some 4) :=
  ⟨exSetA_consistent, by decide +kernel⟩

end FC
