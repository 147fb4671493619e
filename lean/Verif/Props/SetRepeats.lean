import Verif.Lemmas.SetRepeats
import Verif.Spec.SetAlgebra

/-
C74: sets built from values that repeat; C73 for sets.
-/

set_option autoImplicit false

namespace FC
variable {T : Type}

/-! ### C74 -/

/-- Every set shows the values it was built from, as often as they were given. -/
theorem C74_shows [Target] (eq : T → T → Bool) (heq : LawfulEq eq) (s : SetI T) (p : List T)
    (h : BagOf T eq s p) : Shows eq s p := h.shows heq

/-- Union: a value is visited as often as the larger operand was given it, or, if it was not, as often
as the other was. -/
theorem C74_union [Target] (eq : T → T → Bool) (heq : LawfulEq eq) (a b : SetI T) (p q : List T)
    (ha : BagOf T eq a p) (hb : BagOf T eq b q) :
    ∃ l : List T,
      (∀ n, ∃ st, rcalls BinIter.unionNext n (BinIter.new a b) = .ok (firstCalls l n, st)) ∧
      (∀ x, Has eq l x ↔ Has eq p x ∨ Has eq q x) ∧
      (p.length > q.length → ∀ x, times eq l x = if times eq p x = 0 then times eq q x else times eq p x) ∧
      (p.length ≤ q.length → ∀ x, times eq l x = if times eq q x = 0 then times eq p x else times eq q x) ∧
      ∀ x ∈ l, x ∈ p ∨ x ∈ q := by
  have sa := ha.shows heq
  have sb := hb.shows heq
  obtain ⟨c1, h1, k1⟩ := sa.answers.total
  obtain ⟨c2, h2, k2⟩ := sb.answers.total
  have t1 : ∀ x, (c1 x == false) = true ↔ times eq p x = 0 := fun x => by
    have := k1 x
    rw [has_perm sa.iter, ← times_pos] at this
    cases hc : c1 x <;> simp [hc] at this ⊢ <;> omega
  have t2 : ∀ x, (c2 x == false) = true ↔ times eq q x = 0 := fun x => by
    have := k2 x
    rw [has_perm sb.iter, ← times_pos] at this
    cases hc : c2 x <;> simp [hc] at this ⊢ <;> omega
  have f1 := fun x y h => congrArg (· == false) (test_congr heq k1 x y h)
  have f2 := fun x y h => congrArg (· == false) (test_congr heq k2 x y h)
  have e1 : p.length > q.length → ∀ x, times eq (unionRest c1 c2 (BinIter.new a b)) x
      = if times eq p x = 0 then times eq q x else times eq p x := by
    intro hl x
    unfold unionRest BinIter.new
    simp only
    rw [if_pos (by rw [sa.len, sb.len]; exact hl), times_append, times_filter f1,
      times_perm sa.iter, times_perm sb.iter]
    simp only [t1]
    split <;> omega
  have e2 : p.length ≤ q.length → ∀ x, times eq (unionRest c1 c2 (BinIter.new a b)) x
      = if times eq q x = 0 then times eq p x else times eq q x := by
    intro hl x
    unfold unionRest BinIter.new
    simp only
    rw [if_neg (by rw [sa.len, sb.len]; omega), times_append, times_filter f2,
      times_perm sa.iter, times_perm sb.iter]
    simp only [t2]
    split <;> omega
  refine ⟨unionRest c1 c2 (BinIter.new a b), fun n => ?_, fun x => ?_, e1, e2, fun x hx => ?_⟩
  · obtain ⟨st, h, _⟩ := (union_describes h1 h2).rcalls n (BinIter.new a b) ⟨rfl, rfl⟩
    exact ⟨st, h⟩
  · rw [← times_pos, ← times_pos, ← times_pos]
    rcases Nat.lt_or_ge q.length p.length with hl | hl
    · rw [e1 hl]; split <;> omega
    · rw [e2 hl]; split <;> omega
  · unfold unionRest BinIter.new at hx
    simp only at hx
    split at hx
    · rcases List.mem_append.1 hx with h | h
      · exact Or.inl (sa.iter.mem_iff.1 h)
      · exact Or.inr (sb.iter.mem_iff.1 (List.mem_filter.1 h).1)
    · rcases List.mem_append.1 hx with h | h
      · exact Or.inr (sb.iter.mem_iff.1 h)
      · exact Or.inl (sa.iter.mem_iff.1 (List.mem_filter.1 h).1)

/-- Intersection: a value given to both is visited as often as the smaller operand was given it. -/
theorem C74_intersection [Target] (eq : T → T → Bool) (heq : LawfulEq eq) (a b : SetI T) (p q : List T)
    (ha : BagOf T eq a p) (hb : BagOf T eq b q) :
    ∃ l : List T,
      (∀ n, ∃ st, rcalls BinIter.intersectionNext n (BinIter.new a b) = .ok (firstCalls l n, st)) ∧
      (∀ x, Has eq l x ↔ Has eq p x ∧ Has eq q x) ∧
      (p.length < q.length → ∀ x, times eq l x = if times eq q x = 0 then 0 else times eq p x) ∧
      (p.length ≥ q.length → ∀ x, times eq l x = if times eq p x = 0 then 0 else times eq q x) ∧
      ∀ x ∈ l, x ∈ p ∨ x ∈ q := by
  have sa := ha.shows heq
  have sb := hb.shows heq
  obtain ⟨c1, h1, k1⟩ := sa.answers.total
  obtain ⟨c2, h2, k2⟩ := sb.answers.total
  have t1 : ∀ x, (c1 x == true) = true ↔ ¬ times eq p x = 0 := fun x => by
    have := k1 x
    rw [has_perm sa.iter, ← times_pos] at this
    cases hc : c1 x <;> simp [hc] at this ⊢ <;> omega
  have t2 : ∀ x, (c2 x == true) = true ↔ ¬ times eq q x = 0 := fun x => by
    have := k2 x
    rw [has_perm sb.iter, ← times_pos] at this
    cases hc : c2 x <;> simp [hc] at this ⊢ <;> omega
  have f1 := fun x y h => congrArg (· == true) (test_congr heq k1 x y h)
  have f2 := fun x y h => congrArg (· == true) (test_congr heq k2 x y h)
  have e1 : p.length < q.length → ∀ x, times eq (intersectionRest c1 c2 (BinIter.new a b)) x
      = if times eq q x = 0 then 0 else times eq p x := by
    intro hl x
    unfold intersectionRest BinIter.new
    simp only
    rw [if_pos (by rw [sa.len, sb.len]; exact hl), times_filter f2, times_perm sa.iter]
    simp only [t2]
    by_cases h : times eq q x = 0 <;> simp [h]
  have e2 : p.length ≥ q.length → ∀ x, times eq (intersectionRest c1 c2 (BinIter.new a b)) x
      = if times eq p x = 0 then 0 else times eq q x := by
    intro hl x
    unfold intersectionRest BinIter.new
    simp only
    rw [if_neg (by rw [sa.len, sb.len]; omega), times_filter f1, times_perm sb.iter]
    simp only [t1]
    by_cases h : times eq p x = 0 <;> simp [h]
  refine ⟨intersectionRest c1 c2 (BinIter.new a b), fun n => ?_, fun x => ?_, e1, e2, fun x hx => ?_⟩
  · obtain ⟨st, h, _⟩ := (intersection_describes h1 h2).rcalls n (BinIter.new a b) ⟨rfl, rfl⟩
    exact ⟨st, h⟩
  · rw [← times_pos, ← times_pos, ← times_pos]
    rcases Nat.lt_or_ge p.length q.length with hl | hl
    · rw [e1 hl]; split <;> omega
    · rw [e2 hl]; split <;> omega
  · unfold intersectionRest BinIter.new at hx
    simp only at hx
    split at hx
    · exact Or.inl (sa.iter.mem_iff.1 (List.mem_filter.1 hx).1)
    · exact Or.inr (sb.iter.mem_iff.1 (List.mem_filter.1 hx).1)

/-- Difference: a value not given to the second operand is visited as often as it was given to the
first. -/
theorem C74_difference [Target] (eq : T → T → Bool) (heq : LawfulEq eq) (a b : SetI T) (p q : List T)
    (ha : BagOf T eq a p) (hb : BagOf T eq b q) :
    ∃ l : List T,
      (∀ n, ∃ st, rcalls BinIter.differenceNext n (BinIter.new a b) = .ok (firstCalls l n, st)) ∧
      (∀ x, times eq l x = if times eq q x = 0 then times eq p x else 0) ∧ ∀ x ∈ l, x ∈ p := by
  have sa := ha.shows heq
  have sb := hb.shows heq
  obtain ⟨c2, h2, k2⟩ := sb.answers.total
  have t2 : ∀ x, (c2 x == false) = true ↔ times eq q x = 0 := fun x => by
    have := k2 x
    rw [has_perm sb.iter, ← times_pos] at this
    cases hc : c2 x <;> simp [hc] at this ⊢ <;> omega
  have f2 := fun x y h => congrArg (· == false) (test_congr heq k2 x y h)
  refine ⟨differenceRest c2 (BinIter.new a b), fun n => ?_, fun x => ?_, fun x hx => ?_⟩
  · obtain ⟨st, h, _⟩ := (difference_describes h2).rcalls n (BinIter.new a b) ⟨rfl, rfl⟩
    exact ⟨st, h⟩
  · unfold differenceRest BinIter.new
    rw [times_filter f2, times_perm sa.iter]
    simp only [t2]
  · exact sa.iter.mem_iff.1 (List.mem_filter.1 hx).1

/-- Symmetric difference: a value given to just one operand is visited as often as it was given. -/
theorem C74_symmetric_difference [Target] (eq : T → T → Bool) (heq : LawfulEq eq) (a b : SetI T)
    (p q : List T) (ha : BagOf T eq a p) (hb : BagOf T eq b q) :
    ∃ l : List T,
      (∀ n, ∃ st, rcalls BinIter.symDiffNext n (BinIter.new a b) = .ok (firstCalls l n, st)) ∧
      (∀ x, times eq l x = if times eq q x = 0 then times eq p x
        else if times eq p x = 0 then times eq q x else 0) ∧ ∀ x ∈ l, x ∈ p ∨ x ∈ q := by
  have sa := ha.shows heq
  have sb := hb.shows heq
  obtain ⟨c1, h1, k1⟩ := sa.answers.total
  obtain ⟨c2, h2, k2⟩ := sb.answers.total
  have t1 : ∀ x, (c1 x == false) = true ↔ times eq p x = 0 := fun x => by
    have := k1 x
    rw [has_perm sa.iter, ← times_pos] at this
    cases hc : c1 x <;> simp [hc] at this ⊢ <;> omega
  have t2 : ∀ x, (c2 x == false) = true ↔ times eq q x = 0 := fun x => by
    have := k2 x
    rw [has_perm sb.iter, ← times_pos] at this
    cases hc : c2 x <;> simp [hc] at this ⊢ <;> omega
  have f1 := fun x y h => congrArg (· == false) (test_congr heq k1 x y h)
  have f2 := fun x y h => congrArg (· == false) (test_congr heq k2 x y h)
  refine ⟨symDiffRest c1 c2 (BinIter.new a b), fun n => ?_, fun x => ?_, fun x hx => ?_⟩
  · obtain ⟨st, h, _⟩ := (symDiff_describes h1 h2).rcalls n (BinIter.new a b) ⟨rfl, rfl⟩
    exact ⟨st, h⟩
  · unfold symDiffRest BinIter.new
    rw [times_append, times_filter f2, times_filter f1, times_perm sa.iter, times_perm sb.iter]
    simp only [t1, t2]
    split <;> split <;> omega
  · rcases List.mem_append.1 hx with h | h
    · exact Or.inl (sa.iter.mem_iff.1 (List.mem_filter.1 h).1)
    · exact Or.inr (sb.iter.mem_iff.1 (List.mem_filter.1 h).1)

/-- The operators collect into a `HashSet`, so their results hold each value once. -/
theorem C74_operators [Target] (eq : T → T → Bool) (heq : LawfulEq eq) (o : SetOperator) (a b : SetI T)
    (p q : List T) (ha : BagOf T eq a p) (hb : BagOf T eq b q) :
    ∃ s, o.apply eq a b = .ok s ∧
      HasExactly eq s (fun x => o.holds (Has eq p x) (Has eq q x)) := by
  obtain ⟨c1, h1, k1⟩ := (ha.shows heq).answers.total
  obtain ⟨c2, h2, k2⟩ := (hb.shows heq).answers.total
  cases o with
  | or =>
    obtain ⟨l, hl, hm, -⟩ := C74_union eq heq a b p q ha hb
    refine ⟨StdSet.collect eq l, ?_, hasExactly heq hm⟩
    show a.bitOr eq b = _
    unfold SetI.bitOr BinIter.unionAll
    rw [drain_eq (union_describes h1 h2) _ ⟨rfl, rfl⟩ hl]
    rfl
  | and =>
    obtain ⟨l, hl, hm, -⟩ := C74_intersection eq heq a b p q ha hb
    refine ⟨StdSet.collect eq l, ?_, hasExactly heq hm⟩
    show a.bitAnd eq b = _
    unfold SetI.bitAnd BinIter.intersectionAll
    rw [drain_eq (intersection_describes h1 h2) _ ⟨rfl, rfl⟩ hl]
    rfl
  | xor =>
    obtain ⟨l, hl, ht, -⟩ := C74_symmetric_difference eq heq a b p q ha hb
    refine ⟨StdSet.collect eq l, ?_, hasExactly heq (fun x => ?_)⟩
    · show a.bitXor eq b = _
      unfold SetI.bitXor BinIter.symDiffAll
      rw [drain_eq (symDiff_describes h1 h2) _ ⟨rfl, rfl⟩ hl]
      rfl
    · unfold SetOperator.holds
      rw [← times_pos, ← times_pos, ← times_pos, ht]
      split
      · omega
      · split <;> omega
  | sub =>
    obtain ⟨l, hl, ht, -⟩ := C74_difference eq heq a b p q ha hb
    refine ⟨StdSet.collect eq l, ?_, hasExactly heq (fun x => ?_)⟩
    · show a.sub eq b = _
      unfold SetI.sub BinIter.differenceAll
      rw [drain_eq (difference_describes (a := a) h2) _ ⟨rfl, rfl⟩ hl]
      rfl
    · unfold SetOperator.holds
      rw [← times_pos, ← times_pos, ← times_pos, ht]
      split <;> omega

/-- Nested expressions of any depth evaluate, and contain exactly the values they denote: each once, if there
is an operator. -/
theorem C74_expressions [Target] (eq : T → T → Bool) (heq : LawfulEq eq) (e : SetExpr T) (P : T → Prop)
    (h : e.MeansBag eq P) :
    ∃ s, e.eval eq = .ok s ∧ ((∃ o order a rest, e = .op o order a rest) → Distinct eq s.iter) ∧
      s.len = s.iter.length ∧ (∀ x, Has eq s.iter x ↔ P x) ∧
      ∀ x, ∃ b, s.contains x = .ok b ∧ (b = true ↔ P x) := by
  have main : ∃ s p, e.eval eq = .ok s ∧ ((∃ o order a rest, e = .op o order a rest) → Distinct eq p) ∧
      BagOf T eq s p ∧ ∀ x, Has eq p x ↔ P x := by
    induction h with
    | leaf hs => exact ⟨_, _, rfl, by simp, hs, fun _ => .rfl⟩
    | @op o order a p rest Q ho ha hrest ih =>
      obtain ⟨b, q, hb, -, cb, mb⟩ := ih
      obtain ⟨s, h1, h2, h3⟩ := C74_operators eq heq o a b p q ha cb
      have hd := h2.perm heq (ho _).symm
      refine ⟨_, _, ?_, fun _ => hd, .std eq ⟨order s.items⟩ hd, fun x => ?_⟩
      · unfold SetExpr.eval
        rw [hb]
        show (do let r ← o.apply eq a b; return (StdSet.mk (order r.items)).toSetI eq :
          Res (SetI T)) = _
        rw [h1]
        rfl
      · have hx := h3 x
        simp only [mb] at hx
        rw [has_perm (ho _) x]
        refine Iff.trans ?_ hx
        obtain ⟨b', hb', hb''⟩ := (stdSet_consistent (l := s.items) heq h2).contains x
        have : s.contains eq x = b' := by
          simpa only [StdSet.toSetI, Res.ok.injEq] using hb'
        rw [this, hb'']
        rfl
  obtain ⟨s, p, h1, h2, h3, h4⟩ := main
  have sh := h3.shows heq
  refine ⟨s, h1, fun ho => (h2 ho).perm heq sh.iter.symm, ?_, fun x => (has_perm sh.iter x).trans (h4 x),
    fun x => ?_⟩
  · rw [sh.len, sh.iter.length_eq]
  · obtain ⟨b, hb, hb'⟩ := sh.contains x
    exact ⟨b, hb, hb'.trans (h4 x)⟩

/-- `is_disjoint` is right; `is_subset`, `is_superset` and `==` compare the numbers of values given,
repeats counted, before they compare values. -/
theorem C74_predicates [Target] (eq : T → T → Bool) (heq : LawfulEq eq) (a b : SetI T) (p q : List T)
    (ha : BagOf T eq a p) (hb : BagOf T eq b q) :
    (∃ r, a.isDisjoint b = .ok r ∧ (r = true ↔ ¬ ∃ x, Has eq p x ∧ Has eq q x)) ∧
    (∃ r, a.isSubset b = .ok r ∧
      (r = true ↔ p.length ≤ q.length ∧ ∀ x, Has eq p x → Has eq q x)) ∧
    (∃ r, a.isSuperset b = .ok r ∧
      (r = true ↔ q.length ≤ p.length ∧ ∀ x, Has eq q x → Has eq p x)) ∧
    (∃ r, a.eq b = .ok r ∧ (r = true ↔ p.length = q.length ∧ ∀ x, Has eq p x → Has eq q x)) := by
  have sa := ha.shows heq
  have sb := hb.shows heq
  obtain ⟨c1, h1, k1⟩ := sa.answers.total
  obtain ⟨c2, h2, k2⟩ := sb.answers.total
  have sub : ∀ (s : SetI T) (l r : List T) (c : T → Bool), s.iter.Perm l → (∀ x, c x = true ↔ Has eq r x) →
      ((s.iter.all c = true) ↔ ∀ x, Has eq l x → Has eq r x) := by
    intro s l r c hi hc
    rw [List.all_eq_true]
    constructor
    · rintro h x ⟨y, hy, hxy⟩
      exact (has_congr heq hxy).2 ((hc y).1 (h y (hi.mem_iff.2 hy)))
    · intro h x hx
      exact (hc x).2 (h x (has_of_mem heq (hi.mem_iff.1 hx)))
  have k1' : ∀ x, c1 x = true ↔ Has eq p x := fun x => (k1 x).trans (has_perm sa.iter x)
  have k2' : ∀ x, c2 x = true ↔ Has eq q x := fun x => (k2 x).trans (has_perm sb.iter x)
  refine ⟨?_, ?_, ?_, ?_⟩
  · unfold SetI.isDisjoint
    rw [if_pos le_rfl, Res.allList_ok (f := fun v => ! c2 v) (by intro v _; rw [h2]; rfl)]
    refine ⟨_, rfl, ?_⟩
    rw [List.all_eq_true]
    constructor
    · rintro h ⟨x, ⟨y, hy, hxy⟩, hx⟩
      have := h y (sa.iter.mem_iff.2 hy)
      rw [Bool.not_eq_true'] at this
      have hq := (k2' y).2 ((has_congr heq hxy).1 hx)
      rw [this] at hq
      cases hq
    · intro h x hx
      rw [Bool.not_eq_true']
      by_contra hc
      exact h ⟨x, has_of_mem heq (sa.iter.mem_iff.1 hx), (k2' x).1 (by simpa using hc)⟩
  · unfold SetI.isSubset
    rw [sa.len, sb.len]
    by_cases hl : p.length ≤ q.length
    · rw [if_pos hl, Res.allList_ok (f := c2) (by intro v _; exact h2 v)]
      exact ⟨_, rfl, by rw [sub a p q c2 sa.iter k2']; simp [hl]⟩
    · rw [if_neg hl]
      exact ⟨_, rfl, by simp [hl]⟩
  · unfold SetI.isSuperset
    rw [sa.len, sb.len]
    by_cases hl : q.length ≤ p.length
    · rw [if_pos hl, Res.allList_ok (f := c1) (by intro v _; exact h1 v)]
      exact ⟨_, rfl, by rw [sub b q p c1 sb.iter k1']; simp [hl]⟩
    · rw [if_neg hl]
      exact ⟨_, rfl, by simp [hl]⟩
  · unfold SetI.eq
    rw [sa.len, sb.len]
    by_cases hl : p.length = q.length
    · rw [if_neg (by simpa using hl), Res.allList_ok (f := c2) (by intro v _; exact h2 v)]
      exact ⟨_, rfl, by rw [sub a p q c2 sa.iter k2']; simp [hl]⟩
    · rw [if_pos (by simpa using hl)]
      exact ⟨_, rfl, by simp [hl]⟩

/-- A general set, a `u32` set and a length set with repeats, and what they do. -/
example : (∃ s, FrozenSet.new checkedEnv otherTy [1, 2, 2, 3, 3] demoHasher = .ok s ∧
      BagOf Int otherTy.eq (s.toSetI checkedEnv otherTy) [1, 2, 2, 3, 3]) ∧
    (∃ s, FrozenSet.new checkedEnv u32Ty [1, 9, 9, 40] demoHasher = .ok s ∧
      BagOf UInt32 u32Ty.eq (s.toSetI releaseEnv u32Ty) [1, 9, 9, 40]) ∧
    ∃ s, LengthSet.fromVec checkedEnv IdxTy.u8 List.length [[1, 2], [1, 2], [3]] = .ok s ∧
      BagOf Bytes (fun a b => decide (a = b)) (s.toSetI (fun a b => decide (a = b)) List.length)
        [[1, 2], [1, 2], [3]] := by
  refine ⟨?_, ?_, ?_⟩
  · obtain ⟨s, hs⟩ := Res.of_isOk (r := FrozenSet.new checkedEnv otherTy [1, 2, 2, 3, 3] demoHasher)
      (by decide +kernel)
    exact ⟨s, hs, .frozen checkedEnv checkedEnv otherTy demoHasher _ s otherTy_lawful (by decide)
      (Or.inr (Or.inr fun f g h => by cases h)) hs⟩
  · obtain ⟨s, hs⟩ := Res.of_isOk (r := FrozenSet.new checkedEnv u32Ty [1, 9, 9, 40] demoHasher)
      (by decide +kernel)
    refine ⟨s, hs, .frozen releaseEnv checkedEnv u32Ty demoHasher _ s u32Ty_lawful (by decide)
      (Or.inr (Or.inr fun f g h => ?_)) hs⟩
    cases h
    decide +kernel
  · obtain ⟨s, hs⟩ := Res.of_isOk (r := LengthSet.fromVec checkedEnv IdxTy.u8 List.length
      [([1, 2] : Bytes), [1, 2], [3]]) (by decide +kernel)
    exact ⟨s, hs, .length checkedEnv IdxTy.u8 255 _ List.length _ s rfl (by decide)
      (fun a b h => by rw [of_decide_eq_true h]) hs⟩

/-- The length comparisons are needed: with repeats, a set may equal a larger one, and not be reported
as a subset of an equal one. -/
example :
    let s (l : List Nat) := (ScanningSet.fromVec l).toSetI ⟨id, fun a b => decide (a = b), fun _ => []⟩
    (s [1, 1]).eq (s [1, 2]) = .ok true ∧ (s [1, 2]).eq (s [1, 1]) = .ok false ∧
    (s [1, 1, 1]).isSubset (s [1, 2]) = .ok false ∧
    (BinIter.new (s [1, 1, 2]) (s [2, 2, 3, 3])).unionAll = .ok [2, 2, 3, 3, 1, 1] := by
  decide +kernel

/-! ### C73 for the specialized sets -/

/-- Each set equals itself, whatever it repeats, and equality carries over between sets of any types. -/
theorem C73_sets_partial [Target] (eq : T → T → Bool) (heq : LawfulEq eq) (a b c : SetI T)
    (p q r : List T) (ha : BagOf T eq a p) (hb : BagOf T eq b q) (hc : BagOf T eq c r) :
    a.eq a = .ok true ∧ (a.eq b = .ok true → b.eq c = .ok true → a.eq c = .ok true) :=
  ⟨(ha.shows heq).answers.eq_self heq,
    (ha.shows heq).answers.eq_trans heq (hb.shows heq).answers (hc.shows heq).answers⟩

/-! Each theorem at an `IntegerSet` that repeats and a `ScanningSet`. -/

def exBag : IntegerSet := (IntegerSet.fromVec checkedEnv IdxTy.u8 [5, 900, 5, -7]).get (by decide +kernel)
theorem exBag_bagOf : BagOf Int (fun a b => decide (a = b)) exBag.toSetI [5, 900, 5, -7] :=
  .integer checkedEnv IdxTy.u8 255 [5, 900, 5, -7] _ rfl (by decide) (Res.built _)
theorem exScanBag_bagOf : BagOf Int (fun a b => decide (a = b))
    ((ScanningSet.fromVec [5, 3, 3]).toSetI ⟨id, fun a b => decide (a = b), fun _ => []⟩) [5, 3, 3] :=
  .scanning _ _ _

example := C74_shows _ lawfulEq_decide _ _ exBag_bagOf
example := C74_union _ lawfulEq_decide _ _ _ _ exBag_bagOf exScanBag_bagOf
example := C74_intersection _ lawfulEq_decide _ _ _ _ exBag_bagOf exScanBag_bagOf
example := C74_difference _ lawfulEq_decide _ _ _ _ exBag_bagOf exScanBag_bagOf
example := C74_symmetric_difference _ lawfulEq_decide _ _ _ _ exBag_bagOf exScanBag_bagOf
example := C74_operators _ lawfulEq_decide .and _ _ _ _ exBag_bagOf exScanBag_bagOf
example := C74_expressions _ lawfulEq_decide _ _
  (.op (o := .sub) List.reverse_perm exBag_bagOf (.op (o := .xor) List.Perm.refl exScanBag_bagOf (.leaf exBag_bagOf)))
example := C74_predicates _ lawfulEq_decide _ _ _ _ exBag_bagOf exScanBag_bagOf
example := C73_sets_partial _ lawfulEq_decide _ _ _ _ _ _ exBag_bagOf exScanBag_bagOf exBag_bagOf

end FC
