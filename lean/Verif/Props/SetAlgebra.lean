import Verif.Spec.SetAlgebra
import Verif.Props.Sets

/-
C54: set algebra over every pair of set types, in terms of the values the sets were built from.
-/

set_option autoImplicit false

namespace FC
variable {T : Type}

theorem Presents.holds {eq : T → T → Bool} {s : SetI T} {p : List T} (h : Presents eq s p) :
    Consistent eq s ∧ ∀ x, Has eq s.iter x ↔ Has eq p x :=
  ⟨h.1, fun x => by rw [has_perm h.2]⟩

/-- The set keeps its promises and holds exactly the values of `p`. -/
theorem SetOf.holds [Target] {T : Type} {eq : T → T → Bool} {s : SetI T} {p : List T} (h : SetOf T eq s p)
    (heq : LawfulEq eq) : Consistent eq s ∧ ∀ x, Has eq s.iter x ↔ Has eq p x := by
  revert heq
  induction h with
  | frozen env env₁ ty bh p s hty hl hd hs =>
    exact fun _ => (C47_frozen_set env ty hty p hl hd env₁ bh s hs).holds
  | scanning eq enc p hd => exact fun heq => (C47_scanning_set eq heq enc p hd).holds
  | common env S cap eq enc bh p s hS hcap henc hd hs =>
    intro heq
    obtain ⟨s', h1, h2⟩ := C47_common_set env S cap hS eq heq enc henc p hcap hd bh
    rw [hs] at h1
    cases h1
    exact h2.holds
  | integer env S cap p s hS hcap hd hs =>
    intro _
    obtain ⟨s', h1, h2⟩ := C47_integer_set env S cap hS p hcap hd
    rw [hs] at h1
    cases h1
    exact h2.holds
  | length env S cap eq lenT p s hS hcap hlen hd hs =>
    intro heq
    obtain ⟨s', h1, h2⟩ := C47_length_set env S cap hS eq heq lenT hlen p hcap hd
    rw [hs] at h1
    cases h1
    exact h2.holds
  | leftSlice env S cap a b bh p s hS hcap hab hl hd hs =>
    intro _
    obtain ⟨s', h1, h2⟩ := C47_left_slice_set env S cap hS p hcap hd a b hab hl bh
    rw [hs] at h1
    cases h1
    exact h2.holds
  | rightSlice env S cap oc a b bh p s hS hcap hab hl hd hs =>
    intro _
    obtain ⟨s', h1, h2⟩ := C47_right_slice_set env S cap hS p hcap hd a b hab hl bh oc
    rw [hs] at h1
    cases h1
    exact h2.holds
  | integerRange oc oc' t p s hb hne hr hd hs =>
    exact fun _ => (C47_integer_range_set t hb oc oc' p hne hr hd s hs).holds
  | std eq p s hd hm => exact fun heq => ⟨stdSet_consistent heq hd, hm⟩

/-- Predicates and equality between sets of any two types: they return, and say of the values the
sets were built from what their names say. -/
theorem C54_predicates [Target] (eq : T → T → Bool) (heq : LawfulEq eq) (a b : SetI T) (p q : List T)
    (ha : SetOf T eq a p) (hb : SetOf T eq b q) :
    (∃ r, a.isSubset b = .ok r ∧ (r = true ↔ ∀ x, Has eq p x → Has eq q x)) ∧
    (∃ r, a.isSuperset b = .ok r ∧ (r = true ↔ ∀ x, Has eq q x → Has eq p x)) ∧
    (∃ r, a.isDisjoint b = .ok r ∧ (r = true ↔ ¬ ∃ x, Has eq p x ∧ Has eq q x)) ∧
    (∃ r, a.eq b = .ok r ∧ (r = true ↔ ∀ x, Has eq p x ↔ Has eq q x)) := by
  obtain ⟨ca, ma⟩ := ha.holds heq
  obtain ⟨cb, mb⟩ := hb.holds heq
  obtain ⟨r1, h1, h1'⟩ := C35_is_subset eq heq a b ca cb
  obtain ⟨r2, h2, h2'⟩ := C35_is_superset eq heq a b ca cb
  obtain ⟨r3, h3, h3'⟩ := C35_is_disjoint eq a b cb heq
  obtain ⟨r4, h4, h4'⟩ := C37_eq_iff eq heq a b ca cb
  refine ⟨⟨r1, h1, ?_⟩, ⟨r2, h2, ?_⟩, ⟨r3, h3, ?_⟩, ⟨r4, h4, ?_⟩⟩
  · simpa only [ma, mb] using h1'
  · simpa only [ma, mb] using h2'
  · rw [h3']; simp only [ma, mb]; exact not_exists.symm
  · simpa only [ma, mb] using h4'

theorem SetOperator.apply_spec (eq : T → T → Bool) (heq : LawfulEq eq) (o : SetOperator)
    (a b : SetI T) (ca : Consistent eq a) (cb : Consistent eq b) :
    ∃ s, o.apply eq a b = .ok s ∧
      HasExactly eq s (fun x => o.holds (Has eq a.iter x) (Has eq b.iter x)) := by
  cases o with
  | or => exact C34_bit_or eq heq a b ca cb
  | and => exact C34_bit_and eq heq a b ca cb
  | xor => exact C34_bit_xor eq heq a b ca cb
  | sub => exact C34_sub eq heq a b ca cb

/-- Operators between sets of any two types. -/
theorem C54_operators [Target] (eq : T → T → Bool) (heq : LawfulEq eq) (o : SetOperator) (a b : SetI T)
    (p q : List T) (ha : SetOf T eq a p) (hb : SetOf T eq b q) :
    ∃ s, o.apply eq a b = .ok s ∧
      HasExactly eq s (fun x => o.holds (Has eq p x) (Has eq q x)) := by
  obtain ⟨ca, ma⟩ := ha.holds heq
  obtain ⟨cb, mb⟩ := hb.holds heq
  obtain ⟨s, h1, h2⟩ := o.apply_spec eq heq a b ca cb
  refine ⟨s, h1, ?_⟩
  simpa only [ma, mb] using h2

/-- Nested expressions of any depth evaluate, and contain exactly the values they denote. -/
theorem C54_expressions [Target] (eq : T → T → Bool) (heq : LawfulEq eq) (e : SetExpr T) (P : T → Prop)
    (h : e.Means eq P) :
    ∃ s, e.eval eq = .ok s ∧ Distinct eq s.iter ∧ s.len = s.iter.length ∧
      (∀ x, Has eq s.iter x ↔ P x) ∧ ∀ x, ∃ b, s.contains x = .ok b ∧ (b = true ↔ P x) := by
  have main : ∃ s, e.eval eq = .ok s ∧ Consistent eq s ∧ ∀ x, Has eq s.iter x ↔ P x := by
    induction h with
    | leaf hs => exact ⟨_, rfl, hs.holds heq⟩
    | @op o order a p rest Q ho ha hrest ih =>
      obtain ⟨b, hb, cb, mb⟩ := ih
      obtain ⟨ca, ma⟩ := ha.holds heq
      obtain ⟨s, h1, h2, h3⟩ := o.apply_spec eq heq a b ca cb
      have hc := stdSet_consistent (l := s.items) heq h2
      refine ⟨(StdSet.mk (order s.items)).toSetI eq, ?_,
        stdSet_consistent heq (h2.perm heq (ho _).symm), ?_⟩
      · unfold SetExpr.eval
        rw [hb]
        show (do let r ← o.apply eq a b; return (StdSet.mk (order r.items)).toSetI eq :
          Res (SetI T)) = _
        rw [h1]
        rfl
      · intro x
        have hx := h3 x
        simp only [ma, mb] at hx
        simp only [← hx]
        obtain ⟨b', hb', hb''⟩ := hc.contains x
        have : s.contains eq x = b' := by
          simpa only [StdSet.toSetI, Res.ok.injEq] using hb'
        rw [this, hb'']
        exact has_perm (ho _) x
  obtain ⟨s, h1, h2, h3⟩ := main
  refine ⟨s, h1, h2.distinct, h2.len, h3, fun x => ?_⟩
  obtain ⟨b, hb, hb'⟩ := h2.contains x
  exact ⟨b, hb, hb'.trans (h3 x)⟩

/-- Non-vacuity: a range set, a hash-based integer set and a `HashSet` in one expression,
`{3,4,5} ^ ({5,900,-7} & {900,5,5,1})`. -/
example : ∃ (a b : SetI Int), SetOf Int (fun a b => decide (a = b)) a [5, 3, 4] ∧
    SetOf Int (fun a b => decide (a = b)) b [5, 900, -7] ∧
    SetExpr.Means (fun a b => decide (a = b))
      (.op .xor List.reverse a (.op .and id b
        (.leaf ((StdSet.collect (fun a b => decide (a = b)) [900, 5, 5, 1]).toSetI
          (fun a b => decide (a = b))))))
      (fun x => SetOperator.xor.holds (Has (fun a b => decide (a = b)) [5, 3, 4] x)
        (SetOperator.and.holds (Has (fun a b => decide (a = b)) [5, 900, -7] x)
          (Has (fun a b => decide (a = b)) [900, 5, 5, 1] x))) := by
  obtain ⟨s, hs⟩ := Res.of_isOk (r := IntegerRangeSet.fromVec true IntTy.u32 [5, 3, 4])
    (by decide +kernel)
  obtain ⟨s', hs'⟩ := Res.of_isOk (r := IntegerSet.fromVec checkedEnv IdxTy.u8 [5, 900, -7])
    (by decide +kernel)
  have ha := SetOf.integerRange true true IntTy.u32 [5, 3, 4] s (by decide) (by decide)
    (by decide) (by decide) hs
  have hb := SetOf.integer checkedEnv IdxTy.u8 255 [5, 900, -7] s' rfl (by decide) (by decide) hs'
  have hlaw : LawfulEq (fun a b : Int => decide (a = b)) := by constructor <;> simp <;> omega
  have hs := collect_spec (eq := fun a b : Int => decide (a = b)) hlaw [900, 5, 5, 1]
  exact ⟨_, _, ha, hb, .op List.reverse_perm ha (.op List.Perm.refl hb (.leaf (.std _ _ _ hs.1 hs.2)))⟩

/-! Each theorem at an `IntegerSet` and an `IntegerRangeSet`. -/

def exSet : IntegerSet := (IntegerSet.fromVec checkedEnv IdxTy.u8 [5, 900, -7]).get (by decide +kernel)
theorem exSet_setOf : SetOf Int (fun a b => decide (a = b)) exSet.toSetI [5, 900, -7] :=
  .integer checkedEnv IdxTy.u8 255 [5, 900, -7] _ rfl (by decide) (by decide) (Res.built _)
def exRangeSet : IntegerRangeSet := (IntegerRangeSet.fromVec true IntTy.u32 [5, 3, 4]).get (by decide +kernel)
theorem exRangeSet_setOf :
    SetOf Int (fun a b => decide (a = b)) (exRangeSet.toSetI true IntTy.u32) [5, 3, 4] :=
  .integerRange true true IntTy.u32 [5, 3, 4] _ (by decide) (by decide) (by decide) (by decide) (Res.built _)

example := C54_predicates _ lawfulEq_decide _ _ _ _ exSet_setOf exRangeSet_setOf
example := C54_operators _ lawfulEq_decide .xor _ _ _ _ exSet_setOf exRangeSet_setOf
example := C54_expressions _ lawfulEq_decide _ _
  (.op (o := .xor) List.reverse_perm exSet_setOf (.leaf exRangeSet_setOf))

end FC
