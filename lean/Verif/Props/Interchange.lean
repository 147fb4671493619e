import Verif.Spec.Interchange
import Verif.Lemmas.SameRuns
import Verif.Lemmas.Rebuild
import Verif.Props.History
import Verif.Props.SetAlgebra
import Verif.Props.SetOps
import Verif.Props.Machine

/-
C100: maps of different types made from the same entries are interchangeable.
-/

set_option autoImplicit false

namespace FC
variable {V : Type}

/-- Each type's map is the dictionary of its entries (C49, C50). -/
theorem MapFrom.refines {t : Target} {K Q M : Type} {eq : Q → Q → Bool} {borrow : K → Q}
    {p : List (K × V)} {A : MapApi M K V Q} {m : M} (h : MapFrom t eq borrow p A m)
    (heq : LawfulEq eq) (hd : DistinctKeys (fun a b => eq (borrow a) (borrow b)) p)
    (hl : p.length < 2 ^ 32) : Refines A eq borrow m p := by
  have nd : ∀ {K : Type} [DecidableEq K] {p : List (K × V)},
      DistinctKeys (fun a b : K => decide (id a = id b)) p → (p.map (·.1)).Nodup := by
    intro K _ p hd
    refine List.pairwise_map.2 (hd.imp fun h => ?_)
    simpa using h
  cases h with
  | scanning P p => exact C49_scanning_map P heq p hd
  | common env S P enc p bh m henc hm => exact C49_common_map env S P heq enc henc p hd bh m hm hl
  | integer env S p m hm => exact C49_integer_map env S p (nd hd) m hm hl
  | range oc oc' it p m hb hne hr hm => exact C49_range_map oc oc' it hb p hne hr (nd hd) m hm
  | length env S borrow eq lenK lenQ p m hlen hm =>
    exact C49_length_map env S borrow eq heq lenK lenQ hlen p hd m hm hl
  | left env S p a b bh m hab hm => exact C49_left_slice_map env S p (nd hd) a b hab bh m hm hl
  | right env oc S p a b bh m hab ha hb hm =>
    exact C49_right_slice_map env S p (nd hd) a b hab ha hb bh m hm hl oc
  | frozen env env' ty p bh m hty hm => exact C50_frozen_map env env' ty hty p hl hd bh m hm

theorem agree_square {K : Type} : ∀ {x y o₁ o o₂ : List (Out K V)}, List.Forall₂ Out.Agree x o₁ →
    List.Forall₂ Out.Agree x o → List.Forall₂ Out.Agree y o → List.Forall₂ Out.Agree y o₂ →
    List.Forall₂ Out.Agree o₁ o₂
  | _, _, _, _, _, .nil, .nil, .nil, .nil => .nil
  | _, _, _, _, _, .cons h₁ t₁, .cons h t, .cons h' t', .cons h₂ t₂ =>
    .cons ((h₁.both h).trans (h'.symm.trans h₂)) (agree_square t₁ t t' t₂)

/-- C100. Any two maps, of whichever of the eight types, on whichever machines, made from the same entries
in any orders, are interchangeable. -/
theorem C100_interchangeable (t₁ t₂ : Target) {K Q M N : Type} {eq : Q → Q → Bool} {borrow : K → Q}
    {p q : List (K × V)} {A : MapApi M K V Q} {B : MapApi N K V Q} {m : M} {n : N}
    (h₁ : MapFrom t₁ eq borrow p A m) (h₂ : MapFrom t₂ eq borrow q B n) (hpq : p.Perm q)
    (heq : LawfulEq eq) (hd : DistinctKeys (fun a b => eq (borrow a) (borrow b)) p)
    (hl : p.length < 2 ^ 32) : Interchangeable A B m n := by
  intro ops
  have heq' : LawfulEq (fun a b : K => eq (borrow a) (borrow b)) :=
    ⟨fun a => heq.refl _, fun a b h => heq.symm _ _ h, fun a b c h h' => heq.trans _ _ _ h h'⟩
  have hd' := DistinctKeys.perm heq' hpq hd
  have r₁ := h₁.refines heq hd hl ops
  have r₂ := h₂.refines heq hd' (by rw [← hpq.length_eq]; exact hl) ops
  -- both orders stand for one dictionary: a scanning map of the one, compared with the other
  have s₁ : Refines (scanningApi ⟨borrow, eq, fun _ => []⟩) eq borrow (ScanningMap.fromVec p) p :=
    (scanning_scanMap (V := V) ⟨borrow, eq, fun _ => []⟩).refines heq trivial (List.Perm.refl _) hd
  have s₂ : Refines (scanningApi ⟨borrow, eq, fun _ => []⟩) eq borrow (ScanningMap.fromVec p) q :=
    (scanning_scanMap (V := V) ⟨borrow, eq, fun _ => []⟩).refines heq trivial hpq hd'
  replace s₁ := s₁ ops
  replace s₂ := s₂ ops
  cases e₁ : Dict.run eq borrow p ops with
  | ub => rw [e₁] at r₁; exact r₁.elim
  | panic =>
    rw [e₁] at r₁ s₁
    cases e₂ : Dict.run eq borrow q ops with
    | ub => rw [e₂] at r₂; exact r₂.elim
    | panic => rw [e₂] at r₂; exact Or.inl ⟨r₁, r₂⟩
    | ok y =>
      rw [e₂] at s₂
      obtain ⟨o, m', h, _⟩ := s₂
      rw [s₁] at h; cases h
  | ok x =>
    rw [e₁] at r₁ s₁
    obtain ⟨o₁, m₁', h₁, a₁⟩ := r₁
    obtain ⟨o, m', hs, a⟩ := s₁
    cases e₂ : Dict.run eq borrow q ops with
    | ub => rw [e₂] at r₂; exact r₂.elim
    | panic => rw [e₂] at s₂; rw [s₂] at hs; cases hs
    | ok y =>
      rw [e₂] at r₂ s₂
      obtain ⟨o₂, m₂', h₂, a₂⟩ := r₂
      obtain ⟨o', m'', hs', a'⟩ := s₂
      rw [hs] at hs'; cases hs'
      exact Or.inr ⟨o₁, o₂, m₁', m₂', h₁, h₂, agree_square a₁ a a' a₂⟩

/-- C100 for sets. Two sets of any types (std's included, or made by operators) that hold the same
elements are interchangeable. -/
theorem C100_sets [Target] {T : Type} (eq : T → T → Bool) (heq : LawfulEq eq) (a a' b : SetI T)
    (p p' q : List T) (ha : SetOf T eq a p) (ha' : SetOf T eq a' p') (hb : SetOf T eq b q)
    (hp : ∀ x, Has eq p x ↔ Has eq p' x) : SetsInterchangeable a a' b := by
  have same : ∀ {x y : Res Bool} {P P' : Prop}, (∃ r, x = .ok r ∧ (r = true ↔ P)) →
      (∃ r, y = .ok r ∧ (r = true ↔ P')) → (P ↔ P') → SameAnswers x y := by
    rintro x y P P' ⟨r, rfl, h⟩ ⟨r', rfl, h'⟩ hP
    refine ⟨r, rfl, ?_⟩
    have := h.trans (hP.trans h'.symm)
    cases r <;> cases r' <;> simp_all
  obtain ⟨ca, ma⟩ := ha.holds heq
  obtain ⟨ca', ma'⟩ := ha'.holds heq
  have hi : ∀ x, Has eq a.iter x ↔ Has eq a'.iter x := fun x => by rw [ma, ma', hp]
  obtain ⟨l1, l2, l3, l4⟩ := C54_predicates eq heq a b p q ha hb
  obtain ⟨l1', l2', l3', l4'⟩ := C54_predicates eq heq a' b p' q ha' hb
  obtain ⟨r1, r2, r3, r4⟩ := C54_predicates eq heq b a q p hb ha
  obtain ⟨r1', r2', r3', r4'⟩ := C54_predicates eq heq b a' q p' hb ha'
  refine ⟨fun x => same (ca.contains x) (ca'.contains x) (hi x), ?_, ⟨?_, ?_, ?_, ?_⟩, ?_, ?_, ?_, ?_⟩
  · rw [ca.len, ca'.len]
    exact le_antisymm (length_le_of_match heq ca.distinct fun x hx => (hi x).1 ⟨x, hx, heq.refl x⟩)
      (length_le_of_match heq ca'.distinct fun x hx => (hi x).2 ⟨x, hx, heq.refl x⟩)
  · exact same l1 l1' (by simp only [hp])
  · exact same l2 l2' (by simp only [hp])
  · exact same l3 l3' (by simp only [hp])
  · exact same l4 l4' (by simp only [hp])
  · exact same r1 r1' (by simp only [hp])
  · exact same r2 r2' (by simp only [hp])
  · exact same r3 r3' (by simp only [hp])
  · exact same r4 r4' (by simp only [hp])

theorem sameElements {T : Type} {eq : T → T → Bool} (heq : LawfulEq eq) {l l' : List T}
    (hd : Distinct eq l) (hd' : Distinct eq l') (h : ∀ x, Has eq l x ↔ Has eq l' x) :
    SameElements eq l l' :=
  ⟨le_antisymm (length_le_of_match heq hd fun x hx => (h x).1 ⟨x, hx, heq.refl x⟩)
    (length_le_of_match heq hd' fun x hx => (h x).2 ⟨x, hx, heq.refl x⟩), h⟩

/-- C100 for what is made of two sets: operators and the four iterators give the same elements when both
sets are replaced by sets of other types that hold the same. -/
theorem C100_combined_sets [Target] {T : Type} (eq : T → T → Bool) (heq : LawfulEq eq)
    (a b a' b' : SetI T) (p q p' q' : List T) (ha : SetOf T eq a p) (hb : SetOf T eq b q)
    (ha' : SetOf T eq a' p') (hb' : SetOf T eq b' q') (hp : ∀ x, Has eq p x ↔ Has eq p' x)
    (hq : ∀ x, Has eq q x ↔ Has eq q' x) : CombineAlike eq a b a' b' := by
  obtain ⟨ca, ma⟩ := ha.holds heq
  obtain ⟨cb, mb⟩ := hb.holds heq
  obtain ⟨ca', ma'⟩ := ha'.holds heq
  obtain ⟨cb', mb'⟩ := hb'.holds heq
  have hi : ∀ x, Has eq a.iter x ↔ Has eq a'.iter x := fun x => by rw [ma, ma', hp]
  have hj : ∀ x, Has eq b.iter x ↔ Has eq b'.iter x := fun x => by rw [mb, mb', hq]
  refine ⟨sameElements heq ca.distinct ca'.distinct hi, fun o => ?_, ?_, ?_, ?_, ?_⟩
  · obtain ⟨s, h, d, hs⟩ := C54_operators eq heq o a b p q ha hb
    obtain ⟨s', h', d', hs'⟩ := C54_operators eq heq o a' b' p' q' ha' hb'
    refine ⟨s, s', h, h', sameElements heq d d' fun x => ?_⟩
    have e := hs x
    have e' := hs' x
    simp only [hp, hq] at e
    have e := e.trans e'.symm
    have sy : ∀ y, eq y x = eq x y := fun y => Bool.eq_iff_iff.2 ⟨heq.symm y x, heq.symm x y⟩
    simpa [StdSet.contains, Has, sy] using e
  · obtain ⟨l, h, d, hs, _⟩ := C32_union eq heq a b ca cb
    obtain ⟨l', h', d', hs', _⟩ := C32_union eq heq a' b' ca' cb'
    exact ⟨l, l', h, h', sameElements heq d d' fun x => by rw [hs, hs', hi, hj]⟩
  · obtain ⟨l, h, d, hs, _⟩ := C33_intersection eq heq a b ca cb
    obtain ⟨l', h', d', hs', _⟩ := C33_intersection eq heq a' b' ca' cb'
    exact ⟨l, l', h, h', sameElements heq d d' fun x => by rw [hs, hs', hi, hj]⟩
  · obtain ⟨l, h, d, hs, _⟩ := C33_difference eq heq a b ca cb
    obtain ⟨l', h', d', hs', _⟩ := C33_difference eq heq a' b' ca' cb'
    exact ⟨l, l', h, h', sameElements heq d d' fun x => by rw [hs, hs', hi, hj]⟩
  · obtain ⟨l, h, d, hs, _⟩ := C33_symmetric_difference eq heq a b ca cb
    obtain ⟨l', h', d', hs', _⟩ := C33_symmetric_difference eq heq a' b' ca' cb'
    exact ⟨l, l', h, h', sameElements heq d d' fun x => by rw [hs, hs', hi, hj]⟩

/-! ### Non-vacuity -/

/-- `{5, 3, 4}` and `{5, 900, -7}`, as an `IntegerRangeSet` and an `IntegerSet`, and as scanning sets in
other orders. -/
example := C100_combined_sets (fun a b : Int => decide (a = b)) lawfulEq_decide _ _ _ _ _ _ _ _
  exRangeSet_setOf exSet_setOf
  (.scanning _ (fun _ => []) [3, 4, 5] (by unfold Distinct; decide +kernel))
  (.scanning _ (fun _ => []) [-7, 900, 5] (by unfold Distinct; decide +kernel))
  (fun x => by simp [Has]; omega) (fun x => by simp [Has]; omega)

/-- `{5, 3, 4}` as an `IntegerRangeSet` and as a scanning set in another order, each against
`{5, 900, -7}`. -/
example := C100_sets (fun a b : Int => decide (a = b)) lawfulEq_decide _ _ _ _ _ _ exRangeSet_setOf
  (.scanning _ (fun _ => []) [3, 4, 5] (by unfold Distinct; decide +kernel)) exSet_setOf
  (fun x => by simp [Has]; omega)

/-- An `IntegerMap` on a 64-bit machine and a `CommonMap` on a 32-bit machine, and a `FrozenMap` of a
general key type and a `ScanningMap` with the entries in reverse. -/
example : ∃ (m : IntegerMap Nat) (c : CommonMap Int Nat) (f : FrozenMap Int Nat),
    Interchangeable integerApi (commonApi otherTy.probe) m c ∧
    Interchangeable (frozenApi releaseEnv otherTy) (scanningApi otherTy.probe) f
      (ScanningMap.fromVec exOther.reverse) := by
  obtain ⟨c, hc⟩ := Res.of_isOk (r := @CommonMap.fromVecWithHasher x32 _ _ releaseEnv IdxTy.u16 otherTy.enc
    exOther.reverse (fun _ => 0)) (by decide +kernel)
  obtain ⟨f, hf⟩ := Res.of_isOk (r := FrozenMap.new checkedEnv otherTy exOther demoHasher) (by decide +kernel)
  have hi := MapFrom.integer (t := x64) checkedEnv IdxTy.u8 exOther exInteger exInteger_ok
  have hcm := MapFrom.common (t := x32) releaseEnv IdxTy.u16 otherTy.probe otherTy.enc exOther.reverse
    (fun _ => 0) c exOther_enc hc
  have hfr := MapFrom.frozen (t := x64) checkedEnv releaseEnv otherTy exOther demoHasher f otherTy_lawful hf
  have hsc := MapFrom.scanning (t := x64) otherTy.probe exOther.reverse
  exact ⟨exInteger, c, f,
    C100_interchangeable x64 x32 hi hcm (List.reverse_perm _).symm otherTy_lawful.eq exOther_distinct (by decide),
    C100_interchangeable x64 x64 hfr hsc (List.reverse_perm _).symm otherTy_lawful.eq exOther_distinct
      (by decide)⟩

/-- What `exHistory` shows on two of them, a write included. -/
example : (do let m ← IntegerMap.fromVec checkedEnv IdxTy.u8 exOther
              return (← integerApi.run m exHistory).1) =
    (do return (← (scanningApi otherTy.probe).run (ScanningMap.fromVec exOther.reverse) exHistory).1) := by
  decide +kernel

end FC
