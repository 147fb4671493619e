import Verif.Spec.Len
import Verif.Props.SetOps
import Verif.Lemmas.Equality

/-
Equality of the types with a built-in length.
-/

set_option autoImplicit false

namespace FC
variable [Target]

omit [Target] in
theorem seqEq_length {T : Type} {eq : T → T → Bool} : ∀ {a b : List T}, seqEq eq a b = true →
    a.length = b.length
  | [], [], _ => rfl
  | _ :: _, _ :: _, h => by
    simp only [seqEq, Bool.and_eq_true] at h
    simp [seqEq_length h.2]
  | [], _ :: _, h => by simp [seqEq] at h
  | _ :: _, [], h => by simp [seqEq] at h

omit [Target] in
theorem seqEq_lawful {T : Type} {eq : T → T → Bool} (heq : LawfulEq eq) : LawfulEq (seqEq eq) where
  refl a := by
    induction a with
    | nil => rfl
    | cons x xs ih => simp [seqEq, heq.refl, ih]
  symm a := by
    induction a with
    | nil => intro b h; cases b <;> simp_all [seqEq]
    | cons x xs ih =>
      intro b h
      cases b with
      | nil => simp [seqEq] at h
      | cons y ys =>
        simp only [seqEq, Bool.and_eq_true] at h ⊢
        exact ⟨heq.symm _ _ h.1, ih _ h.2⟩
  trans a := by
    induction a with
    | nil => intro b c h h'; cases b <;> cases c <;> simp_all [seqEq]
    | cons x xs ih =>
      intro b c h h'
      cases b with
      | nil => simp [seqEq] at h
      | cons y ys =>
        cases c with
        | nil => simp [seqEq] at h'
        | cons z zs =>
          simp only [seqEq, Bool.and_eq_true] at h h' ⊢
          exact ⟨heq.trans _ _ _ h.1 h'.1, ih _ _ h.2 h'.2⟩

omit [Target] in
/-- A relation that says "related to the same things" is lawful. -/
theorem lawful_of_iff {α β : Type} {eq : α → α → Bool} {R : α → β → Prop}
    (h : ∀ a b, eq a b = true ↔ ∀ x, R a x ↔ R b x) : LawfulEq eq where
  refl a := (h a a).2 (fun _ => Iff.rfl)
  symm a b hab := (h b a).2 (fun x => ((h a b).1 hab x).symm)
  trans a b c hab hbc := (h a c).2 (fun x => ((h a b).1 hab x).trans ((h b c).1 hbc x))

omit [Target] in
theorem hashSet_eq_iff {T : Type} {eq : T → T → Bool} (heq : LawfulEq eq) {a b : List T}
    (ha : Distinct eq a) (hb : Distinct eq b) :
    (decide (a.length = b.length) && a.all (fun x => b.any (fun y => eq y x))) = true ↔
      ∀ x, Has eq a x ↔ Has eq b x := by
  obtain ⟨r, h1, h2⟩ := C37_eq_iff eq heq ((StdSet.mk a).toSetI eq) ((StdSet.mk b).toSetI eq)
    (stdSet_consistent heq ha) (stdSet_consistent heq hb)
  have : SetI.eq ((StdSet.mk a).toSetI eq) ((StdSet.mk b).toSetI eq)
      = .ok (decide (a.length = b.length) && a.all (fun x => b.any (fun y => eq y x))) := by
    change (if a.length ≠ b.length then Res.ok false else
      Res.allList (fun x => Res.ok (b.any (fun y => eq y x))) a) = _
    by_cases hl : a.length = b.length
    · rw [if_neg (by simpa using hl), Res.allList_ok (f := fun x => b.any (fun y => eq y x))]
      · simp [hl]
      · intro x _
        rfl
    · rw [if_pos hl]
      simp [hl]
  rw [this] at h1
  cases h1
  exact h2

omit [Target] in
theorem hashMap_eq_iff {K V : Type} {eq : K → K → Bool} {veq : V → V → Bool} (heq : LawfulEq eq)
    {a b : List (K × V)} (ha : DistinctKeys eq a) (hb : DistinctKeys eq b) :
    (decide (a.length = b.length) && a.all (fun x =>
      match b.find? (fun y => eq x.1 y.1) with
      | none => false
      | some y => veq x.2 y.2)) = true ↔
      ∀ k, SameAnswer veq (lookup eq a k) (lookup eq b k) := by
  obtain ⟨r, h1, h2⟩ := mapEq_spec heq veq (p := a) (q := b) ha hb
    (get := fun k => .ok ((b.find? (fun y => eq k y.1)).map (fun y => ⟨0, y.2⟩)))
    (fun k => ⟨_, rfl, by simp [value, lookup, Option.map_map, Function.comp_def]⟩)
  have : mapEq veq a.length b.length a
      (fun k => .ok ((b.find? (fun y => eq k y.1)).map (fun y => (⟨0, y.2⟩ : Ref V))))
      = .ok (decide (a.length = b.length) && a.all (fun x =>
          match b.find? (fun y => eq x.1 y.1) with
          | none => false
          | some y => veq x.2 y.2)) := by
    unfold mapEq
    by_cases hl : a.length = b.length
    · rw [if_neg (by simpa using hl), Res.allList_ok (f := fun x =>
        match b.find? (fun y => eq x.1 y.1) with
        | none => false
        | some y => veq x.2 y.2)]
      · simp [hl]
      · intro x _
        simp only [Res.map_ok]
        cases b.find? (fun y => eq x.1 y.1) <;> rfl
    · rw [if_pos hl]
      simp [hl]
  rw [this] at h1
  cases h1
  exact h2

omit [Target] in
theorem SameAnswer.refl {V : Type} {veq : V → V → Bool} (hr : ∀ a, veq a a = true) (x : Option V) :
    SameAnswer veq x x := by
  cases x <;> simp [SameAnswer, hr]

omit [Target] in
theorem lawful_pair {K V : Type} {eq : K → K → Bool} {veq : V → V → Bool} (heq : LawfulEq eq)
    (hveq : LawfulEq veq) : LawfulEq (fun x y : K × V => eq x.1 y.1 && veq x.2 y.2) where
  refl x := by simp [heq.refl, hveq.refl]
  symm x y h := by
    simp only [Bool.and_eq_true] at h ⊢
    exact ⟨heq.symm _ _ h.1, hveq.symm _ _ h.2⟩
  trans x y z h h' := by
    simp only [Bool.and_eq_true] at h h' ⊢
    exact ⟨heq.trans _ _ _ h.1 h'.1, hveq.trans _ _ _ h.2 h'.2⟩

end FC
