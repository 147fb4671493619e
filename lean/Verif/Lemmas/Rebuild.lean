import Verif.Spec.Rebuild
import Verif.Lemmas.History

/-
Helper lemmas for C85.
-/

set_option autoImplicit false

namespace FC
variable {M M' K V Q : Type}

theorem Out.Agree.symm {a b : Out K V} (h : Out.Agree a b) : Out.Agree b a := by
  cases a <;> cases b <;> first | exact List.Perm.symm h | exact Eq.symm h

theorem Out.Agree.trans {a b c : Out K V} (h : Out.Agree a b) (h' : Out.Agree b c) :
    Out.Agree a c := by
  cases a <;> cases b <;> simp only [Out.Agree, reduceCtorEq] at h <;> cases c <;>
    simp only [Out.Agree, reduceCtorEq] at h' ⊢ <;> exact h.trans h'

theorem agree_all_symm {l l' : List (Out K V)} (h : List.Forall₂ Out.Agree l l') :
    List.Forall₂ Out.Agree l' l := by
  induction h with
  | nil => exact .nil
  | cons h _ ih => exact .cons h.symm ih

theorem agree_all_trans {l₁ l₂ : List (Out K V)} (h : List.Forall₂ Out.Agree l₁ l₂) :
    ∀ {l₃ : List (Out K V)}, List.Forall₂ Out.Agree l₂ l₃ → List.Forall₂ Out.Agree l₁ l₃ := by
  induction h with
  | nil => intro _ h'; exact h'
  | cons h _ ih =>
    intro _ h'
    cases h' with
    | cons g gs => exact .cons (h.trans g) (ih gs)

/-- Two maps that behave as one dictionary cannot be told apart. -/
theorem Indistinguishable.of_refines [Target] {A : MapApi M K V Q} {A' : MapApi M' K V Q}
    {eq : Q → Q → Bool} {borrow : K → Q} {m : M} {m' : M'} {d : List (K × V)}
    (h : Refines A eq borrow m d) (h' : Refines A' eq borrow m' d) :
    Indistinguishable A A' m m' := by
  intro ops
  have h1 := h ops
  have h2 := h' ops
  cases hr : Dict.run eq borrow d ops with
  | ub => rw [hr] at h1; exact h1.elim
  | panic =>
    rw [hr] at h1 h2
    exact Or.inl ⟨h1, h2⟩
  | ok r =>
    rw [hr] at h1 h2
    obtain ⟨o1, m1, e1, f1⟩ := h1
    obtain ⟨o2, m2, e2, f2⟩ := h2
    exact Or.inr ⟨o1, o2, m1, m2, e1, e2, agree_all_trans (agree_all_symm f1) f2⟩

theorem firstCalls_inj {α : Type} {es es' : List α}
    (h : ∀ n, firstCalls es n = firstCalls es' n) : es = es' := by
  apply List.ext_getElem?
  intro i
  have := congrArg (fun l => l[i]?) (h (i + 1))
  simpa [firstCalls] using this

end FC
