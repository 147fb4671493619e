import Verif.Spec.History

/-
When two maps cannot be told apart.
-/

set_option autoImplicit false

namespace FC
variable [Target]
variable {M M' K V Q : Type}

/-- Every history of operations shows the same on both maps: both panic, or both return and the
observations agree (equal, except for the order of iteration). Neither is ever undefined. -/
def Indistinguishable (A : MapApi M K V Q) (A' : MapApi M' K V Q) (m : M) (m' : M') : Prop :=
  ∀ ops : List (MapOp V Q),
    A.run m ops = .panic ∧ A'.run m' ops = .panic ∨
    ∃ outs outs' r r', A.run m ops = .ok (outs, r) ∧ A'.run m' ops = .ok (outs', r') ∧
      List.Forall₂ Out.Agree outs outs'

end FC
