import Verif.Spec.UserCode

/-
Sessions with maps whose key code is pure.
-/

set_option autoImplicit false

namespace FC
variable {σ M K V Q : Type}

/-- Build a map, perform a history, show what was seen; no code of the caller's involved. -/
def MapApi.session (A : MapApi M K V Q) (build : Res M) (ops : List (MapOp V Q)) :
    Res (List (Out K V)) := do
  let m ← build
  let r ← A.run m ops
  return r.1

/-- A session in which the caller's code runs shows what the session `x` shows, panics where `x`
panics, is undefined where `x` is, and leaves the state around the caller's code alone. -/
def LeavesAlone {α : Type} (c : Call σ α) (x : Res α) : Prop :=
  ∀ s, c s = x.map (fun a => (a, s))

end FC
