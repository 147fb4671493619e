import Verif.Model.IntSets
import Verif.Spec.IntTraits
import Verif.Spec.SetLookups
import Verif.Spec.PureSets

/-
Questions to sets over integer types of the caller's own.
-/

set_option autoImplicit false

namespace FC
variable {σ M T Q : Type}

/-- Build a set, then ask one thing after another. -/
def CallApi.setSession (A : CallApi σ M T Unit Q) (build : Call σ M) (asks : List (SetAsk Q)) :
    Call σ (List (SetAns T)) := do
  let m ← build
  Call.mapList (A.ask m) asks

/-- `IntegerRangeSet`, as functions (with `SetView` of Spec/PureSets). -/
def IntegerRangeSet.view [Target] (oc : Bool) (t : IntTy) (s : IntegerRangeSet) : SetView Int Int :=
  ⟨s.get oc t, s.contains oc t, s.len, decide (s.len = 0), s.iter.items⟩

end FC
