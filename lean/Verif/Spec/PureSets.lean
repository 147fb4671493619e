import Verif.Model.SetLookups
import Verif.Model.FrozenSet
import Verif.Spec.SetCalls
import Verif.Spec.PureCode

/-
Sessions with sets whose element code is pure: what the sets of Model/Sets.lean and
Model/FrozenSet.lean show, with no code of the caller's involved.
-/

set_option autoImplicit false

namespace FC
variable [Target]
variable {M T Q : Type}

/-- The questions a set can be asked, as functions. -/
structure SetView (T Q : Type) where
  get : Q → Res (Option T)
  contains : Q → Res Bool
  len : Nat
  isEmpty : Bool
  items : List T

/-- Ask one thing. -/
def SetView.ask (v : SetView T Q) : SetAsk Q → Res (SetAns T)
  | .get q => do return .element (← v.get q)
  | .contains q => do return .bool (← v.contains q)
  | .len => return .number v.len
  | .isEmpty => return .bool v.isEmpty
  | .iter => return .items v.items

/-- Ask one thing after another. -/
def SetView.asks (v : SetView T Q) : List (SetAsk Q) → Res (List (SetAns T))
  | [] => return []
  | a :: as => do
    let b ← v.ask a
    let bs ← v.asks as
    return b :: bs

/-- Build a set and ask one thing after another. -/
def SetView.session (view : M → SetView T Q) (build : Res M) (asks : List (SetAsk Q)) :
    Res (List (SetAns T)) := do
  let m ← build
  (view m).asks asks

/-- `ScanningSet`. -/
def ScanningSet.view (P : Probe T Q) (s : ScanningSet T) : SetView T Q :=
  ⟨s.get P, s.contains P, s.len, decide (s.len = 0), s.iter.items⟩

/-- `CommonSet`. -/
def CommonSet.view (P : Probe T Q) (s : CommonSet T) : SetView T Q :=
  ⟨s.get P, s.contains P, s.len, decide (s.len = 0), s.iter.items⟩

/-- `IntegerSet`. -/
def IntegerSet.view (s : IntegerSet) : SetView Int Int :=
  ⟨s.get, s.contains, s.len, decide (s.len = 0), s.iter.items⟩

/-- `LengthSet`. -/
def LengthSet.view (borrow : T → Q) (eq : Q → Q → Bool) (lenQ : Q → Nat) (s : LengthSet T) :
    SetView T Q :=
  ⟨s.get borrow eq lenQ, s.contains borrow eq lenQ, s.len, decide (s.len = 0), s.iter.items⟩

/-- `LeftSliceSet`. -/
def LeftSliceSet.view (s : LeftSliceSet) : SetView Bytes Bytes :=
  ⟨s.get, s.contains, s.len, decide (s.len = 0), s.iter.items⟩

/-- `RightSliceSet`. -/
def RightSliceSet.view (oc : Bool) (s : RightSliceSet) : SetView Bytes Bytes :=
  ⟨s.get oc, s.contains oc, s.len, decide (s.len = 0), s.iter.items⟩

/-- `FrozenSet`. -/
def FrozenSet.view (env : Env) (ty : KeyTy T) (s : FrozenSet T) : SetView T T :=
  ⟨s.get env ty, s.contains env ty, s.len, s.isEmpty, (s.iter ty).items⟩

/-- `next` of each operation, for operands that are functions. -/
def SetOp.pureNext : SetOp → BinIter T → Res (Option T × BinIter T)
  | .union => BinIter.unionNext
  | .intersection => BinIter.intersectionNext
  | .difference => BinIter.differenceNext
  | .symmetricDifference => BinIter.symDiffNext

/-- The answers of `n` calls of `next`. -/
def SetOp.pureCalls (op : SetOp) : Nat → BinIter T → Res (List (Option T))
  | 0, _ => return []
  | n + 1, s => do
    let r ← op.pureNext s
    let rs ← op.pureCalls n r.2
    return r.1 :: rs

/-- Ask a predicate of operands that are functions. -/
def SetPred.pureAsk : SetPred → SetI T → SetI T → Res Bool
  | .isSubset, a, b => a.isSubset b
  | .isSuperset, a, b => a.isSuperset b
  | .isDisjoint, a, b => a.isDisjoint b
  | .eq, a, b => a.eq b

end FC
