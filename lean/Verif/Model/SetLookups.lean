import Verif.Model.SetCode
import Verif.Model.StringCode
import Verif.Model.Sets

/-
Lookups in sets whose element type or hasher is arbitrary code. Every specialized set wraps the map of
the same name with `()` values, so a set is a `UMap T Unit` here.
-/

set_option autoImplicit false

namespace FC

/-- What can be asked of a set. specialized_sets/common_set.rs:113-199 and its counterparts. -/
inductive SetAsk (Q : Type) where
  | get (q : Q)
  | contains (q : Q)
  | len
  | isEmpty
  | iter
  deriving DecidableEq

/-- What it shows. specialized_sets/common_set.rs:113-199 and its counterparts. -/
inductive SetAns (T : Type) where
  | element (o : Option T)
  | bool (b : Bool)
  | number (n : Nat)
  | items (l : List T)
  deriving DecidableEq

variable {σ T Q : Type}

/-- `get`: `Some(self.map.get_key_value(value)?.0)` (scanning_set.rs:34-40, common_set.rs:134-140,
integer_set.rs:33-39, length_set.rs:38-44, left_slice_set.rs:61-67, right_slice_set.rs:61-67), and
facades/frozen_set.rs:399-428, which hands on to one of these. -/
def UMap.setGet (u : UserCode σ T Q) (m : UMap T Unit) (q : Q) : Call σ (Option T) := do
  match ← m.lookup u q with
  | some r => return some r.1
  | none => return none

/-- `contains`: `self.get(value).is_some()` (scanning_set.rs:44-50, common_set.rs:156-162,
integer_set.rs:43-49, length_set.rs:48-54, left_slice_set.rs:71-77, right_slice_set.rs:71-77), and
facades/frozen_set.rs:312-341. -/
def UMap.setContains (u : UserCode σ T Q) (m : UMap T Unit) (q : Q) : Call σ Bool := do
  return (← m.setGet u q).isSome

/-- Ask one thing. `len` is that of the map (e.g. common_set.rs:194-196, facades/frozen_set.rs:590-606),
`is_empty` is `self.len() == 0` (traits/len.rs:18-20, facades/frozen_set.rs:353-355), `iter` walks the
entries of the map (e.g. common_set.rs:280-282, specialized_sets/iterators.rs:22-30). -/
def UMap.ask (u : UserCode σ T Q) (m : UMap T Unit) : SetAsk Q → Call σ (SetAns T)
  | .get q => do return .element (← m.setGet u q)
  | .contains q => do return .bool (← m.setContains u q)
  | .len => return .number m.len
  | .isEmpty => return .bool (decide (m.len = 0))
  | .iter => return .items (m.entries.map (·.1))

/-- Ask one thing after another. Model device: the caller's sequence of calls of
specialized_sets/common_set.rs:113-199. -/
def UMap.asks (u : UserCode σ T Q) (m : UMap T Unit) (l : List (SetAsk Q)) :
    Call σ (List (SetAns T)) :=
  Call.mapList (m.ask u) l

variable [Target]

/-- facades/frozen_set.rs:197-209 (`FrozenSet::new`) and 293-299 (`new_common_set`), for an element
type other than `u32` and `String`. -/
def UMap.setFacade (env : Env) (u : UserCode σ T Q) (payload : List T) : Call σ (UMap T Unit) :=
  if payload.length < 4 then pure (.scanning (unitPayload payload))
  else if payload.length ≤ 255 then UMap.fromVec env IdxTy.u8 u (unitPayload payload)
  else UMap.fromVec env IdxTy.usize u (unitPayload payload)

/-- facades/frozen_set.rs:197-209 (`FrozenSet::new`) and 230-291 (`new_string_set`). -/
def UMap.stringSetFacade (env : Env) (h : HasherCode σ) (payload : List Bytes) :
    Call σ (StringRep × UMap Bytes Unit) := do
  if payload.length < 4 then return (.scanning, .scanning (unitPayload payload))
  else
    let verdict ← analyzeSliceKeysU env.oc h payload
    let build (S : IdxTy) (rep : StringRep) : Call σ (StringRep × UMap Bytes Unit) := do
      return (rep, ← UMap.fromVec env S (rep.code env.oc h) (unitPayload payload))
    if payload.length ≤ 255 then
      match verdict with
      | .normal => build IdxTy.u8 .common
      | .left i l => build IdxTy.u8 (.left i (i + l))
      | .right i l => build IdxTy.u8 (.right i (i + l))
      | .length => build IdxTy.u8 .length
    else
      match verdict with
      | .length | .normal => build IdxTy.usize .common
      | .left i l => build IdxTy.usize (.left i (i + l))
      | .right i l => build IdxTy.usize (.right i (i + l))

end FC
