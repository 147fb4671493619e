import Verif.Model.IntTraits
import Verif.Model.SetLookups

/-
The sets over integer types of the caller's own (Model/IntTraits.lean): each wraps the map of the same
name with `()` values.
-/

set_option autoImplicit false

namespace FC
variable {σ M T Q : Type}

/-- `get`: `Some(self.map.get_key_value(value)?.0)`. common_set.rs:134-140, integer_set.rs:33-39,
length_set.rs:38-44, left_slice_set.rs:61-67, right_slice_set.rs:61-67, integer_range_set.rs:32-38. -/
def CallApi.setGet (A : CallApi σ M T Unit Q) (m : M) (q : Q) : Call σ (Option T) := do
  match ← A.lookup m q with
  | some r => return some r.1
  | none => return none

/-- `contains`: `self.get(value).is_some()`. common_set.rs:156-162, integer_set.rs:43-49,
length_set.rs:48-54, left_slice_set.rs:71-77, right_slice_set.rs:71-77, integer_range_set.rs:42-48. -/
def CallApi.setContains (A : CallApi σ M T Unit Q) (m : M) (q : Q) : Call σ Bool := do
  return (← A.setGet m q).isSome

/-- Ask one thing. `len` is that of the map (common_set.rs:193-197, integer_set.rs:59-63,
length_set.rs:64-68, left_slice_set.rs:111-115, right_slice_set.rs:111-115,
integer_range_set.rs:58-62), `is_empty` is `self.len() == 0` (traits/len.rs:18-20), `iter` walks the
entries of the map (common_set.rs:280-282, integer_set.rs:54-56, length_set.rs:59-61,
left_slice_set.rs:82-84, right_slice_set.rs:82-84, integer_range_set.rs:53-55). -/
def CallApi.ask (A : CallApi σ M T Unit Q) (m : M) : SetAsk Q → Call σ (SetAns T)
  | .get q => do return .element (← A.setGet m q)
  | .contains q => do return .bool (← A.setContains m q)
  | .len => return .number (A.entries m).length
  | .isEmpty => return .bool (decide ((A.entries m).length = 0))
  | .iter => return .items ((A.entries m).map (·.1))

end FC
