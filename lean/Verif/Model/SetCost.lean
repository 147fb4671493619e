import Verif.Model.Cost
import Verif.Model.FrozenSet

/-
The lookups of the sets once more, this time also counting how often the value asked for is compared
with an element. Dropping the count gives back the lookups of Model/Sets.lean and Model/FrozenSet.lean
(`C72_set_same_answers`).
-/

set_option autoImplicit false

namespace FC
variable [Target]
variable {T Q : Type}

/-- `Some(self.map.get_key_value(value)?.0)`, the body of every specialized set's `get`
(e.g. specialized_sets/common_set.rs:139), with the count of the map's lookup. -/
def keyOfCounted (r : Res (Option (T × Ref Unit) × Nat)) : Res (Option T × Nat) :=
  r.map (fun p => (p.1.map (·.1), p.2))

/-- specialized_sets/scanning_set.rs:34-40, counting comparisons. -/
def ScanningSet.getCounted (P : Probe T Q) (s : ScanningSet T) (q : Q) : Res (Option T × Nat) :=
  keyOfCounted (s.map.getKeyValueCounted P q)

/-- specialized_sets/common_set.rs:134-140, counting comparisons. -/
def CommonSet.getCounted (P : Probe T Q) (s : CommonSet T) (q : Q) : Res (Option T × Nat) :=
  keyOfCounted (s.map.getKeyValueCounted P q)

/-- specialized_sets/integer_set.rs:33-39, counting comparisons. -/
def IntegerSet.getCounted (s : IntegerSet) (q : Int) : Res (Option Int × Nat) :=
  keyOfCounted (s.map.getKeyValueCounted q)

/-- specialized_sets/length_set.rs:38-44, counting comparisons. -/
def LengthSet.getCounted (borrow : T → Q) (eq : Q → Q → Bool) (lenQ : Q → Nat) (s : LengthSet T)
    (q : Q) : Res (Option T × Nat) :=
  keyOfCounted (s.map.getKeyValueCounted borrow eq lenQ q)

/-- specialized_sets/left_slice_set.rs:61-67, counting comparisons. -/
def LeftSliceSet.getCounted (s : LeftSliceSet) (q : Bytes) : Res (Option Bytes × Nat) :=
  keyOfCounted (s.map.getKeyValueCounted q)

/-- specialized_sets/right_slice_set.rs:61-67, counting comparisons. -/
def RightSliceSet.getCounted (oc : Bool) (s : RightSliceSet) (q : Bytes) :
    Res (Option Bytes × Nat) :=
  keyOfCounted (s.map.getKeyValueCounted oc q)

/-- specialized_sets/integer_range_set.rs:32-38, counting comparisons: there are none with elements. -/
def IntegerRangeSet.getCounted (oc : Bool) (t : IntTy) (s : IntegerRangeSet) (q : Int) :
    Res (Option Int × Nat) :=
  keyOfCounted (s.map.getKeyValueCounted oc t q)

/-- facades/frozen_set.rs:399-428 (`get`), counting comparisons. `contains`
(facades/frozen_set.rs:312-341) does the same and keeps whether something was found. -/
def FrozenSet.getCounted (env : Env) (ty : KeyTy T) (s : FrozenSet T) (x : T) :
    Res (Option T × Nat) :=
  match s with
  | .scanning s => s.getCounted ty.probe x
  | .commonSmall s => s.getCounted ty.probe x
  | .commonLarge s => s.getCounted ty.probe x
  | .u32Small s => (s.getCounted (ty.toInt x)).map (Prod.map ty.ofIntT id)
  | .u32Large s => (s.getCounted (ty.toInt x)).map (Prod.map ty.ofIntT id)
  | .u32Range s => (s.getCounted env.oc IntTy.u32 (ty.toInt x)).map (Prod.map ty.ofIntT id)
  | .leftSmall s => (s.getCounted (ty.toB x)).map (Prod.map ty.ofBT id)
  | .leftLarge s => (s.getCounted (ty.toB x)).map (Prod.map ty.ofBT id)
  | .rightSmall s => (s.getCounted env.oc (ty.toB x)).map (Prod.map ty.ofBT id)
  | .rightLarge s => (s.getCounted env.oc (ty.toB x)).map (Prod.map ty.ofBT id)
  | .lengthSmall s => (s.getCounted id beq List.length (ty.toB x)).map (Prod.map ty.ofBT id)

end FC
