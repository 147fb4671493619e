import Verif.Model.Threads
import Verif.Model.FrozenSet

/-
Several threads reading one set at the same time. A set wraps a map to `()`, and its methods call the
map's, so that a thread that asks a set is a thread that asks the map inside (Model/Threads.lean) and
reads the answer as the set does.
-/

set_option autoImplicit false

namespace FC
variable [Target] {T Q : Type}

/-- The map inside: specialized_sets/scanning_set.rs:15-17. -/
def ScanningSet.engine (P : Probe T Q) (s : ScanningSet T) : Engine T Unit Q := s.map.engine P

/-- The map inside: specialized_sets/common_set.rs:23-25. -/
def CommonSet.engine (P : Probe T Q) (s : CommonSet T) : Engine T Unit Q := s.map.engine P

/-- The map inside: specialized_sets/integer_set.rs:15-17. -/
def IntegerSet.engine (s : IntegerSet) : Engine Int Unit Int := s.map.engine

/-- The map inside: specialized_sets/length_set.rs:15-17. -/
def LengthSet.engine (borrow : T → Q) (eq : Q → Q → Bool) (lenQ : Q → Nat) (s : LengthSet T) :
    Engine T Unit Q := s.map.engine borrow eq lenQ

/-- The map inside: specialized_sets/left_slice_set.rs:16-18. -/
def LeftSliceSet.engine (s : LeftSliceSet) : Engine Bytes Unit Bytes := s.map.engine

/-- The map inside: specialized_sets/right_slice_set.rs:16-18. -/
def RightSliceSet.engine (oc : Bool) (s : RightSliceSet) : Engine Bytes Unit Bytes := s.map.engine oc

/-- The map inside: specialized_sets/integer_range_set.rs:15-17. -/
def IntegerRangeSet.engine (oc : Bool) (t : IntTy) (s : IntegerRangeSet) : Engine Int Unit Int :=
  s.map.engine oc t

/-- facades/frozen_set.rs:312-341 (`contains`), 372-386 (`iter`) and 399-428 (`get`) in steps. -/
def FrozenSet.engine (env : Env) (ty : KeyTy T) (s : FrozenSet T) : Engine T Unit T :=
  match s with
  | .scanning s' => s'.engine ty.probe
  | .commonSmall s' => s'.engine ty.probe
  | .commonLarge s' => s'.engine ty.probe
  | .u32Small s' => s'.engine.via ty.toInt ty.ofIntFound (s.iter ty).entries
  | .u32Large s' => s'.engine.via ty.toInt ty.ofIntFound (s.iter ty).entries
  | .u32Range s' => (s'.engine env.oc IntTy.u32).via ty.toInt ty.ofIntFound (s.iter ty).entries
  | .leftSmall s' => s'.engine.via ty.toB ty.ofBFound (s.iter ty).entries
  | .leftLarge s' => s'.engine.via ty.toB ty.ofBFound (s.iter ty).entries
  | .rightSmall s' => (s'.engine env.oc).via ty.toB ty.ofBFound (s.iter ty).entries
  | .rightLarge s' => (s'.engine env.oc).via ty.toB ty.ofBFound (s.iter ty).entries
  | .lengthSmall s' => (s'.engine id beq List.length).via ty.toB ty.ofBFound (s.iter ty).entries

/-- What a thread may ask of a set it shares. The `&self` methods of specialized_sets/common_set.rs:134-140,
156-162, 193-197 and 280-282 and their counterparts in the other sets. -/
inductive SharedSetOp (Q : Type) where
  | get (q : Q)
  | contains (q : Q)
  | len
  /-- `set.iter().collect()` -/
  | iter
deriving DecidableEq

/-- What the set answers. Model device. -/
inductive SetAnswer (T : Type) where
  | item (x : Option T)
  | bool (b : Bool)
  | number (n : Nat)
  | items (xs : List T)
deriving DecidableEq

/-- What the set asks of its map: `get` and `contains` (which is `self.get(value).is_some()`) call
`get_key_value`, `len` calls `len`, and `iter` goes through the map's entries.
specialized_sets/common_set.rs:134-140, 156-162, 193-197, 280-282. -/
def SharedSetOp.inner : SharedSetOp Q → SharedOp Q
  | .get q => .look .getKeyValue q
  | .contains q => .look .getKeyValue q
  | .len => .len
  | .iter => .iter

/-- What the set makes of its map's answer (`none`: the map does not answer so); the iterator hands out
the first components. specialized_sets/common_set.rs:134-140, 156-162, 193-197,
specialized_sets/iterators.rs:23-31. -/
def SharedSetOp.read : SharedSetOp Q → Out T Unit → Option (SetAnswer T)
  | .get _, .entry o => some (.item (o.map (·.1)))
  | .contains _, .entry o => some (.bool o.isSome)
  | .len, .number n => some (.number n)
  | .iter, .items es => some (.items (es.map (·.1)))
  | _, _ => none

/-- The answers a thread has got, given what it asks. Model device. -/
def Reader.setAnswers {E : Engine T Unit Q} (prog : List (SharedSetOp Q)) (r : Reader E) :
    List (Option (SetAnswer T)) :=
  List.zipWith SharedSetOp.read prog r.outs

end FC
