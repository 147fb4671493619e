import Verif.Model.Maps
import Verif.Model.Iter

/-
Model of specialized_sets/*.rs. Every specialized set wraps the map of the same name with `()`
values.
-/

set_option autoImplicit false

namespace FC
variable [Target]

/-- `payload.into_iter().map(|x| (x, ()))`, used by every set constructor
(e.g. specialized_sets/common_set.rs:55). -/
def unitPayload {T : Type} (payload : List T) : List (T × Unit) := payload.map (fun x => (x, ()))

/-- `Some(self.map.get_key_value(value)?.0)`, the body of every specialized set's `get`
(e.g. specialized_sets/common_set.rs:139). -/
def keyOf {T : Type} (r : Res (Option (T × Ref Unit))) : Res (Option T) :=
  r.map (fun o => o.map (·.1))

/-- Items a set iterator has left. specialized_sets/iterators.rs:13-68. -/
def SetIter.items {T : Type} (it : SetIter T) : List T := (it.entries.drop it.index).map (·.1)


/-! ### ScanningSet -/

/-- specialized_sets/scanning_set.rs:15-17 (`ScanningSet`). -/
structure ScanningSet (T : Type) where
  map : ScanningMap T Unit

namespace ScanningSet
variable {T Q : Type}

/-- scanning_set.rs:23-28. -/
def fromVec (payload : List T) : ScanningSet T :=
  ⟨ScanningMap.fromVec (unitPayload payload)⟩

/-- scanning_set.rs:34-40. -/
def get (P : Probe T Q) (s : ScanningSet T) (q : Q) : Res (Option T) :=
  keyOf (s.map.getKeyValue P q)

/-- scanning_set.rs:44-50. -/
def contains (P : Probe T Q) (s : ScanningSet T) (q : Q) : Res Bool :=
  (s.get P q).map Option.isSome

/-- scanning_set.rs:53-55, and 86-88 (`into_iter` of a reference). -/
def iter (s : ScanningSet T) : SetIter T := SetIter.new s.map.entries

/-- scanning_set.rs:58-62. -/
def len (s : ScanningSet T) : Nat := s.map.len

/-- scanning_set.rs:73-80 (`into_iter`). -/
def intoIter (s : ScanningSet T) : SetIntoIter T := SetIntoIter.new s.map.entries

/-- scanning_set.rs:109-124 (`impl Set`). -/
def toSetI (P : Probe T T) (s : ScanningSet T) : SetI T :=
  ⟨s.iter.items, s.contains P, s.len⟩

end ScanningSet

/-! ### CommonSet -/

/-- specialized_sets/common_set.rs:23-25 (`CommonSet`). -/
structure CommonSet (T : Type) where
  map : CommonMap T Unit

namespace CommonSet
variable {T Q : Type}

/-- common_set.rs:53-57. -/
def fromVecWithHasher (env : Env) (S : IdxTy) (enc : T → List HCall) (payload : List T) (bh : Hasher) :
    Res (CommonSet T) := do
  return ⟨← CommonMap.fromVecWithHasher env S enc (unitPayload payload) bh⟩

/-- common_set.rs:134-140. -/
def get (P : Probe T Q) (s : CommonSet T) (q : Q) : Res (Option T) :=
  keyOf (s.map.getKeyValue P q)

/-- common_set.rs:156-162. -/
def contains (P : Probe T Q) (s : CommonSet T) (q : Q) : Res Bool :=
  (s.get P q).map Option.isSome

/-- common_set.rs:280-282, and 233-235 (`into_iter` of a reference). -/
def iter (s : CommonSet T) : SetIter T := SetIter.new s.map.table.entries

/-- common_set.rs:193-197. -/
def len (s : CommonSet T) : Nat := s.map.len

/-- common_set.rs:210-222 (`into_iter`). -/
def intoIter (s : CommonSet T) : SetIntoIter T := SetIntoIter.new s.map.table.entries

/-- common_set.rs:268-287 (`impl Set`). -/
def toSetI (P : Probe T T) (s : CommonSet T) : SetI T :=
  ⟨s.iter.items, s.contains P, s.len⟩

end CommonSet

/-! ### IntegerSet -/

/-- specialized_sets/integer_set.rs:15-17 (`IntegerSet`). -/
structure IntegerSet where
  map : IntegerMap Unit

namespace IntegerSet

/-- integer_set.rs:25-29. -/
def fromVec (env : Env) (S : IdxTy) (payload : List Int) : Res IntegerSet := do
  return ⟨← IntegerMap.fromVec env S (unitPayload payload)⟩

/-- integer_set.rs:33-39. -/
def get (s : IntegerSet) (q : Int) : Res (Option Int) :=
  keyOf (s.map.getKeyValue q)

/-- integer_set.rs:43-49. -/
def contains (s : IntegerSet) (q : Int) : Res Bool :=
  (s.get q).map Option.isSome

/-- integer_set.rs:54-56, and 87-89 (`into_iter` of a reference). -/
def iter (s : IntegerSet) : SetIter Int := SetIter.new s.map.table.entries

/-- integer_set.rs:59-63. -/
def len (s : IntegerSet) : Nat := s.map.len

/-- integer_set.rs:74-81 (`into_iter`). -/
def intoIter (s : IntegerSet) : SetIntoIter Int := SetIntoIter.new s.map.table.entries

/-- integer_set.rs:112-129 (`impl Set`). -/
def toSetI (s : IntegerSet) : SetI Int :=
  ⟨s.iter.items, s.contains, s.len⟩

end IntegerSet

/-! ### LengthSet -/

/-- specialized_sets/length_set.rs:15-17 (`LengthSet`). -/
structure LengthSet (T : Type) where
  map : LengthMap T Unit

namespace LengthSet
variable {T Q : Type}

/-- length_set.rs:25-29. -/
def fromVec (env : Env) (S : IdxTy) (lenT : T → Nat) (payload : List T) : Res (LengthSet T) := do
  return ⟨← LengthMap.fromVec env S lenT (unitPayload payload)⟩

/-- length_set.rs:38-44. -/
def get (borrow : T → Q) (eq : Q → Q → Bool) (lenQ : Q → Nat) (s : LengthSet T) (q : Q) : Res (Option T) :=
  keyOf (s.map.getKeyValue borrow eq lenQ q)

/-- length_set.rs:48-54. -/
def contains (borrow : T → Q) (eq : Q → Q → Bool) (lenQ : Q → Nat) (s : LengthSet T) (q : Q) : Res Bool :=
  (s.get borrow eq lenQ q).map Option.isSome

/-- length_set.rs:59-61, and 92-94 (`into_iter` of a reference). -/
def iter (s : LengthSet T) : SetIter T := SetIter.new s.map.table.entries

/-- length_set.rs:64-68. -/
def len (s : LengthSet T) : Nat := s.map.len

/-- length_set.rs:79-86 (`into_iter`). -/
def intoIter (s : LengthSet T) : SetIntoIter T := SetIntoIter.new s.map.table.entries

/-- length_set.rs:117-134 (`impl Set`). -/
def toSetI (eq : T → T → Bool) (lenT : T → Nat) (s : LengthSet T) : SetI T :=
  ⟨s.iter.items, s.contains id eq lenT, s.len⟩

end LengthSet

/-! ### LeftSliceSet -/

/-- specialized_sets/left_slice_set.rs:16-18 (`LeftSliceSet`). -/
structure LeftSliceSet where
  map : LeftSliceMap Unit

namespace LeftSliceSet

/-- left_slice_set.rs:27-35. -/
def fromVecWithHasher (env : Env) (S : IdxTy) (payload : List Bytes) (a b : Nat) (bh : Hasher) :
    Res LeftSliceSet := do
  return ⟨← LeftSliceMap.fromVecWithHasher env S (unitPayload payload) a b bh⟩

/-- left_slice_set.rs:61-67. -/
def get (s : LeftSliceSet) (q : Bytes) : Res (Option Bytes) :=
  keyOf (s.map.getKeyValue q)

/-- left_slice_set.rs:71-77. -/
def contains (s : LeftSliceSet) (q : Bytes) : Res Bool :=
  (s.get q).map Option.isSome

/-- left_slice_set.rs:82-84, and 139-141 (`into_iter` of a reference). -/
def iter (s : LeftSliceSet) : SetIter Bytes := SetIter.new s.map.table.entries

/-- left_slice_set.rs:111-115. -/
def len (s : LeftSliceSet) : Nat := s.map.len

/-- left_slice_set.rs:126-133 (`into_iter`). -/
def intoIter (s : LeftSliceSet) : SetIntoIter Bytes := SetIntoIter.new s.map.table.entries

/-- left_slice_set.rs:144-163 (`impl Set`). -/
def toSetI (s : LeftSliceSet) : SetI Bytes :=
  ⟨s.iter.items, s.contains, s.len⟩

end LeftSliceSet

/-! ### RightSliceSet -/

/-- specialized_sets/right_slice_set.rs:16-18 (`RightSliceSet`). -/
structure RightSliceSet where
  map : RightSliceMap Unit

namespace RightSliceSet

/-- right_slice_set.rs:27-35. -/
def fromVecWithHasher (env : Env) (S : IdxTy) (payload : List Bytes) (a b : Nat) (bh : Hasher) :
    Res RightSliceSet := do
  return ⟨← RightSliceMap.fromVecWithHasher env S (unitPayload payload) a b bh⟩

/-- right_slice_set.rs:61-67. -/
def get (oc : Bool) (s : RightSliceSet) (q : Bytes) : Res (Option Bytes) :=
  keyOf (s.map.getKeyValue oc q)

/-- right_slice_set.rs:71-77. -/
def contains (oc : Bool) (s : RightSliceSet) (q : Bytes) : Res Bool :=
  (s.get oc q).map Option.isSome

/-- right_slice_set.rs:82-84, and 139-141 (`into_iter` of a reference). -/
def iter (s : RightSliceSet) : SetIter Bytes := SetIter.new s.map.table.entries

/-- right_slice_set.rs:111-115. -/
def len (s : RightSliceSet) : Nat := s.map.len

/-- right_slice_set.rs:126-133 (`into_iter`). -/
def intoIter (s : RightSliceSet) : SetIntoIter Bytes := SetIntoIter.new s.map.table.entries

/-- right_slice_set.rs:144-163 (`impl Set`). -/
def toSetI (oc : Bool) (s : RightSliceSet) : SetI Bytes :=
  ⟨s.iter.items, s.contains oc, s.len⟩

end RightSliceSet

/-! ### IntegerRangeSet -/

/-- specialized_sets/integer_range_set.rs:15-17 (`IntegerRangeSet`). -/
structure IntegerRangeSet where
  map : IntegerRangeMap Unit

namespace IntegerRangeSet

/-- integer_range_set.rs:24-28. -/
def fromVec (oc : Bool) (t : IntTy) (payload : List Int) : Res IntegerRangeSet := do
  return ⟨← IntegerRangeMap.fromVec oc t (unitPayload payload)⟩

/-- integer_range_set.rs:32-38. -/
def get (oc : Bool) (t : IntTy) (s : IntegerRangeSet) (q : Int) : Res (Option Int) :=
  keyOf (s.map.getKeyValue oc t q)

/-- integer_range_set.rs:42-48. -/
def contains (oc : Bool) (t : IntTy) (s : IntegerRangeSet) (q : Int) : Res Bool :=
  (s.get oc t q).map Option.isSome

/-- integer_range_set.rs:53-55, and 86-88 (`into_iter` of a reference). -/
def iter (s : IntegerRangeSet) : SetIter Int := SetIter.new s.map.entries

/-- integer_range_set.rs:58-62. -/
def len (s : IntegerRangeSet) : Nat := s.map.len

/-- integer_range_set.rs:73-80 (`into_iter`). -/
def intoIter (s : IntegerRangeSet) : SetIntoIter Int := SetIntoIter.new s.map.entries

/-- integer_range_set.rs:109-124 (`impl Set`). -/
def toSetI (oc : Bool) (t : IntTy) (s : IntegerRangeSet) : SetI Int :=
  ⟨s.iter.items, s.contains oc t, s.len⟩

end IntegerRangeSet

/-! ### Standard library sets -/

/-- A `std::collections::HashSet` with element equality `eq`, as the list of its elements in
iteration order. Only sets built by `empty` and `insert` occur. Used at
specialized_sets/common_set.rs:296-341. -/
structure StdSet (T : Type) where
  items : List T

namespace StdSet
variable {T : Type}

/-- `HashSet::new`. std, called through `collect` at specialized_sets/common_set.rs:296-341. -/
def empty : StdSet T := ⟨[]⟩

/-- `HashSet::insert`: an element equal to a present one is dropped (the old one stays). std, called
through `collect` at specialized_sets/common_set.rs:296-341. -/
def insert (eq : T → T → Bool) (s : StdSet T) (x : T) : StdSet T :=
  if s.items.any (fun y => eq y x) then s else ⟨s.items ++ [x]⟩

/-- `HashSet::contains`. std, called at specialized_sets/set.rs:183-217. -/
def contains (eq : T → T → Bool) (s : StdSet T) (x : T) : Bool := s.items.any (fun y => eq y x)

/-- `Iterator::collect::<HashSet<_>>`. std, called at specialized_sets/common_set.rs:296-341. -/
def collect (eq : T → T → Bool) (l : List T) : StdSet T := l.foldl (StdSet.insert eq) empty

/-- specialized_sets/set.rs:183-200 and 202-217 (`impl Set for HashSet`, `impl Set for BTreeSet`;
for `BTreeSet` the equality is that of `Ord`). -/
def toSetI (eq : T → T → Bool) (s : StdSet T) : SetI T :=
  ⟨s.items, fun x => .ok (s.contains eq x), s.items.length⟩

end StdSet

/-! ### Operations of the `Set` trait -/

namespace SetI
variable {T : Type}

/-- specialized_sets/set_ops.rs:3-14 (`is_disjoint`). The length test compares `s1` with itself, as
in the source. -/
def isDisjoint (s1 s2 : SetI T) : Res Bool :=
  if s1.len ≤ s1.len then Res.allList (fun v => (s2.contains v).map (! ·)) s1.iter
  else Res.allList (fun v => (s1.contains v).map (! ·)) s2.iter

/-- specialized_sets/set_ops.rs:16-27 (`is_subset`). -/
def isSubset (s1 s2 : SetI T) : Res Bool :=
  if s1.len ≤ s2.len then Res.allList s2.contains s1.iter else .ok false

/-- specialized_sets/set_ops.rs:29-40 (`is_superset`). -/
def isSuperset (s1 s2 : SetI T) : Res Bool :=
  if s2.len ≤ s1.len then Res.allList s1.contains s2.iter else .ok false

/-- The `PartialEq<ST: Set>` of every specialized set (common_set.rs:352-358,
scanning_set.rs:179-185, integer_set.rs:189-195, length_set.rs:194-200, left_slice_set.rs:228-234,
right_slice_set.rs:228-234, integer_range_set.rs:179-185). -/
def eq (s1 s2 : SetI T) : Res Bool :=
  if s1.len ≠ s2.len then .ok false else Res.allList s2.contains s1.iter

/-- `self.union(rhs).cloned().collect()` (`BitOr`, common_set.rs:298-300, scanning_set.rs:133-135,
integer_set.rs:139-141, length_set.rs:144-146, left_slice_set.rs:174-176,
right_slice_set.rs:174-176, integer_range_set.rs:133-135,
facades/frozen_set.rs:533-535). `teq` is the element type's `Eq`, used by the `HashSet`. -/
def bitOr (teq : T → T → Bool) (s1 s2 : SetI T) : Res (StdSet T) :=
  (BinIter.new s1 s2).unionAll.map (StdSet.collect teq)

/-- `self.intersection(rhs).cloned().collect()` (`BitAnd`, common_set.rs:312-314, scanning_set.rs:145-147,
integer_set.rs:152-154, length_set.rs:157-159, left_slice_set.rs:188-190,
right_slice_set.rs:188-190, integer_range_set.rs:145-147,
facades/frozen_set.rs:546-548). -/
def bitAnd (teq : T → T → Bool) (s1 s2 : SetI T) : Res (StdSet T) :=
  (BinIter.new s1 s2).intersectionAll.map (StdSet.collect teq)

/-- `self.symmetric_difference(rhs).cloned().collect()` (`BitXor`, common_set.rs:326-328, scanning_set.rs:157-159,
integer_set.rs:165-167, length_set.rs:170-172, left_slice_set.rs:202-204,
right_slice_set.rs:202-204, integer_range_set.rs:157-159,
facades/frozen_set.rs:559-561). -/
def bitXor (teq : T → T → Bool) (s1 s2 : SetI T) : Res (StdSet T) :=
  (BinIter.new s1 s2).symDiffAll.map (StdSet.collect teq)

/-- `self.difference(rhs).cloned().collect()` (`Sub`, common_set.rs:340-342, scanning_set.rs:169-171,
integer_set.rs:178-180, length_set.rs:183-185, left_slice_set.rs:216-218,
right_slice_set.rs:216-218, integer_range_set.rs:169-171,
facades/frozen_set.rs:572-574). -/
def sub (teq : T → T → Bool) (s1 s2 : SetI T) : Res (StdSet T) :=
  (BinIter.new s1 s2).differenceAll.map (StdSet.collect teq)

end SetI

end FC
