import Verif.Model.FrozenSet

/-
Model of the constructors other than those taking a `Vec`: from arrays and from iterators, with a
hasher or with `RandomState::new()`. A hasher that `RandomState::new()` returns is the argument `bh`.
-/

set_option autoImplicit false

namespace FC
variable [Target]

/-- A caller's `IntoIterator` as a constructor sees it, `Vec::from_iter` and `collect` calling `next`
until it returns `None`: the items handed out before `None` or before a panic. (An iterator that goes
on forever keeps every constructor from returning.). Argument of specialized_maps/common_map.rs:41-43 and
of the other constructors below. -/
inductive Source (α : Type) where
  | ends (items : List α)
  | panics (items : List α)

/-- `Vec::from_iter(iter)`. std; called at specialized_maps/common_map.rs:42,
facades/frozen_map.rs:208-210. -/
def Source.vec {α : Type} : Source α → Res (List α)
  | .ends items => .ok items
  | .panics _ => .panic

/-- `iter.into_iter().map(f)`. std; called at specialized_sets/common_set.rs:55, 83, 110. -/
def Source.map {α β : Type} (f : α → β) : Source α → Source β
  | .ends items => .ends (items.map f)
  | .panics items => .panics (items.map f)

/-- `into_iter()` of an array or a `Vec`. std; called at specialized_maps/common_map.rs:47, 274. -/
def Source.of {α : Type} (items : List α) : Source α := .ends items

/-- `|x| (x, ())` in the constructors of the sets. specialized_sets/common_set.rs:55, scanning_set.rs:26,
integer_set.rs:27, length_set.rs:27, left_slice_set.rs:30, right_slice_set.rs:30,
integer_range_set.rs:26. -/
def withUnit {T : Type} (x : T) : T × Unit := (x, ())

variable {K V T : Type}

/-- specialized_maps/scanning_map.rs:204-206. -/
def ScanningMap.from' (payload : List (K × V)) :
    Res (ScanningMap K V) := do
  return .fromVec (← (Source.of payload).vec)

/-- specialized_maps/scanning_map.rs:213-215. -/
def ScanningMap.fromIter (iter : Source (K × V)) :
    Res (ScanningMap K V) := do
  return .fromVec (← iter.vec)

/-- specialized_maps/common_map.rs:41-43. -/
def CommonMap.fromIterWithHasher (env : Env) (S : IdxTy) (enc : K → List HCall)
    (iter : Source (K × V))
    (bh : Hasher) :
    Res (CommonMap K V) := do
  CommonMap.fromVecWithHasher env S enc (← iter.vec) bh

/-- specialized_maps/common_map.rs:46-48. -/
def CommonMap.withHasher (env : Env) (S : IdxTy) (enc : K → List HCall) (payload : List (K × V))
    (bh : Hasher) :
    Res (CommonMap K V) := do
  CommonMap.fromVecWithHasher env S enc (← (Source.of payload).vec) bh

/-- specialized_maps/common_map.rs:175-177. -/
def CommonMap.hasher (m : CommonMap K V) : Hasher := m.bh

/-- specialized_maps/common_map.rs:186-188. -/
def CommonMap.fromVec (env : Env) (S : IdxTy) (enc : K → List HCall) (payload : List (K × V))
    (bh : Hasher) :
    Res (CommonMap K V) :=
  CommonMap.fromVecWithHasher env S enc payload bh

/-- specialized_maps/common_map.rs:273-275. -/
def CommonMap.from' (env : Env) (S : IdxTy) (enc : K → List HCall) (payload : List (K × V))
    (bh : Hasher) :
    Res (CommonMap K V) := do
  CommonMap.fromVec env S enc (← (Source.of payload).vec) bh

/-- specialized_maps/common_map.rs:283-285. -/
def CommonMap.fromIter (env : Env) (S : IdxTy) (enc : K → List HCall) (iter : Source (K × V))
    (bh : Hasher) :
    Res (CommonMap K V) := do
  CommonMap.fromVec env S enc (← iter.vec) bh

/-- specialized_maps/integer_map.rs:236-238. -/
def IntegerMap.from' (env : Env) (S : IdxTy) (payload : List (Int × V)) :
    Res (IntegerMap V) := do
  IntegerMap.fromVec env S (← (Source.of payload).vec)

/-- specialized_maps/integer_map.rs:246-248. -/
def IntegerMap.fromIter (env : Env) (S : IdxTy) (iter : Source (Int × V)) :
    Res (IntegerMap V) := do
  IntegerMap.fromVec env S (← iter.vec)

/-- specialized_maps/length_map.rs:233-239; only for the default index type, `u8`. -/
def LengthMap.from' (env : Env) (lenK : K → Nat) (payload : List (K × V)) :
    Res (LengthMap K V) := do
  LengthMap.fromVec env IdxTy.u8 lenK (← (Source.of payload).vec)

/-- specialized_maps/length_map.rs:242-248; only for the default index type, `u8`. -/
def LengthMap.fromIter (env : Env) (lenK : K → Nat) (iter : Source (K × V)) :
    Res (LengthMap K V) := do
  LengthMap.fromVec env IdxTy.u8 lenK (← iter.vec)

/-- specialized_maps/left_slice_map.rs:54-60. -/
def LeftSliceMap.fromIterWithHasher (env : Env) (S : IdxTy) (iter : Source (Bytes × V)) (a b : Nat)
    (bh : Hasher) :
    Res (LeftSliceMap V) := do
  LeftSliceMap.fromVecWithHasher env S (← iter.vec) a b bh

/-- specialized_maps/left_slice_map.rs:63-65. -/
def LeftSliceMap.withHasher (env : Env) (S : IdxTy) (payload : List (Bytes × V)) (a b : Nat)
    (bh : Hasher) :
    Res (LeftSliceMap V) := do
  LeftSliceMap.fromVecWithHasher env S (← (Source.of payload).vec) a b bh

/-- specialized_maps/left_slice_map.rs:197-199. -/
def LeftSliceMap.hasher (m : LeftSliceMap V) : Hasher := m.bh

/-- specialized_maps/left_slice_map.rs:208-210. -/
def LeftSliceMap.fromVec (env : Env) (S : IdxTy) (payload : List (Bytes × V)) (a b : Nat)
    (bh : Hasher) :
    Res (LeftSliceMap V) :=
  LeftSliceMap.fromVecWithHasher env S payload a b bh

/-- specialized_maps/left_slice_map.rs:213-215. -/
def LeftSliceMap.fromIter (env : Env) (S : IdxTy) (iter : Source (Bytes × V)) (a b : Nat)
    (bh : Hasher) :
    Res (LeftSliceMap V) :=
  LeftSliceMap.fromIterWithHasher env S iter a b bh

/-- specialized_maps/left_slice_map.rs:218-220. -/
def LeftSliceMap.from' (env : Env) (S : IdxTy) (payload : List (Bytes × V)) (a b : Nat)
    (bh : Hasher) :
    Res (LeftSliceMap V) :=
  LeftSliceMap.withHasher env S payload a b bh

/-- specialized_maps/right_slice_map.rs:54-60. -/
def RightSliceMap.fromIterWithHasher (env : Env) (S : IdxTy) (iter : Source (Bytes × V)) (a b : Nat)
    (bh : Hasher) :
    Res (RightSliceMap V) := do
  RightSliceMap.fromVecWithHasher env S (← iter.vec) a b bh

/-- specialized_maps/right_slice_map.rs:63-65. -/
def RightSliceMap.withHasher (env : Env) (S : IdxTy) (payload : List (Bytes × V)) (a b : Nat)
    (bh : Hasher) :
    Res (RightSliceMap V) := do
  RightSliceMap.fromVecWithHasher env S (← (Source.of payload).vec) a b bh

/-- specialized_maps/right_slice_map.rs:200-202. -/
def RightSliceMap.hasher (m : RightSliceMap V) : Hasher := m.bh

/-- specialized_maps/right_slice_map.rs:211-213. -/
def RightSliceMap.fromVec (env : Env) (S : IdxTy) (payload : List (Bytes × V)) (a b : Nat)
    (bh : Hasher) :
    Res (RightSliceMap V) :=
  RightSliceMap.fromVecWithHasher env S payload a b bh

/-- specialized_maps/right_slice_map.rs:216-218. -/
def RightSliceMap.fromIter (env : Env) (S : IdxTy) (iter : Source (Bytes × V)) (a b : Nat)
    (bh : Hasher) :
    Res (RightSliceMap V) :=
  RightSliceMap.fromIterWithHasher env S iter a b bh

/-- specialized_maps/right_slice_map.rs:221-223. -/
def RightSliceMap.from' (env : Env) (S : IdxTy) (payload : List (Bytes × V)) (a b : Nat)
    (bh : Hasher) :
    Res (RightSliceMap V) :=
  RightSliceMap.withHasher env S payload a b bh

/-- specialized_maps/integer_range_map.rs:229-231. -/
def IntegerRangeMap.from' (oc : Bool) (t : IntTy) (payload : List (Int × V)) :
    Res (IntegerRangeMap V) := do
  IntegerRangeMap.fromVec oc t (← (Source.of payload).vec)

/-- specialized_maps/integer_range_map.rs:238-240. -/
def IntegerRangeMap.fromIter (oc : Bool) (t : IntTy) (iter : Source (Int × V)) :
    Res (IntegerRangeMap V) := do
  IntegerRangeMap.fromVec oc t (← iter.vec)

/-! ### Sets -/

/-- specialized_sets/scanning_set.rs:95-97. -/
def ScanningSet.from' (payload : List T) :
    Res (ScanningSet T) := do
  return .fromVec (← (Source.of payload).vec)

/-- specialized_sets/scanning_set.rs:104-106. -/
def ScanningSet.fromIter (iter : Source T) :
    Res (ScanningSet T) := do
  return .fromVec (← iter.vec)

/-- specialized_sets/common_set.rs:81-85. -/
def CommonSet.fromIterWithHasher (env : Env) (S : IdxTy) (enc : T → List HCall) (iter : Source T)
    (bh : Hasher) :
    Res (CommonSet T) := do
  return ⟨← CommonMap.fromIterWithHasher env S enc (iter.map withUnit) bh⟩

/-- specialized_sets/common_set.rs:108-112. -/
def CommonSet.withHasher (env : Env) (S : IdxTy) (enc : T → List HCall) (payload : List T)
    (bh : Hasher) :
    Res (CommonSet T) := do
  return ⟨← CommonMap.fromIterWithHasher env S enc ((Source.of payload).map withUnit) bh⟩

/-- specialized_sets/common_set.rs:168-170. -/
def CommonSet.hasher (s : CommonSet T) : Hasher := s.map.hasher

/-- specialized_sets/common_set.rs:188-190. -/
def CommonSet.fromVec (env : Env) (S : IdxTy) (enc : T → List HCall) (payload : List T)
    (bh : Hasher) :
    Res (CommonSet T) :=
  CommonSet.fromVecWithHasher env S enc payload bh

/-- specialized_sets/common_set.rs:243-250. -/
def CommonSet.from' (env : Env) (S : IdxTy) (enc : T → List HCall) (payload : List T)
    (bh : Hasher) :
    Res (CommonSet T) := do
  return ⟨← CommonMap.fromIterWithHasher env S enc ((Source.of payload).map withUnit) bh⟩

/-- specialized_sets/common_set.rs:258-265. -/
def CommonSet.fromIter (env : Env) (S : IdxTy) (enc : T → List HCall) (iter : Source T)
    (bh : Hasher) :
    Res (CommonSet T) := do
  return ⟨← CommonMap.fromIterWithHasher env S enc (iter.map withUnit) bh⟩

/-- specialized_sets/integer_set.rs:97-99. -/
def IntegerSet.from' (env : Env) (S : IdxTy) (payload : List Int) :
    Res IntegerSet := do
  IntegerSet.fromVec env S (← (Source.of payload).vec)

/-- specialized_sets/integer_set.rs:107-109. -/
def IntegerSet.fromIter (env : Env) (S : IdxTy) (iter : Source Int) :
    Res IntegerSet := do
  IntegerSet.fromVec env S (← iter.vec)

/-- specialized_sets/length_set.rs:102-104. -/
def LengthSet.from' (env : Env) (S : IdxTy) (lenT : T → Nat) (payload : List T) :
    Res (LengthSet T) := do
  LengthSet.fromVec env S lenT (← (Source.of payload).vec)

/-- specialized_sets/length_set.rs:112-114. -/
def LengthSet.fromIter (env : Env) (S : IdxTy) (lenT : T → Nat) (iter : Source T) :
    Res (LengthSet T) := do
  LengthSet.fromVec env S lenT (← iter.vec)

/-- specialized_sets/left_slice_set.rs:38-46. -/
def LeftSliceSet.fromIterWithHasher (env : Env) (S : IdxTy) (iter : Source Bytes) (a b : Nat)
    (bh : Hasher) :
    Res LeftSliceSet := do
  return ⟨← LeftSliceMap.fromIterWithHasher env S (iter.map withUnit) a b bh⟩

/-- specialized_sets/left_slice_set.rs:49-51. -/
def LeftSliceSet.withHasher (env : Env) (S : IdxTy) (payload : List Bytes) (a b : Nat)
    (bh : Hasher) :
    Res LeftSliceSet := do
  LeftSliceSet.fromVecWithHasher env S (← (Source.of payload).vec) a b bh

/-- specialized_sets/left_slice_set.rs:87-89. -/
def LeftSliceSet.hasher (s : LeftSliceSet) : Hasher := s.map.hasher

/-- specialized_sets/left_slice_set.rs:98-100. -/
def LeftSliceSet.fromVec (env : Env) (S : IdxTy) (payload : List Bytes) (a b : Nat)
    (bh : Hasher) :
    Res LeftSliceSet :=
  LeftSliceSet.fromVecWithHasher env S payload a b bh

/-- specialized_sets/left_slice_set.rs:102-104. -/
def LeftSliceSet.fromIter (env : Env) (S : IdxTy) (iter : Source Bytes) (a b : Nat)
    (bh : Hasher) :
    Res LeftSliceSet :=
  LeftSliceSet.fromIterWithHasher env S iter a b bh

/-- specialized_sets/left_slice_set.rs:106-108. -/
def LeftSliceSet.from' (env : Env) (S : IdxTy) (payload : List Bytes) (a b : Nat)
    (bh : Hasher) :
    Res LeftSliceSet :=
  LeftSliceSet.withHasher env S payload a b bh

/-- specialized_sets/right_slice_set.rs:38-46. -/
def RightSliceSet.fromIterWithHasher (env : Env) (S : IdxTy) (iter : Source Bytes) (a b : Nat)
    (bh : Hasher) :
    Res RightSliceSet := do
  return ⟨← RightSliceMap.fromIterWithHasher env S (iter.map withUnit) a b bh⟩

/-- specialized_sets/right_slice_set.rs:49-51. -/
def RightSliceSet.withHasher (env : Env) (S : IdxTy) (payload : List Bytes) (a b : Nat)
    (bh : Hasher) :
    Res RightSliceSet := do
  RightSliceSet.fromVecWithHasher env S (← (Source.of payload).vec) a b bh

/-- specialized_sets/right_slice_set.rs:87-89. -/
def RightSliceSet.hasher (s : RightSliceSet) : Hasher := s.map.hasher

/-- specialized_sets/right_slice_set.rs:98-100. -/
def RightSliceSet.fromVec (env : Env) (S : IdxTy) (payload : List Bytes) (a b : Nat)
    (bh : Hasher) :
    Res RightSliceSet :=
  RightSliceSet.fromVecWithHasher env S payload a b bh

/-- specialized_sets/right_slice_set.rs:102-104. -/
def RightSliceSet.fromIter (env : Env) (S : IdxTy) (iter : Source Bytes) (a b : Nat)
    (bh : Hasher) :
    Res RightSliceSet :=
  RightSliceSet.fromIterWithHasher env S iter a b bh

/-- specialized_sets/right_slice_set.rs:106-108. -/
def RightSliceSet.from' (env : Env) (S : IdxTy) (payload : List Bytes) (a b : Nat)
    (bh : Hasher) :
    Res RightSliceSet :=
  RightSliceSet.withHasher env S payload a b bh

/-- specialized_sets/integer_range_set.rs:95-97. -/
def IntegerRangeSet.from' (oc : Bool) (t : IntTy) (payload : List Int) :
    Res IntegerRangeSet := do
  IntegerRangeSet.fromVec oc t (← (Source.of payload).vec)

/-- specialized_sets/integer_range_set.rs:104-106. -/
def IntegerRangeSet.fromIter (oc : Bool) (t : IntTy) (iter : Source Int) :
    Res IntegerRangeSet := do
  IntegerRangeSet.fromVec oc t (← iter.vec)

/-! ### Facades -/

/-- facades/frozen_map.rs:175-177. -/
def FrozenMap.fromVecWithHasher (env : Env) (ty : KeyTy K) (payload : List (K × V)) (bh : Hasher) :
    Res (FrozenMap K V) :=
  FrozenMap.new env ty payload bh

/-- facades/frozen_map.rs:192-194. -/
def FrozenMap.fromIterWithHasher (env : Env) (ty : KeyTy K) (iter : Source (K × V)) (bh : Hasher) :
    Res (FrozenMap K V) := do
  FrozenMap.new env ty (← iter.vec) bh

/-- facades/frozen_map.rs:208-210. -/
def FrozenMap.withHasher (env : Env) (ty : KeyTy K) (payload : List (K × V)) (bh : Hasher) :
    Res (FrozenMap K V) :=
  FrozenMap.fromIterWithHasher env ty (Source.of payload) bh

/-- facades/frozen_map.rs:688-690. -/
def FrozenMap.fromVec (env : Env) (ty : KeyTy K) (payload : List (K × V)) (bh : Hasher) :
    Res (FrozenMap K V) :=
  FrozenMap.new env ty payload bh

/-- facades/frozen_map.rs:697-699. -/
def FrozenMap.from' (env : Env) (ty : KeyTy K) (payload : List (K × V)) (bh : Hasher) :
    Res (FrozenMap K V) :=
  FrozenMap.fromIterWithHasher env ty (Source.of payload) bh

/-- facades/frozen_map.rs:706-708. -/
def FrozenMap.fromIter (env : Env) (ty : KeyTy K) (iter : Source (K × V)) (bh : Hasher) :
    Res (FrozenMap K V) :=
  FrozenMap.fromIterWithHasher env ty iter bh

/-- facades/frozen_set.rs:156-158. -/
def FrozenSet.fromVecWithHasher (env : Env) (ty : KeyTy T) (payload : List T) (bh : Hasher) :
    Res (FrozenSet T) :=
  FrozenSet.new env ty payload bh

/-- facades/frozen_set.rs:177-179. -/
def FrozenSet.fromIterWithHasher (env : Env) (ty : KeyTy T) (iter : Source T) (bh : Hasher) :
    Res (FrozenSet T) := do
  FrozenSet.new env ty (← iter.vec) bh

/-- facades/frozen_set.rs:193-195. -/
def FrozenSet.withHasher (env : Env) (ty : KeyTy T) (payload : List T) (bh : Hasher) :
    Res (FrozenSet T) := do
  FrozenSet.new env ty (← (Source.of payload).vec) bh

/-- facades/frozen_set.rs:446-448. -/
def FrozenSet.fromVec (env : Env) (ty : KeyTy T) (payload : List T) (bh : Hasher) :
    Res (FrozenSet T) :=
  FrozenSet.new env ty payload bh

/-- facades/frozen_set.rs:455-457. -/
def FrozenSet.from' (env : Env) (ty : KeyTy T) (payload : List T) (bh : Hasher) :
    Res (FrozenSet T) := do
  FrozenSet.new env ty (← (Source.of payload).vec) bh

/-- facades/frozen_set.rs:464-466. -/
def FrozenSet.fromIter (env : Env) (ty : KeyTy T) (iter : Source T) (bh : Hasher) :
    Res (FrozenSet T) := do
  FrozenSet.new env ty (← iter.vec) bh

end FC
