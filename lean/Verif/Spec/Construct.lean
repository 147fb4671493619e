import Verif.Spec
import Verif.Model.Construct

/-
Vocabulary of C63: the ways of handing a payload to a constructor, and the constructors of each type.
-/

set_option autoImplicit false

namespace FC
variable [Target]

variable {K V T : Type}

/-- What the caller hands over. -/
inductive Supply (α : Type) where
  | vec (items : List α)
  | array (items : List α)
  | iter (iter : Source α)

/-- The caller supplies `items`; nothing panics on the way. -/
def Supply.Gives {α : Type} : Supply α → List α → Prop
  | .vec l, items => l = items
  | .array l, items => l = items
  | .iter s, items => s = .ends items

/-- The caller's iterator panics. -/
def Supply.Panics {α : Type} : Supply α → Prop
  | .vec _ => False
  | .array _ => False
  | .iter s => ∃ items, s = .panics items

/-- Every constructor of `ScanningMap`. -/
inductive ScanningMap.Built :
    Supply (K × V) → Res (ScanningMap K V) → Prop where
  | fromVec (l : List (K × V)) : Built (.vec l) (.ok (ScanningMap.fromVec l))
  | array (l : List (K × V)) : Built (.array l) (ScanningMap.from' l)
  | iter (s : Source (K × V)) : Built (.iter s) (ScanningMap.fromIter s)

/-- Every constructor of `CommonMap`; those that make a hasher happen to make `bh`. -/
inductive CommonMap.Built (env : Env) (S : IdxTy) (enc : K → List HCall) (bh : Hasher) :
    Supply (K × V) → Res (CommonMap K V) → Prop where
  | vecWithHasher (l : List (K × V)) :
      Built env S enc bh (.vec l) (CommonMap.fromVecWithHasher env S enc l bh)
  | vec (l : List (K × V)) : Built env S enc bh (.vec l) (CommonMap.fromVec env S enc l bh)
  | arrayWithHasher (l : List (K × V)) :
      Built env S enc bh (.array l) (CommonMap.withHasher env S enc l bh)
  | array (l : List (K × V)) : Built env S enc bh (.array l) (CommonMap.from' env S enc l bh)
  | iterWithHasher (s : Source (K × V)) :
      Built env S enc bh (.iter s) (CommonMap.fromIterWithHasher env S enc s bh)
  | iter (s : Source (K × V)) : Built env S enc bh (.iter s) (CommonMap.fromIter env S enc s bh)

/-- Every constructor of `IntegerMap`. -/
inductive IntegerMap.Built (env : Env) (S : IdxTy) :
    Supply (Int × V) → Res (IntegerMap V) → Prop where
  | fromVec (l : List (Int × V)) : Built env S (.vec l) (IntegerMap.fromVec env S l)
  | array (l : List (Int × V)) : Built env S (.array l) (IntegerMap.from' env S l)
  | iter (s : Source (Int × V)) : Built env S (.iter s) (IntegerMap.fromIter env S s)

/-- Every constructor of `LengthMap`; arrays and iterators only make maps with index type `u8`. -/
inductive LengthMap.Built (env : Env) (lenK : K → Nat) :
    IdxTy → Supply (K × V) → Res (LengthMap K V) → Prop where
  | fromVec (S : IdxTy) (l : List (K × V)) :
      Built env lenK S (.vec l) (LengthMap.fromVec env S lenK l)
  | array (l : List (K × V)) : Built env lenK IdxTy.u8 (.array l) (LengthMap.from' env lenK l)
  | iter (s : Source (K × V)) : Built env lenK IdxTy.u8 (.iter s) (LengthMap.fromIter env lenK s)

/-- Every constructor of `LeftSliceMap`. -/
inductive LeftSliceMap.Built (env : Env) (S : IdxTy) (a b : Nat) (bh : Hasher) :
    Supply (Bytes × V) → Res (LeftSliceMap V) → Prop where
  | vecWithHasher (l : List (Bytes × V)) :
      Built env S a b bh (.vec l) (LeftSliceMap.fromVecWithHasher env S l a b bh)
  | vec (l : List (Bytes × V)) : Built env S a b bh (.vec l) (LeftSliceMap.fromVec env S l a b bh)
  | arrayWithHasher (l : List (Bytes × V)) :
      Built env S a b bh (.array l) (LeftSliceMap.withHasher env S l a b bh)
  | array (l : List (Bytes × V)) : Built env S a b bh (.array l) (LeftSliceMap.from' env S l a b bh)
  | iterWithHasher (s : Source (Bytes × V)) :
      Built env S a b bh (.iter s) (LeftSliceMap.fromIterWithHasher env S s a b bh)
  | iter (s : Source (Bytes × V)) :
      Built env S a b bh (.iter s) (LeftSliceMap.fromIter env S s a b bh)

/-- Every constructor of `RightSliceMap`. -/
inductive RightSliceMap.Built (env : Env) (S : IdxTy) (a b : Nat) (bh : Hasher) :
    Supply (Bytes × V) → Res (RightSliceMap V) → Prop where
  | vecWithHasher (l : List (Bytes × V)) :
      Built env S a b bh (.vec l) (RightSliceMap.fromVecWithHasher env S l a b bh)
  | vec (l : List (Bytes × V)) : Built env S a b bh (.vec l) (RightSliceMap.fromVec env S l a b bh)
  | arrayWithHasher (l : List (Bytes × V)) :
      Built env S a b bh (.array l) (RightSliceMap.withHasher env S l a b bh)
  | array (l : List (Bytes × V)) :
      Built env S a b bh (.array l) (RightSliceMap.from' env S l a b bh)
  | iterWithHasher (s : Source (Bytes × V)) :
      Built env S a b bh (.iter s) (RightSliceMap.fromIterWithHasher env S s a b bh)
  | iter (s : Source (Bytes × V)) :
      Built env S a b bh (.iter s) (RightSliceMap.fromIter env S s a b bh)

/-- Every constructor of `IntegerRangeMap`. -/
inductive IntegerRangeMap.Built (oc : Bool) (t : IntTy) :
    Supply (Int × V) → Res (IntegerRangeMap V) → Prop where
  | fromVec (l : List (Int × V)) : Built oc t (.vec l) (IntegerRangeMap.fromVec oc t l)
  | array (l : List (Int × V)) : Built oc t (.array l) (IntegerRangeMap.from' oc t l)
  | iter (s : Source (Int × V)) : Built oc t (.iter s) (IntegerRangeMap.fromIter oc t s)

/-- Every constructor of `ScanningSet`. -/
inductive ScanningSet.Built :
    Supply T → Res (ScanningSet T) → Prop where
  | fromVec (l : List T) : Built (.vec l) (.ok (ScanningSet.fromVec l))
  | array (l : List T) : Built (.array l) (ScanningSet.from' l)
  | iter (s : Source T) : Built (.iter s) (ScanningSet.fromIter s)

/-- Every constructor of `CommonSet`. -/
inductive CommonSet.Built (env : Env) (S : IdxTy) (enc : T → List HCall) (bh : Hasher) :
    Supply T → Res (CommonSet T) → Prop where
  | vecWithHasher (l : List T) :
      Built env S enc bh (.vec l) (CommonSet.fromVecWithHasher env S enc l bh)
  | vec (l : List T) : Built env S enc bh (.vec l) (CommonSet.fromVec env S enc l bh)
  | arrayWithHasher (l : List T) :
      Built env S enc bh (.array l) (CommonSet.withHasher env S enc l bh)
  | array (l : List T) : Built env S enc bh (.array l) (CommonSet.from' env S enc l bh)
  | iterWithHasher (s : Source T) :
      Built env S enc bh (.iter s) (CommonSet.fromIterWithHasher env S enc s bh)
  | iter (s : Source T) : Built env S enc bh (.iter s) (CommonSet.fromIter env S enc s bh)

/-- Every constructor of `IntegerSet`. -/
inductive IntegerSet.Built (env : Env) (S : IdxTy) :
    Supply Int → Res IntegerSet → Prop where
  | fromVec (l : List Int) : Built env S (.vec l) (IntegerSet.fromVec env S l)
  | array (l : List Int) : Built env S (.array l) (IntegerSet.from' env S l)
  | iter (s : Source Int) : Built env S (.iter s) (IntegerSet.fromIter env S s)

/-- Every constructor of `LengthSet`. -/
inductive LengthSet.Built (env : Env) (S : IdxTy) (lenT : T → Nat) :
    Supply T → Res (LengthSet T) → Prop where
  | fromVec (l : List T) : Built env S lenT (.vec l) (LengthSet.fromVec env S lenT l)
  | array (l : List T) : Built env S lenT (.array l) (LengthSet.from' env S lenT l)
  | iter (s : Source T) : Built env S lenT (.iter s) (LengthSet.fromIter env S lenT s)

/-- Every constructor of `LeftSliceSet`. -/
inductive LeftSliceSet.Built (env : Env) (S : IdxTy) (a b : Nat) (bh : Hasher) :
    Supply Bytes → Res LeftSliceSet → Prop where
  | vecWithHasher (l : List Bytes) :
      Built env S a b bh (.vec l) (LeftSliceSet.fromVecWithHasher env S l a b bh)
  | vec (l : List Bytes) : Built env S a b bh (.vec l) (LeftSliceSet.fromVec env S l a b bh)
  | arrayWithHasher (l : List Bytes) :
      Built env S a b bh (.array l) (LeftSliceSet.withHasher env S l a b bh)
  | array (l : List Bytes) : Built env S a b bh (.array l) (LeftSliceSet.from' env S l a b bh)
  | iterWithHasher (s : Source Bytes) :
      Built env S a b bh (.iter s) (LeftSliceSet.fromIterWithHasher env S s a b bh)
  | iter (s : Source Bytes) : Built env S a b bh (.iter s) (LeftSliceSet.fromIter env S s a b bh)

/-- Every constructor of `RightSliceSet`. -/
inductive RightSliceSet.Built (env : Env) (S : IdxTy) (a b : Nat) (bh : Hasher) :
    Supply Bytes → Res RightSliceSet → Prop where
  | vecWithHasher (l : List Bytes) :
      Built env S a b bh (.vec l) (RightSliceSet.fromVecWithHasher env S l a b bh)
  | vec (l : List Bytes) : Built env S a b bh (.vec l) (RightSliceSet.fromVec env S l a b bh)
  | arrayWithHasher (l : List Bytes) :
      Built env S a b bh (.array l) (RightSliceSet.withHasher env S l a b bh)
  | array (l : List Bytes) : Built env S a b bh (.array l) (RightSliceSet.from' env S l a b bh)
  | iterWithHasher (s : Source Bytes) :
      Built env S a b bh (.iter s) (RightSliceSet.fromIterWithHasher env S s a b bh)
  | iter (s : Source Bytes) : Built env S a b bh (.iter s) (RightSliceSet.fromIter env S s a b bh)

/-- Every constructor of `IntegerRangeSet`. -/
inductive IntegerRangeSet.Built (oc : Bool) (t : IntTy) :
    Supply Int → Res IntegerRangeSet → Prop where
  | fromVec (l : List Int) : Built oc t (.vec l) (IntegerRangeSet.fromVec oc t l)
  | array (l : List Int) : Built oc t (.array l) (IntegerRangeSet.from' oc t l)
  | iter (s : Source Int) : Built oc t (.iter s) (IntegerRangeSet.fromIter oc t s)

/-- Every constructor of `FrozenMap` but `default`. -/
inductive FrozenMap.Built (env : Env) (ty : KeyTy K) (bh : Hasher) :
    Supply (K × V) → Res (FrozenMap K V) → Prop where
  | vecWithHasher (l : List (K × V)) :
      Built env ty bh (.vec l) (FrozenMap.fromVecWithHasher env ty l bh)
  | vec (l : List (K × V)) : Built env ty bh (.vec l) (FrozenMap.fromVec env ty l bh)
  | arrayWithHasher (l : List (K × V)) :
      Built env ty bh (.array l) (FrozenMap.withHasher env ty l bh)
  | array (l : List (K × V)) : Built env ty bh (.array l) (FrozenMap.from' env ty l bh)
  | iterWithHasher (s : Source (K × V)) :
      Built env ty bh (.iter s) (FrozenMap.fromIterWithHasher env ty s bh)
  | iter (s : Source (K × V)) : Built env ty bh (.iter s) (FrozenMap.fromIter env ty s bh)

/-- Every constructor of `FrozenSet` but `default`. -/
inductive FrozenSet.Built (env : Env) (ty : KeyTy T) (bh : Hasher) :
    Supply T → Res (FrozenSet T) → Prop where
  | vecWithHasher (l : List T) : Built env ty bh (.vec l) (FrozenSet.fromVecWithHasher env ty l bh)
  | vec (l : List T) : Built env ty bh (.vec l) (FrozenSet.fromVec env ty l bh)
  | arrayWithHasher (l : List T) : Built env ty bh (.array l) (FrozenSet.withHasher env ty l bh)
  | array (l : List T) : Built env ty bh (.array l) (FrozenSet.from' env ty l bh)
  | iterWithHasher (s : Source T) :
      Built env ty bh (.iter s) (FrozenSet.fromIterWithHasher env ty s bh)
  | iter (s : Source T) : Built env ty bh (.iter s) (FrozenSet.fromIter env ty s bh)

end FC
