import Verif.Model.FrozenMap
import Verif.Model.Sets

/-
Model of facades/frozen_set.rs.
-/

set_option autoImplicit false

namespace FC
variable [Target]

/-- A value of a `u32` set read back as `T` (`transmute` of the result,
facades/frozen_set.rs:404-406). -/
def KeyTy.ofIntT {T : Type} (ty : KeyTy T) (r : Option Int) : Option T :=
  match ty.kind with
  | .u32 _ g => r.map g
  | _ => none

/-- A value of a `String` set read back as `T` (facades/frozen_set.rs:407-426). -/
def KeyTy.ofBT {T : Type} (ty : KeyTy T) (r : Option Bytes) : Option T :=
  match ty.kind with
  | .string _ g => r.map g
  | _ => none

/-- facades/frozen_set.rs:20-38 (`SetTypes`). -/
inductive FrozenSet (T : Type) where
  | scanning (s : ScanningSet T)
  | commonSmall (s : CommonSet T)
  | commonLarge (s : CommonSet T)
  | u32Small (s : IntegerSet)
  | u32Large (s : IntegerSet)
  | u32Range (s : IntegerRangeSet)
  | leftSmall (s : LeftSliceSet)
  | leftLarge (s : LeftSliceSet)
  | rightSmall (s : RightSliceSet)
  | rightLarge (s : RightSliceSet)
  | lengthSmall (s : LengthSet Bytes)

namespace FrozenSet
variable {T : Type}

/-- facades/frozen_set.rs:212-227 (`new_u32_set`). -/
def newU32Set (env : Env) (toInt : T → Int) (payload : List T) : Res (FrozenSet T) := do
  let payload := payload.map toInt
  match ← analyzeIntKeys IntTy.u32 env.oc payload with
  | .range => return .u32Range (← IntegerRangeSet.fromVec env.oc IntTy.u32 payload)
  | .normal =>
    if payload.length ≤ 255 then return .u32Small (← IntegerSet.fromVec env IdxTy.u8 payload)
    else return .u32Large (← IntegerSet.fromVec env IdxTy.usize payload)

/-- facades/frozen_set.rs:230-291 (`new_string_set`). -/
def newStringSet (env : Env) (enc : T → List HCall) (toB : T → Bytes) (ofB : Bytes → T)
    (payload : List T) (bh : Hasher) : Res (FrozenSet T) := do
  let payload := payload.map toB
  let verdict ← analyzeSliceKeys env.oc bh payload
  if payload.length ≤ 255 then
    match verdict with
    | .normal =>
      return .commonSmall (← CommonSet.fromVecWithHasher env IdxTy.u8 enc (payload.map ofB) bh)
    | .left i l =>
      return .leftSmall (← LeftSliceSet.fromVecWithHasher env IdxTy.u8 payload i (i + l) bh)
    | .right i l =>
      return .rightSmall (← RightSliceSet.fromVecWithHasher env IdxTy.u8 payload i (i + l) bh)
    | .length =>
      return .lengthSmall (← LengthSet.fromVec env IdxTy.u8 List.length payload)
  else
    match verdict with
    | .length | .normal =>
      return .commonLarge (← CommonSet.fromVecWithHasher env IdxTy.usize enc (payload.map ofB) bh)
    | .left i l =>
      return .leftLarge (← LeftSliceSet.fromVecWithHasher env IdxTy.usize payload i (i + l) bh)
    | .right i l =>
      return .rightLarge (← RightSliceSet.fromVecWithHasher env IdxTy.usize payload i (i + l) bh)

/-- facades/frozen_set.rs:293-299 (`new_common_set`). -/
def newCommonSet (env : Env) (enc : T → List HCall) (payload : List T) (bh : Hasher) :
    Res (FrozenSet T) := do
  if payload.length ≤ 255 then
    return .commonSmall (← CommonSet.fromVecWithHasher env IdxTy.u8 enc payload bh)
  else
    return .commonLarge (← CommonSet.fromVecWithHasher env IdxTy.usize enc payload bh)

/-- facades/frozen_set.rs:197-209 (`new`); all public constructors call it. -/
def new (env : Env) (ty : KeyTy T) (payload : List T) (bh : Hasher) : Res (FrozenSet T) :=
  if payload.length < 4 then .ok (.scanning (ScanningSet.fromVec payload))
  else
    match ty.kind with
    | .u32 toInt _ => newU32Set env toInt payload
    | .string toB ofB => newStringSet env ty.enc toB ofB payload bh
    | .other => newCommonSet env ty.enc payload bh

/-- facades/frozen_set.rs:312-341 (`contains`). -/
def contains (env : Env) (ty : KeyTy T) (s : FrozenSet T) (x : T) : Res Bool :=
  match s with
  | .scanning s => s.contains ty.probe x
  | .commonSmall s => s.contains ty.probe x
  | .commonLarge s => s.contains ty.probe x
  | .u32Small s => s.contains (ty.toInt x)
  | .u32Large s => s.contains (ty.toInt x)
  | .u32Range s => s.contains env.oc IntTy.u32 (ty.toInt x)
  | .leftSmall s => s.contains (ty.toB x)
  | .leftLarge s => s.contains (ty.toB x)
  | .rightSmall s => s.contains env.oc (ty.toB x)
  | .rightLarge s => s.contains env.oc (ty.toB x)
  | .lengthSmall s => s.contains id beq List.length (ty.toB x)

/-- facades/frozen_set.rs:399-428 (`get`). -/
def get (env : Env) (ty : KeyTy T) (s : FrozenSet T) (x : T) : Res (Option T) :=
  match s with
  | .scanning s => s.get ty.probe x
  | .commonSmall s => s.get ty.probe x
  | .commonLarge s => s.get ty.probe x
  | .u32Small s => (s.get (ty.toInt x)).map ty.ofIntT
  | .u32Large s => (s.get (ty.toInt x)).map ty.ofIntT
  | .u32Range s => (s.get env.oc IntTy.u32 (ty.toInt x)).map ty.ofIntT
  | .leftSmall s => (s.get (ty.toB x)).map ty.ofBT
  | .leftLarge s => (s.get (ty.toB x)).map ty.ofBT
  | .rightSmall s => (s.get env.oc (ty.toB x)).map ty.ofBT
  | .rightLarge s => (s.get env.oc (ty.toB x)).map ty.ofBT
  | .lengthSmall s => (s.get id beq List.length (ty.toB x)).map ty.ofBT

/-- facades/frozen_set.rs:590-606 (`Len::len`). -/
def len : FrozenSet T → Nat
  | .scanning s => s.len
  | .commonSmall s => s.len
  | .commonLarge s => s.len
  | .u32Small s => s.len
  | .u32Large s => s.len
  | .u32Range s => s.len
  | .leftSmall s => s.len
  | .leftLarge s => s.len
  | .rightSmall s => s.len
  | .rightLarge s => s.len
  | .lengthSmall s => s.len

/-- facades/frozen_set.rs:353-355 (`is_empty`). -/
def isEmpty (s : FrozenSet T) : Bool := decide (s.len = 0)

/-- facades/frozen_set.rs:372-386 (`iter`) and 585-587 (`into_iter` of a reference). -/
def iter (ty : KeyTy T) : FrozenSet T → SetIter T
  | .scanning s => s.iter
  | .commonSmall s => s.iter
  | .commonLarge s => s.iter
  | .u32Small s => ⟨ty.ofIntEntries s.iter.entries, s.iter.index⟩
  | .u32Large s => ⟨ty.ofIntEntries s.iter.entries, s.iter.index⟩
  | .u32Range s => ⟨ty.ofIntEntries s.iter.entries, s.iter.index⟩
  | .leftSmall s => ⟨ty.ofBEntries s.iter.entries, s.iter.index⟩
  | .leftLarge s => ⟨ty.ofBEntries s.iter.entries, s.iter.index⟩
  | .rightSmall s => ⟨ty.ofBEntries s.iter.entries, s.iter.index⟩
  | .rightLarge s => ⟨ty.ofBEntries s.iter.entries, s.iter.index⟩
  | .lengthSmall s => ⟨ty.ofBEntries s.iter.entries, s.iter.index⟩

/-- facades/frozen_set.rs:474-478 (`Default::default`). -/
def default : FrozenSet T := .scanning (ScanningSet.fromVec [])

/-- facades/frozen_set.rs:509-515 (`PartialEq::eq`). -/
def eq (env : Env) (ty : KeyTy T) (s other : FrozenSet T) : Res Bool :=
  if s.len ≠ other.len then .ok false
  else Res.allList (fun v => (other.get env ty v).map Option.isSome) (s.iter ty).items

/-- facades/frozen_set.rs:608-625 (`impl Set for FrozenSet`). -/
def toSetI (env : Env) (ty : KeyTy T) (s : FrozenSet T) : SetI T :=
  ⟨(s.iter ty).items, s.contains env ty, s.len⟩

end FrozenSet

end FC
