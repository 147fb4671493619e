import Verif.Model.Maps
import Verif.Model.IntKey
import Verif.Model.Iter

/-
Model of facades/frozen_map.rs.
-/

set_option autoImplicit false

namespace FC
variable [Target]

/-- What `type_name::<K>()` says about the key type (facades/frozen_map.rs:216-218), together with
the reinterpretation the `transmute`s perform. For `K = u32` and `K = String` both directions are
the identity on the represented value. -/
inductive Kind (K : Type) where
  | u32 (toInt : K → Int) (ofInt : Int → K)
  | string (toB : K → Bytes) (ofB : Bytes → K)
  | other

/-- A key type as the facade sees it: its `Eq`, its `Hash`, and its kind. `K` of
facades/frozen_map.rs:152-224. -/
structure KeyTy (K : Type) where
  eq : K → K → Bool
  enc : K → List HCall
  kind : Kind K

/-- The facade always probes with `&K`. facades/frozen_map.rs:328-357 (`get`). -/
def KeyTy.probe {K : Type} (ty : KeyTy K) : Probe K K := ⟨id, ty.eq, ty.enc⟩

/-- `transmute::<&K, &u32>` (only reached for `u32` keys). facades/frozen_map.rs:333-354. -/
def KeyTy.toInt {K : Type} (ty : KeyTy K) (k : K) : Int :=
  match ty.kind with
  | .u32 f _ => f k
  | _ => 0

/-- `transmute::<&K, &String>` (only reached for `String` keys). facades/frozen_map.rs:333-354. -/
def KeyTy.toB {K : Type} (ty : KeyTy K) (k : K) : Bytes :=
  match ty.kind with
  | .string f _ => f k
  | _ => []

/-- Entries of a `u32` map read back as `(K, V)` (`transmute(m.iter())`,
facades/frozen_map.rs:594-596). -/
def KeyTy.ofIntEntries {K V : Type} (ty : KeyTy K) (es : List (Int × V)) : List (K × V) :=
  match ty.kind with
  | .u32 _ g => es.map (fun e => (g e.1, e.2))
  | _ => []

/-- Entries of a `String` map read back as `(K, V)` (facades/frozen_map.rs:597-601). -/
def KeyTy.ofBEntries {K V : Type} (ty : KeyTy K) (es : List (Bytes × V)) : List (K × V) :=
  match ty.kind with
  | .string _ g => es.map (fun e => (g e.1, e.2))
  | _ => []

/-- A key of a `u32` map read back as `K` (`transmute` of the result, facades/frozen_map.rs:376-378). -/
def KeyTy.ofIntKV {K V : Type} (ty : KeyTy K) (r : Option (Int × Ref V)) : Option (K × Ref V) :=
  match ty.kind with
  | .u32 _ g => r.map (fun e => (g e.1, e.2))
  | _ => none

/-- A key of a `String` map read back as `K` (facades/frozen_map.rs:379-398). -/
def KeyTy.ofBKV {K V : Type} (ty : KeyTy K) (r : Option (Bytes × Ref V)) : Option (K × Ref V) :=
  match ty.kind with
  | .string _ g => r.map (fun e => (g e.1, e.2))
  | _ => none

/-- facades/frozen_map.rs:21-39 (`MapTypes`). -/
inductive FrozenMap (K V : Type) where
  | scanning (m : ScanningMap K V)
  | commonSmall (m : CommonMap K V)
  | commonLarge (m : CommonMap K V)
  | u32Small (m : IntegerMap V)
  | u32Large (m : IntegerMap V)
  | u32Range (m : IntegerRangeMap V)
  | leftSmall (m : LeftSliceMap V)
  | leftLarge (m : LeftSliceMap V)
  | rightSmall (m : RightSliceMap V)
  | rightLarge (m : RightSliceMap V)
  | lengthSmall (m : LengthMap Bytes V)

namespace FrozenMap
variable {K V : Type}

/-- facades/frozen_map.rs:227-242 (`new_u32_map`); `toInt` is the `transmute` of line 228. -/
def newU32Map (env : Env) (toInt : K → Int) (payload : List (K × V)) : Res (FrozenMap K V) := do
  let payload := payload.map (fun e => (toInt e.1, e.2))
  match ← analyzeIntKeys IntTy.u32 env.oc (payload.map (·.1)) with
  | .range => return .u32Range (← IntegerRangeMap.fromVec env.oc IntTy.u32 payload)
  | .normal =>
    if payload.length ≤ 255 then return .u32Small (← IntegerMap.fromVec env IdxTy.u8 payload)
    else return .u32Large (← IntegerMap.fromVec env IdxTy.usize payload)

/-- facades/frozen_map.rs:245-306 (`new_string_map`); `toB`/`ofB` are the `transmute`s of lines 246,
253 and 282. -/
def newStringMap (env : Env) (enc : K → List HCall) (toB : K → Bytes) (ofB : Bytes → K)
    (payload : List (K × V)) (bh : Hasher) : Res (FrozenMap K V) := do
  let payload := payload.map (fun e => (toB e.1, e.2))
  let verdict ← analyzeSliceKeys env.oc bh (payload.map (·.1))
  if payload.length ≤ 255 then
    match verdict with
    | .normal =>
      return .commonSmall (← CommonMap.fromVecWithHasher env IdxTy.u8 enc
        (payload.map (fun e => (ofB e.1, e.2))) bh)
    | .left i l =>
      return .leftSmall (← LeftSliceMap.fromVecWithHasher env IdxTy.u8 payload i (i + l) bh)
    | .right i l =>
      return .rightSmall (← RightSliceMap.fromVecWithHasher env IdxTy.u8 payload i (i + l) bh)
    | .length =>
      return .lengthSmall (← LengthMap.fromVec env IdxTy.u8 List.length payload)
  else
    match verdict with
    | .length | .normal =>
      return .commonLarge (← CommonMap.fromVecWithHasher env IdxTy.usize enc
        (payload.map (fun e => (ofB e.1, e.2))) bh)
    | .left i l =>
      return .leftLarge (← LeftSliceMap.fromVecWithHasher env IdxTy.usize payload i (i + l) bh)
    | .right i l =>
      return .rightLarge (← RightSliceMap.fromVecWithHasher env IdxTy.usize payload i (i + l) bh)

/-- facades/frozen_map.rs:308-314 (`new_common_map`). -/
def newCommonMap (env : Env) (enc : K → List HCall) (payload : List (K × V)) (bh : Hasher) :
    Res (FrozenMap K V) := do
  if payload.length ≤ 255 then
    return .commonSmall (← CommonMap.fromVecWithHasher env IdxTy.u8 enc payload bh)
  else
    return .commonLarge (← CommonMap.fromVecWithHasher env IdxTy.usize enc payload bh)

/-- facades/frozen_map.rs:212-224 (`new`). Every public constructor (`from_vec_with_hasher` 175,
`from_iter_with_hasher` 192, `with_hasher` 208, `from_vec` 688, `From<[_; N]>` 697,
`FromIterator` 706) collects its input into a `Vec` and calls it. -/
def new (env : Env) (ty : KeyTy K) (payload : List (K × V)) (bh : Hasher) : Res (FrozenMap K V) :=
  if payload.length < 4 then .ok (.scanning (ScanningMap.fromVec payload))
  else
    match ty.kind with
    | .u32 toInt _ => newU32Map env toInt payload
    | .string toB ofB => newStringMap env ty.enc toB ofB payload bh
    | .other => newCommonMap env ty.enc payload bh

/-- facades/frozen_map.rs:328-357 (`get`). -/
def get (env : Env) (ty : KeyTy K) (m : FrozenMap K V) (k : K) : Res (Option (Ref V)) :=
  match m with
  | .scanning m => m.get ty.probe k
  | .commonSmall m => m.get ty.probe k
  | .commonLarge m => m.get ty.probe k
  | .u32Small m => m.get (ty.toInt k)
  | .u32Large m => m.get (ty.toInt k)
  | .u32Range m => m.get env.oc IntTy.u32 (ty.toInt k)
  | .leftSmall m => m.get (ty.toB k)
  | .leftLarge m => m.get (ty.toB k)
  | .rightSmall m => m.get env.oc (ty.toB k)
  | .rightLarge m => m.get env.oc (ty.toB k)
  | .lengthSmall m => m.get id beq List.length (ty.toB k)

/-- facades/frozen_map.rs:371-400 (`get_key_value`). -/
def getKeyValue (env : Env) (ty : KeyTy K) (m : FrozenMap K V) (k : K) :
    Res (Option (K × Ref V)) :=
  match m with
  | .scanning m => m.getKeyValue ty.probe k
  | .commonSmall m => m.getKeyValue ty.probe k
  | .commonLarge m => m.getKeyValue ty.probe k
  | .u32Small m => (m.getKeyValue (ty.toInt k)).map ty.ofIntKV
  | .u32Large m => (m.getKeyValue (ty.toInt k)).map ty.ofIntKV
  | .u32Range m => (m.getKeyValue env.oc IntTy.u32 (ty.toInt k)).map ty.ofIntKV
  | .leftSmall m => (m.getKeyValue (ty.toB k)).map ty.ofBKV
  | .leftLarge m => (m.getKeyValue (ty.toB k)).map ty.ofBKV
  | .rightSmall m => (m.getKeyValue env.oc (ty.toB k)).map ty.ofBKV
  | .rightLarge m => (m.getKeyValue env.oc (ty.toB k)).map ty.ofBKV
  | .lengthSmall m => (m.getKeyValue id beq List.length (ty.toB k)).map ty.ofBKV

/-- facades/frozen_map.rs:414-446 (`get_mut`). -/
def getMut (env : Env) (ty : KeyTy K) (m : FrozenMap K V) (k : K) : Res (Option (Ref V)) :=
  match m with
  | .scanning m => m.getMut ty.probe k
  | .commonSmall m => m.getMut ty.probe k
  | .commonLarge m => m.getMut ty.probe k
  | .u32Small m => m.getMut (ty.toInt k)
  | .u32Large m => m.getMut (ty.toInt k)
  | .u32Range m => m.getMut env.oc IntTy.u32 (ty.toInt k)
  | .leftSmall m => m.getMut (ty.toB k)
  | .leftLarge m => m.getMut (ty.toB k)
  | .rightSmall m => m.getMut env.oc (ty.toB k)
  | .rightLarge m => m.getMut env.oc (ty.toB k)
  | .lengthSmall m => m.getMut id beq List.length (ty.toB k)

/-- facades/frozen_map.rs:493-513 (`get_many_mut`). -/
def getManyMut (env : Env) (ty : KeyTy K) (m : FrozenMap K V) (keys : List K) :
    Res (Option (List (Ref V))) := FC.getManyMut ty.eq (m.get env ty) keys

/-- facades/frozen_map.rs:527-529 (`contains_key`). -/
def containsKey (env : Env) (ty : KeyTy K) (m : FrozenMap K V) (k : K) : Res Bool :=
  (m.get env ty k).map Option.isSome

/-- facades/frozen_map.rs:541-555 (`len`). -/
def len : FrozenMap K V → Nat
  | .scanning m => m.len
  | .commonSmall m => m.len
  | .commonLarge m => m.len
  | .u32Small m => m.len
  | .u32Large m => m.len
  | .u32Range m => m.len
  | .leftSmall m => m.len
  | .leftLarge m => m.len
  | .rightSmall m => m.len
  | .rightLarge m => m.len
  | .lengthSmall m => m.len

/-- facades/frozen_map.rs:567-569 (`is_empty`). -/
def isEmpty (m : FrozenMap K V) : Bool := decide (m.len = 0)

/-- The entry slice that `iter`, `keys` and `values` walk, with the `transmute`s of
facades/frozen_map.rs:594-601, 629-636, 664-671 (each specialized map hands its own entry slice to
`Iter::new`, e.g. specialized_maps/common_map.rs:158-172). -/
def entries (ty : KeyTy K) : FrozenMap K V → List (K × V)
  | .scanning m => m.entries
  | .commonSmall m => m.table.entries
  | .commonLarge m => m.table.entries
  | .u32Small m => ty.ofIntEntries m.table.entries
  | .u32Large m => ty.ofIntEntries m.table.entries
  | .u32Range m => ty.ofIntEntries m.entries
  | .leftSmall m => ty.ofBEntries m.table.entries
  | .leftLarge m => ty.ofBEntries m.table.entries
  | .rightSmall m => ty.ofBEntries m.table.entries
  | .rightLarge m => ty.ofBEntries m.table.entries
  | .lengthSmall m => ty.ofBEntries m.table.entries

/-- facades/frozen_map.rs:589-603 (`iter`) and 791-802 (`IntoIterator for &FrozenMap`). -/
def iter (ty : KeyTy K) (m : FrozenMap K V) : MapIter K V := MapIter.new (m.entries ty)

/-- facades/frozen_map.rs:623-637 (`keys`). -/
def keys (ty : KeyTy K) (m : FrozenMap K V) : MapKeys K V := MapKeys.new (m.entries ty)

/-- facades/frozen_map.rs:657-671 (`values`). -/
def values (ty : KeyTy K) (m : FrozenMap K V) : MapValues K V := MapValues.new (m.entries ty)

/-- A write through a `&mut V` designating entry `i`. The reference comes from
facades/frozen_map.rs:414-446 (`get_mut`). -/
def write (m : FrozenMap K V) (i : Nat) (v : V) : FrozenMap K V :=
  match m with
  | .scanning m => .scanning (m.write i v)
  | .commonSmall m => .commonSmall (m.write i v)
  | .commonLarge m => .commonLarge (m.write i v)
  | .u32Small m => .u32Small (m.write i v)
  | .u32Large m => .u32Large (m.write i v)
  | .u32Range m => .u32Range (m.write i v)
  | .leftSmall m => .leftSmall (m.write i v)
  | .leftLarge m => .leftLarge (m.write i v)
  | .rightSmall m => .rightSmall (m.write i v)
  | .rightLarge m => .rightLarge (m.write i v)
  | .lengthSmall m => .lengthSmall (m.write i v)

/-- facades/frozen_map.rs:718-720 (`Index::index`). -/
def index (env : Env) (ty : KeyTy K) (m : FrozenMap K V) (k : K) : Res (Ref V) :=
  indexOf (m.get env ty k)

/-- facades/frozen_map.rs:728-730 (`IndexMut::index_mut`). -/
def indexMut (env : Env) (ty : KeyTy K) (m : FrozenMap K V) (k : K) : Res (Ref V) :=
  indexOf (m.getMut env ty k)

/-- facades/frozen_map.rs:738-742 (`Default::default`). -/
def default : FrozenMap K V := .scanning (ScanningMap.fromVec [])

/-- facades/frozen_map.rs:773-780 (`PartialEq::eq`). -/
def eq (env : Env) (ty : KeyTy K) (veq : V → V → Bool) (m other : FrozenMap K V) : Res Bool :=
  mapEq veq m.len other.len (m.entries ty) (other.get env ty)

end FrozenMap

end FC
