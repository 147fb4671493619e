import Verif.Model.Maps
import Verif.Model.IntKey

/-
Model of macros/frozen_map.rs (`frozen_map!`). Lexing and parsing of tokens are not modelled: the
input is the key type together with the literal keys.
-/

set_option autoImplicit false

namespace FC
variable [Target]

/-- The key type written in the macro call, macros/frozen_map.rs:93-122: one of the ten primitive
integer types, `&str`, or anything else. The functions give a literal's value. -/
inductive MacroKind (K : Type) where
  | int (t : IntTy) (toInt : K → Int)
  | str (toB : K → Bytes)
  | other

/-- A key type as the macro and the emitted code see it. macros/frozen_map.rs:86-122. -/
structure MacroTy (K : Type) where
  eq : K → K → Bool
  enc : K → List HCall
  kind : MacroKind K

/-- The map types the macro can name, macros/frozen_map.rs:76 and 124-149. -/
inductive MapName where
  | scanning | common | integer | integerRange | length | left | right
  deriving Repr, DecidableEq

/-- What the macro emits (macros/frozen_map.rs:75-82 and 162-198): the map type, the index type
(`payload_size`), how many generic arguments the annotation of `m` writes (`none`: no annotation),
and the range passed to the slice maps. -/
structure Emission where
  name : MapName
  idx : IdxTy
  numGenerics : Option Nat
  range : Option (Nat × Nat)
  deriving Repr, DecidableEq

/-- macros/frozen_map.rs:201-215 (`process_int_keys`): a literal that is not a value of the type
fails to parse, and the caller's `unwrap` panics. -/
def processIntKeys (t : IntTy) (oc : Bool) (keys : List Int) : Res IntVerdict :=
  if keys.all (fun k => decide (t.InRange k)) then analyzeIntKeys t oc keys else .panic

/-- `payload_size`, macros/frozen_map.rs:151-160. -/
def payloadSize (n : Nat) : IdxTy :=
  if n ≤ 255 then IdxTy.u8 else if n ≤ 65535 then IdxTy.u16 else IdxTy.usize

/-- macros/frozen_map.rs:65-199 (`frozen_map_macro`) on the list of literal keys. `bhx` is the
hasher created at expansion time (line 227); `oc` the overflow mode of the macro crate's build. -/
def macroExpand {K : Type} (oc : Bool) (bhx : Hasher) (ty : MacroTy K) (keys : List K) :
    Res Emission := do
  if keys.length < 3 then
    return ⟨.scanning, IdxTy.u8, none, none⟩
  else
    match ty.kind with
    | .int t toInt =>
      match ← processIntKeys t oc (keys.map toInt) with
      | .range => return ⟨.integerRange, payloadSize keys.length, some 3, none⟩
      | .normal => return ⟨.integer, payloadSize keys.length, some 3, none⟩
    | .str toB =>
      match ← analyzeSliceKeys oc bhx (keys.map toB) with
      | .normal => return ⟨.common, payloadSize keys.length, some 3, none⟩
      | .length => return ⟨.length, payloadSize keys.length, some 3, none⟩
      | .left i l => return ⟨.left, payloadSize keys.length, some 4, some (i, i + l)⟩
      | .right i l => return ⟨.right, payloadSize keys.length, some 4, some (i, i + l)⟩
    | .other => return ⟨.common, payloadSize keys.length, some 3, none⟩

/-- Number of generic parameters a map type declares, without and with its defaulted ones
(scanning_map.rs:12, common_map.rs:19, integer_map.rs:17, integer_range_map.rs:14,
length_map.rs:18, left_slice_map.rs:20, right_slice_map.rs:20). -/
def declaredGenerics : MapName → Nat × Nat
  | .scanning => (2, 2)
  | .common => (2, 4)
  | .integer => (2, 3)
  | .integerRange => (2, 2)
  | .length => (2, 3)
  | .left => (2, 4)
  | .right => (2, 4)

/-- Does `from_vec` of the map type take a range argument (left_slice_map.rs:208,
right_slice_map.rs:211; scanning_map.rs:21, common_map.rs:186, integer_map.rs:27,
integer_range_map.rs:28, length_map.rs:28)? -/
def takesRange : MapName → Bool
  | .left => true
  | .right => true
  | _ => false

/-- The map the emitted code builds. macros/frozen_map.rs:75-82 and 162-198. -/
inductive MacroMap (K V : Type) where
  | scanning (m : ScanningMap K V)
  | common (m : CommonMap K V)
  | integer (m : IntegerMap V)
  | integerRange (t : IntTy) (m : IntegerRangeMap V)
  | length (m : LengthMap Bytes V)
  | left (m : LeftSliceMap V)
  | right (m : RightSliceMap V)

/-- `MacroTy`'s literal value as an integer. macros/frozen_map.rs:201-215. -/
def MacroTy.toInt {K : Type} (ty : MacroTy K) (k : K) : Int :=
  match ty.kind with
  | .int _ f => f k
  | _ => 0

/-- The integer type of the keys. macros/frozen_map.rs:93-122. -/
def MacroTy.intTy {K : Type} (ty : MacroTy K) : IntTy :=
  match ty.kind with
  | .int t _ => t
  | _ => IntTy.u32

/-- `MacroTy`'s literal value as a byte string. macros/frozen_map.rs:217-229. -/
def MacroTy.toB {K : Type} (ty : MacroTy K) (k : K) : Bytes :=
  match ty.kind with
  | .str f => f k
  | _ => []

/-- Running the emitted code, macros/frozen_map.rs:75-82 and 162-198: the constructor call
`<name>::from_vec(vec![..])` (with the range for slice maps), with the hasher `bh` that `from_vec`
creates at run time (common_map.rs:187, left_slice_map.rs:209, right_slice_map.rs:212). -/
def runEmission {K V : Type} (env : Env) (ty : MacroTy K) (e : Emission) (payload : List (K × V))
    (bh : Hasher) : Res (MacroMap K V) := do
  match e.name with
  | .scanning => return .scanning (ScanningMap.fromVec payload)
  | .common => return .common (← CommonMap.fromVecWithHasher env e.idx ty.enc payload bh)
  | .integer =>
    return .integer (← IntegerMap.fromVec env e.idx (payload.map (fun p => (ty.toInt p.1, p.2))))
  | .integerRange =>
    return .integerRange ty.intTy
      (← IntegerRangeMap.fromVec env.oc ty.intTy (payload.map (fun p => (ty.toInt p.1, p.2))))
  | .length =>
    return .length (← LengthMap.fromVec env e.idx List.length
      (payload.map (fun p => (ty.toB p.1, p.2))))
  | .left =>
    match e.range with
    | some r => return .left (← LeftSliceMap.fromVecWithHasher env e.idx
        (payload.map (fun p => (ty.toB p.1, p.2))) r.1 r.2 bh)
    | none => Res.panic
  | .right =>
    match e.range with
    | some r => return .right (← RightSliceMap.fromVecWithHasher env e.idx
        (payload.map (fun p => (ty.toB p.1, p.2))) r.1 r.2 bh)
    | none => Res.panic

/-- `get` on the emitted map (scanning_map.rs:31, common_map.rs:68, integer_map.rs:51,
integer_range_map.rs:59, length_map.rs:53, left_slice_map.rs:90, right_slice_map.rs:93). -/
def MacroMap.get {K V : Type} (env : Env) (ty : MacroTy K) (m : MacroMap K V) (k : K) :
    Res (Option (Ref V)) :=
  match m with
  | .scanning m => m.get ⟨id, ty.eq, ty.enc⟩ k
  | .common m => m.get ⟨id, ty.eq, ty.enc⟩ k
  | .integer m => m.get (ty.toInt k)
  | .integerRange t m => m.get env.oc t (ty.toInt k)
  | .length m => m.get id beq List.length (ty.toB k)
  | .left m => m.get (ty.toB k)
  | .right m => m.get env.oc (ty.toB k)

end FC
