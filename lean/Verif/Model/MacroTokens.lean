import Verif.Model.Macro
import Verif.Model.UserCode

/-
Model of macros/frozen_map.rs from the token list on: parsing of the call, the check of the keys,
and the evaluation of the emitted expressions. macros/frozen_set.rs is the same text under another
name. The parsers of types and expressions and the readers of literals are syn's; they are
parameters.
-/

set_option autoImplicit false

namespace FC
variable [Target]

/-- What the macro uses of syn. `ty` and `expr` take what they need from the front of the input and
give back the rest, or fail (`input.parse::<Type>()`, `input.parse::<Expr>()`,
macros/frozen_map.rs:36-43). `tyName` is a type written out as tokens (line 85), `litInt` and
`litStr` are the value of an expression that is an integer or a string literal (lines 209-210 and
223-224; a negative literal counts). -/
structure Syn (Tok Ty Ex : Type) where
  isComma : Tok → Bool
  isColon : Tok → Bool
  ty : List Tok → Option (Ty × List Tok)
  expr : List Tok → Option (Ex × List Tok)
  tyName : Ty → String
  litInt : Ex → Option Int
  litStr : Ex → Option Bytes

/-- `input.parse::<Token![..]>()?`: one given token, macros/frozen_map.rs:37, 41. -/
def eatToken {Tok : Type} (is : Tok → Bool) : List Tok → Option (List Tok)
  | [] => none
  | t :: ts => if is t then some ts else none

namespace Syn
variable {Tok Ty Ex : Type}

/-- The loop of `Map::parse`, macros/frozen_map.rs:39-49. The number is a bound on the rounds, for
termination only: `parseMap` gives one that is never used up, as each round takes a token. -/
def parseEntries (S : Syn Tok Ty Ex) : Nat → List Tok → Option (List (Ex × Ex))
  | _, [] => some []
  | 0, _ :: _ => none
  | n + 1, t :: ts => do
    let (k, r) ← S.expr (t :: ts)
    let r ← eatToken S.isColon r
    let (v, r) ← S.expr r
    let es ← S.parseEntries n ((eatToken S.isComma r).getD r)
    return (k, v) :: es

/-- `Map::parse`, macros/frozen_map.rs:33-52. -/
def parseMap (S : Syn Tok Ty Ex) (ts : List Tok) : Option (Ty × List (Ex × Ex)) := do
  let (ty, r) ← S.ty ts
  let r ← eatToken S.isComma r
  let es ← S.parseEntries r.length r
  return (ty, es)

end Syn

/-- How the macro treats a key type, macros/frozen_map.rs:54-59 (`KeyVariety`). -/
inductive KeyClass where
  | int (t : IntTy)
  | str
  | common

/-- The match on the name of the key type, macros/frozen_map.rs:92-122. -/
def classify (name : String) : KeyClass :=
  if name = "u8" then .int ⟨8, false⟩
  else if name = "i8" then .int ⟨8, true⟩
  else if name = "u16" then .int ⟨16, false⟩
  else if name = "i16" then .int ⟨16, true⟩
  else if name = "u32" then .int ⟨32, false⟩
  else if name = "i32" then .int ⟨32, true⟩
  else if name = "u64" then .int ⟨64, false⟩
  else if name = "i64" then .int ⟨64, true⟩
  else if name = "u128" then .int ⟨128, false⟩
  else if name = "i128" then .int ⟨128, true⟩
  else if name = "& str" then .str
  else .common

/-- Integer literals as keys of the analysis (`process_int_keys`, macros/frozen_map.rs:201-215). -/
def intLits (t : IntTy) : MacroTy Int := ⟨fun a b => decide (a = b), fun _ => [], .int t id⟩

/-- String literals as keys of the analysis (`process_string_keys`, macros/frozen_map.rs:217-229). -/
def strLits : MacroTy Bytes := ⟨fun a b => decide (a = b), fun _ => [], .str id⟩

/-- Keys that are not looked at (macros/frozen_map.rs:121). -/
def anyKeys : MacroTy Unit := ⟨fun _ _ => true, fun _ => [], .other⟩

/-- What the macro emits: the constructor call, and the entry expressions in it; `wrapped` says that
keys are written as `String::from(..)` (macros/frozen_map.rs:110-117). An entry is written as its two
expressions with a comma (macros/frozen_map.rs:23-30), in parentheses (lines 78, 170, 183, 193). -/
structure MacroCode (Ex : Type) where
  emission : Emission
  wrapped : Bool
  entries : List (Ex × Ex)

/-- `frozen_map_macro` on tokens, macros/frozen_map.rs:65-199, which is all that
frozen-collections-macros/src/lib.rs:9-11 calls. `ok none`: a compile error is
emitted (lines 67-70). The `unwrap`s of lines 94-108 panic when a key is not a literal. -/
def expandTokens {Tok Ty Ex : Type} (S : Syn Tok Ty Ex) (oc : Bool) (bhx : Hasher)
    (ts : List Tok) : Res (Option (MacroCode Ex)) :=
  match S.parseMap ts with
  | none => .ok none
  | some (ty, es) =>
    if es.length < 3 then .ok (some ⟨⟨.scanning, IdxTy.u8, none, none⟩, false, es⟩)
    else
      match classify (S.tyName ty) with
      | .int t => do
        let keys ← Res.unwrap (es.mapM (fun e => S.litInt e.1))
        let e ← macroExpand oc bhx (intLits t) keys
        return some ⟨e, false, es⟩
      | .str => do
        let keys ← Res.unwrap (es.mapM (fun e => S.litStr e.1))
        let e ← macroExpand oc bhx strLits keys
        return some ⟨e, true, es⟩
      | .common => do
        let e ← macroExpand oc bhx anyKeys (es.map (fun _ => ()))
        return some ⟨e, false, es⟩

/-- Running the emitted code, macros/frozen_map.rs:75-82 and 162-198: the tuples of the `vec!` are
evaluated first, then the constructor. `evalK` evaluates a key expression (with the `String::from`
around it, if any), `evalV` a value expression; both may have effects and may panic. -/
def MacroCode.run {Ex σ K V : Type} (env : Env) (ty : MacroTy K) (evalK : Ex → Call σ K)
    (evalV : Ex → Call σ V) (bh : Hasher) (c : MacroCode Ex) : Call σ (MacroMap K V) := do
  let payload ← Call.mapList (fun e : Ex × Ex => do
    let k ← evalK e.1
    let v ← evalV e.2
    return (k, v)) c.entries
  Call.lift (runEmission env ty c.emission payload bh)

/-- What the emitted code says about the type of the keys. macros/frozen_map.rs:74-83 and 162-198. -/
inductive KeyNote (Ty : Type) where
  | absent
  | written (t : Ty)
  | string

/-- The key type in the emitted code: with fewer than three entries `ScanningMap::from_vec(..)` has no
type written anywhere (macros/frozen_map.rs:75-82), otherwise the `let` names it as `#ty` (lines 167,
180, 190), which is the type of the call or, for `& str`, `String` (line 117). `none`: no code. -/
def keyNote {Tok Ty Ex : Type} (S : Syn Tok Ty Ex) (ts : List Tok) : Option (KeyNote Ty) :=
  match S.parseMap ts with
  | none => none
  | some (ty, es) =>
    if es.length < 3 then some .absent
    else
      match classify (S.tyName ty) with
      | .str => some .string
      | _ => some (.written ty)

end FC
