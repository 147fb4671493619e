import Verif.Model.FrozenSet

/-
The facades tell what their key type is by comparing `std::any::type_name` strings
(facades/frozen_map.rs:216-218, facades/frozen_set.rs:201-203). Here the key type is a description
of a Rust type, the comparison is of its printed name, and taking keys for something they are not
is undefined behaviour. `Model/FrozenMap.lean` and `Model/FrozenSet.lean` take the outcome of the
comparison (`Kind`) for granted.
-/

set_option autoImplicit false

namespace FC

/-- A crate. Crates may share a name (two versions of one crate, or one that happens to have the name
of another); `id` tells them apart. rustc; what `type_name` at facades/frozen_map.rs:216-218 works on. -/
structure Crate where
  name : String
  id : Nat
  deriving DecidableEq, Repr

/-- Primitive types without parts. rustc; what `type_name` at facades/frozen_map.rs:216-218 works on. -/
inductive Prim where
  | bool | char | str | never
  | u8 | u16 | u32 | u64 | u128 | usize
  | i8 | i16 | i32 | i64 | i128 | isize
  | f32 | f64
  deriving DecidableEq, Repr

/-- Rust types, lifetimes left out (`type_name` does not print them). `adt c ms n as` is the type
`n` in module `ms` of crate `c` with type arguments `as`. Function pointers carry what is written
before `fn` (such as `unsafe`). Simplified: trait objects have one trait; closures and types of
function items, which do not occur as key types, are left out. rustc; what `type_name` at
facades/frozen_map.rs:216-218 works on. -/
inductive RTy where
  | prim (p : Prim)
  | adt (c : Crate) (mods : List String) (name : String) (args : List RTy)
  | ref (isMut : Bool) (t : RTy)
  | ptr (isMut : Bool) (t : RTy)
  | slice (t : RTy)
  | array (t : RTy) (n : Nat)
  | tuple (ts : List RTy)
  | fn (header : String) (args : List RTy) (ret : RTy)
  | dyn (c : Crate) (mods : List String) (name : String) (args : List RTy)

/-- The name of a primitive type. rustc; what `type_name` at facades/frozen_map.rs:216-218 works on. -/
def Prim.text : Prim → String
  | .bool => "bool" | .char => "char" | .str => "str" | .never => "!"
  | .u8 => "u8" | .u16 => "u16" | .u32 => "u32" | .u64 => "u64" | .u128 => "u128" | .usize => "usize"
  | .i8 => "i8" | .i16 => "i16" | .i32 => "i32" | .i64 => "i64" | .i128 => "i128" | .isize => "isize"
  | .f32 => "f32" | .f64 => "f64"

/-- `crate::module::Type`, as characters. rustc; what `type_name` at facades/frozen_map.rs:216-218 works
on. -/
def pathText (c : Crate) (mods : List String) (name : String) : List Char :=
  c.name.toList ++ (mods ++ [name]).flatMap (fun s => ':' :: ':' :: s.toList)

/-- Texts with `sep` in between. rustc; what `type_name` at facades/frozen_map.rs:216-218 works on. -/
def sepText (sep : List Char) : List (List Char) → List Char
  | [] => []
  | [x] => x
  | x :: y :: zs => x ++ sep ++ sepText sep (y :: zs)

/-- `<A, B>`, or nothing. rustc; what `type_name` at facades/frozen_map.rs:216-218 works on. -/
def angleText : List (List Char) → List Char
  | [] => []
  | x :: xs => '<' :: sepText [',', ' '] (x :: xs) ++ ['>']

mutual

/-- `std::any::type_name`, as characters (what facades/frozen_map.rs:216-218 and
facades/frozen_set.rs:201-203 compare). The format is rustc's; std does not promise it. -/
def RTy.text : RTy → List Char
  | .prim p => p.text.toList
  | .adt c ms n as => pathText c ms n ++ angleText (RTy.texts as)
  | .ref m t => (if m then "&mut " else "&").toList ++ t.text
  | .ptr m t => (if m then "*mut " else "*const ").toList ++ t.text
  | .slice t => '[' :: t.text ++ [']']
  | .array t n => '[' :: t.text ++ "; ".toList ++ (toString n).toList ++ [']']
  | .tuple [t] => '(' :: t.text ++ ",)".toList
  | .tuple ts => '(' :: sepText [',', ' '] (RTy.texts ts) ++ [')']
  | .fn h as r => h.toList ++ "fn(".toList ++ sepText [',', ' '] (RTy.texts as) ++ ") -> ".toList ++ r.text
  | .dyn c ms n as => "dyn ".toList ++ pathText c ms n ++ angleText (RTy.texts as)

/-- The names of several types. rustc; what `type_name` at facades/frozen_map.rs:216-218 works on. -/
def RTy.texts : List RTy → List (List Char)
  | [] => []
  | t :: ts => t.text :: RTy.texts ts

end

/-- The crate of the standard library that `String` lives in. Named at facades/frozen_map.rs:218. -/
def stdAlloc : Crate := ⟨"alloc", 0⟩

/-- `u32`. Named at facades/frozen_map.rs:216. -/
def RTy.u32 : RTy := .prim .u32

/-- `std::string::String`, whose name is printed as `alloc::string::String`. Named at
facades/frozen_map.rs:218. -/
def RTy.string : RTy := .adt stdAlloc ["string"] "String" []

variable [Target]

/-- facades/frozen_map.rs:212-224 (`new`) with the comparison of names. `t` is the key type, `ty` says
what its values are. The `transmute`s of lines 228 and 246 take the keys for `u32`s or `String`s: for
keys that are something else this is undefined behaviour (simplified: also if they should happen to
look alike in memory). -/
def FrozenMap.newNamed {K V : Type} (env : Env) (t : RTy) (ty : KeyTy K) (payload : List (K × V))
    (bh : Hasher) : Res (FrozenMap K V) :=
  if payload.length < 4 then .ok (.scanning (ScanningMap.fromVec payload))
  else if t.text = RTy.u32.text then
    match ty.kind with
    | .u32 toInt _ => FrozenMap.newU32Map env toInt payload
    | _ => .ub
  else if t.text = RTy.string.text then
    match ty.kind with
    | .string toB ofB => FrozenMap.newStringMap env ty.enc toB ofB payload bh
    | _ => .ub
  else FrozenMap.newCommonMap env ty.enc payload bh

/-- facades/frozen_set.rs:197-209 (`new`), likewise. -/
def FrozenSet.newNamed {T : Type} (env : Env) (t : RTy) (ty : KeyTy T) (payload : List T)
    (bh : Hasher) : Res (FrozenSet T) :=
  if payload.length < 4 then .ok (.scanning (ScanningSet.fromVec payload))
  else if t.text = RTy.u32.text then
    match ty.kind with
    | .u32 toInt _ => FrozenSet.newU32Set env toInt payload
    | _ => .ub
  else if t.text = RTy.string.text then
    match ty.kind with
    | .string toB ofB => FrozenSet.newStringSet env ty.enc toB ofB payload bh
    | _ => .ub
  else FrozenSet.newCommonSet env ty.enc payload bh

end FC
