import Verif.Model.TypeName

/-
Vocabulary for the claims about how the facades tell their key type (C78).
-/

set_option autoImplicit false

namespace FC

/-- A part of a path is an identifier, without colons, or something in angle brackets (for types
declared inside the methods of an `impl`). -/
def PathPart (s : String) : Prop := ':' ∈ s.toList → '<' ∈ s.toList

/-- The path of the type is made of path parts. -/
def RTy.Named : RTy → Prop
  | .adt c ms n _ => PathPart c.name ∧ (∀ s ∈ ms, PathPart s) ∧ PathPart n
  | _ => True

/-- A type `String` in a module `string` of a crate called `alloc` which is not the one of the standard
library. -/
def RTy.Impostor (t : RTy) : Prop :=
  ∃ c : Crate, c.name = "alloc" ∧ c ≠ stdAlloc ∧ t = .adt c ["string"] "String" []

/-- `ty` tells what the values of the type `t` are: `u32`s if `t` is `u32`, strings if it is the
standard library's `String`, and neither if it is another type. -/
def KeyTy.Describes {K : Type} (ty : KeyTy K) (t : RTy) : Prop :=
  match ty.kind with
  | .u32 _ _ => t = RTy.u32
  | .string _ _ => t = RTy.string
  | .other => t ≠ RTy.u32 ∧ t ≠ RTy.string

end FC
