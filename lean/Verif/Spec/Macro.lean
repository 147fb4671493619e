import Verif.Spec
import Verif.Model.Macro

/-
Words used in the statements about `frozen_map!` (C42, C43).
-/

set_option autoImplicit false

namespace FC
variable {K V : Type}

/-- A key type as written in a macro call: lawful `Eq` and `Hash`; integer and string literals are
equal when their values are, integers lie in the range of their type. -/
structure LawfulMacroTy [Target] (ty : MacroTy K) : Prop where
  eq : LawfulEq ty.eq
  hash : ∀ a b, ty.eq a b = true → ty.enc a = ty.enc b
  kind : match ty.kind with
    | .int t f => 0 < t.bits ∧ (∀ k, t.InRange (f k)) ∧ ∀ a b, ty.eq a b = decide (f a = f b)
    | .str f => (∀ k, (f k).length < usz / 2) ∧ ∀ a b, ty.eq a b = decide (f a = f b)
    | .other => True

/-- The emitted code is accepted by the compiler as far as arity goes: the annotation has an
admissible number of generic arguments and the constructor gets a range exactly if it takes one. -/
def TypeChecks (e : Emission) : Prop :=
  (∀ n, e.numGenerics = some n →
    (declaredGenerics e.name).1 ≤ n ∧ n ≤ (declaredGenerics e.name).2) ∧
  e.range.isSome = takesRange e.name

/-- The map answers a probe correctly: a value listed with an equal key, or nothing when no listed
key is equal. -/
def AnswersGet (eq : K → K → Bool) (payload : List (K × V)) (k : K) (r : Res (Option (Ref V))) : Prop :=
  ∃ o, r = .ok o ∧ match o with
    | some r => Associated eq payload k r.val
    | none => ¬ Present eq payload k

end FC
