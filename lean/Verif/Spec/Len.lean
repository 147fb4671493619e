import Verif.Spec
import Verif.Model.Len

/-
Vocabulary of C62: the types with a built-in length, and what their values can be borrowed as.
-/

set_option autoImplicit false

namespace FC
variable [Target]

/-- The types with a built-in `Len` (and an `Eq`), over element types that keep `Eq`'s contract. -/
inductive BuiltinLen : LenType → Prop where
  | byteString : BuiltinLen byteString
  | cStr : BuiltinLen cStr
  | cString : BuiltinLen cString
  | sequence {T : Type} {eq : T → T → Bool} : LawfulEq eq → BuiltinLen (sequence T eq)
  | hashSet {T : Type} {eq : T → T → Bool} : LawfulEq eq → BuiltinLen (hashSet T eq)
  | bTreeSet {T : Type} {eq : T → T → Bool} : LawfulEq eq → BuiltinLen (bTreeSet T eq)
  | hashMap {K V : Type} {eq : K → K → Bool} {veq : V → V → Bool} :
      LawfulEq eq → LawfulEq veq → BuiltinLen (hashMap K V eq veq)
  | bTreeMap {K V : Type} {eq : K → K → Bool} {veq : V → V → Bool} :
      LawfulEq eq → LawfulEq veq → BuiltinLen (bTreeMap K V eq veq)
  | pointer {T : LenType} : BuiltinLen T → BuiltinLen (pointer T)

/-- `K: Borrow<Q>` of std between these types. `String` as `str`, `OsString` as `OsStr` and `Vec` as
slice are the case `self`: both sides have the same bytes or elements. -/
inductive Borrows : (K Q : LenType) → (K.Val → Q.Val) → Prop where
  | self {T : LenType} : Borrows T T id
  | cString : Borrows cString cStr id
  | pointer {T : LenType} : Borrows (pointer T) T Pointer.target

end FC
