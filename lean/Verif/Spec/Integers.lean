import Verif.Spec

/-
Words used in the statements about integer keys and empty maps (C21-C25).
-/

set_option autoImplicit false

namespace FC
variable [Target]
variable {V : Type}

/-- The integers fill the interval between any two of them. -/
def Contiguous (keys : List Int) : Prop :=
  ∀ a ∈ keys, ∀ b ∈ keys, ∀ x, a ≤ x → x ≤ b → x ∈ keys

/-- Number and span of the keys are values of the key type. -/
def FitsType (t : IntTy) (keys : List Int) : Prop :=
  (keys.length : Int) ≤ t.hi ∧ ∀ a ∈ keys, ∀ b ∈ keys, b - a ≤ t.hi

/-- `m` is the least element of the list. -/
def IsMin (keys : List Int) (m : Int) : Prop := m ∈ keys ∧ ∀ k ∈ keys, m ≤ k

/-- `m` is the greatest element of the list. -/
def IsMax (keys : List Int) (m : Int) : Prop := m ∈ keys ∧ ∀ k ∈ keys, k ≤ m

/-- No lookup method finds anything, and none panics. -/
def FindsNothing {A : Type} (getKeyValue : Res (Option (A × Ref V))) (get getMut : Res (Option (Ref V)))
    (containsKey : Res Bool) : Prop :=
  getKeyValue = .ok none ∧ get = .ok none ∧ getMut = .ok none ∧ containsKey = .ok false

end FC
