import Verif.Model.CatchReads
import Verif.Spec.HonestCode
import Verif.Spec

/-
The right answers of sets and comparisons, to a caller that catches panics.
-/

set_option autoImplicit false

namespace FC
variable {T K V : Type}

/-- The right answer of a set that holds the elements `d`, in the order in which it iterates. -/
def SetAsk.Right (eq : T → T → Bool) (d : List T) : SetAsk T → SetAns T → Prop
  | .get x, ans => ∃ o, ans = .element o ∧ (∀ y, o = some y → y ∈ d ∧ eq x y = true) ∧
    (o = none → ¬ Has eq d x)
  | .contains x, ans => ∃ b, ans = .bool b ∧ (b = true ↔ Has eq d x)
  | .len, ans => ans = .number d.length
  | .isEmpty, ans => ∃ b, ans = .bool b ∧ (b = true ↔ d = [])
  | .iter, ans => ans = .items d

/-- The right answer of sets that hold the elements `d₁` and `d₂`. -/
def PairAsk.Right (eq : T → T → Bool) (d₁ d₂ : List T) : PairAsk T → SetAns T → Prop
  | .first a, ans => a.Right eq d₁ ans
  | .second a, ans => a.Right eq d₂ ans
  | .isSubset, ans => ∃ b, ans = .bool b ∧ (b = true ↔ ∀ x, Has eq d₁ x → Has eq d₂ x)
  | .isSuperset, ans => ∃ b, ans = .bool b ∧ (b = true ↔ ∀ x, Has eq d₂ x → Has eq d₁ x)
  | .isDisjoint, ans => ∃ b, ans = .bool b ∧ (b = true ↔ ∀ x, ¬ (Has eq d₁ x ∧ Has eq d₂ x))
  | .eq, ans => ∃ b, ans = .bool b ∧ (b = true ↔ ∀ x, Has eq d₁ x ↔ Has eq d₂ x)

/-- A call has no answer, which may be only if `p`, or a right one. -/
def RightIfAny {α : Type} (p : Prop) (Right : α → Prop) : Option α → Prop
  | none => p
  | some a => Right a

end FC
