import Verif.Spec.History

/-
What C73 asks of `==`: that maps equal themselves and that equality carries over.
-/

set_option autoImplicit false

namespace FC
variable {M K V : Type}

/-- Pairs with equal keys have equal values. -/
def ValuesAgree (eq : K → K → Bool) (veq : V → V → Bool) (d : List (K × V)) : Prop :=
  ∀ e ∈ d, ∀ e' ∈ d, eq e.1 e'.1 = true → veq e.2 e'.2 = true

variable [Target]

/-- After any history, `m == m` returns, and answers whether the pairs that iteration shows have equal
values wherever they have equal keys. -/
def EqualsItselfIff (A : MapApi M K V K) (eq : K → K → Bool) (veq : V → V → Bool) (m : M) : Prop :=
  ∀ (ops : List (MapOp V K)) (r : List (Out K V) × M), A.run m ops = .ok r →
    ∃ b, A.partialEq veq r.2 r.2 = .ok b ∧ (b = true ↔ ValuesAgree eq veq (A.iter r.2).entries)

/-- After any histories, `m₁ == m₂` and `m₂ == m₃` imply `m₁ == m₃`. -/
def EqCarriesOver (A : MapApi M K V K) (veq : V → V → Bool) (m₁ m₂ m₃ : M) : Prop :=
  ∀ (ops₁ ops₂ ops₃ : List (MapOp V K)) (r₁ r₂ r₃ : List (Out K V) × M),
    A.run m₁ ops₁ = .ok r₁ → A.run m₂ ops₂ = .ok r₂ → A.run m₃ ops₃ = .ok r₃ →
    A.partialEq veq r₁.2 r₂.2 = .ok true → A.partialEq veq r₂.2 r₃.2 = .ok true →
    A.partialEq veq r₁.2 r₃.2 = .ok true

end FC
