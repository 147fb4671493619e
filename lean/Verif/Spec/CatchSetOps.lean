import Verif.Model.CatchSetOps
import Verif.Spec.SetCode
import Verif.Spec

/-
What a caller that catches panics sees of a set operation.
-/

set_option autoImplicit false

namespace FC
variable {σ T : Type}

/-- An operand that is right whenever it answers: it holds the items `l`. It has state, and at any call it
may panic, if `p`. -/
structure USet.Honest (p : Prop) (eq : T → T → Bool) (s : USet σ T) (l : List T) : Prop where
  iter : s.iter = l.map some
  contains : ∀ x, Behaves False p (s.contains x) (fun b => b = true ↔ Has eq l x)
  len : Behaves False p s.len (fun n => n = l.length)

/-- What is seen of an operation whose result is `E`, one call of `next` at a time, and what is still to
come. No answer means that the call panicked, which it may only if `p`.
* An item: the first of those to come.
* `None`: nothing is to come, then or later.
* A panic: nothing has changed, or the first item to come is lost. -/
inductive Lossy (p : Prop) : List T → List (Option (Option T)) → List T → Prop
  | nil (E : List T) : Lossy p E [] E
  | item {x : T} {E E' : List T} {os : List (Option (Option T))} :
      Lossy p E os E' → Lossy p (x :: E) (some (some x) :: os) E'
  | finished {E' : List T} {os : List (Option (Option T))} :
      Lossy p [] os E' → Lossy p [] (some none :: os) E'
  | panicked {E E' : List T} {os : List (Option (Option T))} :
      p → Lossy p E os E' → Lossy p E (none :: os) E'
  | lost {x : T} {E E' : List T} {os : List (Option (Option T))} :
      p → Lossy p E os E' → Lossy p (x :: E) (none :: os) E'

/-- The items among the answers. -/
def seen (os : List (Option (Option T))) : List T := os.filterMap Option.join

/-- How many calls panicked. -/
def panics (os : List (Option (Option T))) : Nat := os.countP Option.isNone

/-- `R` is the result of the operation on sets of the items `l₁` and `l₂`: the right values, each once, and
each of them an item of one of the sets. -/
structure SetOp.Result (eq : T → T → Bool) (op : SetOp) (l₁ l₂ R : List T) : Prop where
  distinct : Distinct eq R
  values : ∀ x, Has eq R x ↔ match op with
    | .union => Has eq l₁ x ∨ Has eq l₂ x
    | .intersection => Has eq l₁ x ∧ Has eq l₂ x
    | .difference => Has eq l₁ x ∧ ¬ Has eq l₂ x
    | .symmetricDifference => (Has eq l₁ x ∧ ¬ Has eq l₂ x) ∨ (Has eq l₂ x ∧ ¬ Has eq l₁ x)
  items : ∀ x ∈ R, x ∈ l₁ ∨ x ∈ l₂

end FC
