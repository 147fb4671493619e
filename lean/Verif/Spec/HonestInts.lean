import Verif.Spec.HonestCode
import Verif.Model.IntTraits

/-
Integer types of the caller's own that are right whenever they answer.
-/

set_option autoImplicit false

namespace FC
variable [Target]
variable {σ K V Q : Type}

/-- Whenever the code of the key type and of the probe type answers, it does arithmetic on the integers for
which keys (`num`) and probes (`numQ`) stand. It has state, and at any call it may panic, if `p`. Nothing is
asked of zero. -/
structure RangeCode.Honest (p : Prop) (c : RangeCode σ K V Q) (num : K → Int) (numQ : Q → Int) : Prop where
  zero : Behaves False p c.zero (fun _ => True)
  sort : ∀ l, Behaves False p (c.sort l) (fun l' => l'.Perm l ∧ l'.Pairwise (fun a b => num a.1 ≤ num b.1))
  span : ∀ a b, Behaves False p (c.span a b) (fun d => num d = num a - num b)
  spanSize : ∀ x, Behaves False p (c.spanSize x) (fun o => ∀ n, o = some n ↔ num x = n ∧ n < usz)
  ge : ∀ q k, Behaves False p (c.ge q k) (fun b => b = decide (num k ≤ numQ q))
  le : ∀ q k, Behaves False p (c.le q k) (fun b => b = decide (numQ q ≤ num k))
  sub : ∀ q k, Behaves False p (c.sub q k) (fun d => numQ d = numQ q - num k)
  toUsize : ∀ q, Behaves False p (c.toUsize q) (fun o => ∀ n, o = some n ↔ numQ q = n ∧ n < usz)
  same : ∀ a b, Behaves False p (c.same a b) (fun r => r = decide (numQ a = numQ b))

end FC
