import Verif.Spec

/-
Words used in the statements about iterating over sets and about set operations.
-/

set_option autoImplicit false

namespace FC
variable {T : Type}

/-- `into_iter` yields `es` once each, with exact counts at every point. -/
def YieldsExactly (it : SetIntoIter T) (payload : List T) : Prop :=
  ∃ es : List T, es.Perm payload ∧ ∀ n,
    let r := calls SetIntoIter.next n it
    r.1 = firstCalls es n ∧ r.2.len = es.length - n ∧
    r.2.sizeHint = (es.length - n, some (es.length - n)) ∧ r.2.count = es.length - n

/-- Going through a set by reference: a permutation of the payload, then `None`, with exact counts
at every point; `total` is what the set says its length is. -/
def VisitsExactly [Target] (it : SetIter T) (total : Nat) (payload : List T) : Prop :=
  total = payload.length ∧ ∃ es : List T, es.Perm payload ∧ ∀ (oc : Bool) (n : Nat),
    let r := calls SetIter.next n it
    r.1 = firstCalls es n ∧ r.2.len oc = .ok (payload.length - n) ∧
    r.2.sizeHint oc = .ok (payload.length - n, some (payload.length - n))

/-- Membership in the resulting `HashSet`, which holds no value twice. -/
def HasExactly (eq : T → T → Bool) (s : StdSet T) (P : T → Prop) : Prop :=
  Distinct eq s.items ∧ ∀ x, s.contains eq x = true ↔ P x

/-- `size_hint` brackets the number of items still to come. -/
def HintOK (hint : Nat × Option Nat) (remaining : Nat) : Prop :=
  hint.1 ≤ remaining ∧ ∀ u, hint.2 = some u → remaining ≤ u

/-- `get` and `contains` return for one probe and are correct: `get` gives an element the probe
matches, or nothing when it matches none, and `contains` says which. -/
def AnswersMember (matching : T → Bool) (payload : List T) (get : Res (Option T))
    (contains : Res Bool) : Prop :=
  ∃ o, get = .ok o ∧ contains = .ok o.isSome ∧
    (∀ x, o = some x → x ∈ payload ∧ matching x = true) ∧
    (o = none → ∀ x ∈ payload, matching x = false)

/-- The interface a set shows to set operations is consistent and presents the payload. -/
def Presents (eq : T → T → Bool) (s : SetI T) (payload : List T) : Prop :=
  Consistent eq s ∧ s.iter.Perm payload

end FC
