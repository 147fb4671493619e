import Verif.Model.SetCode
import Verif.Spec.UserCode

/-
What may be asked of a set operation whose operands misbehave.
-/

set_option autoImplicit false

namespace FC
variable [Target]
variable {σ T : Type}

/-- The operand's code is safe Rust: no undefined behaviour of its own. It panics only if `p`. -/
structure USet.Safe (p : Prop) (s : USet σ T) : Prop where
  contains : ∀ x, Behaves False p (s.contains x) (fun _ => True)
  len : Behaves False p s.len (fun _ => True)

/-- The operand answers `contains` with `true` only for values in `In`, with `false` only for values
in `Out`. For an operand whose answers do not change these are opposites; for one whose answers
change, a value may be in both. -/
def USet.Claims (s : USet σ T) (In Out : T → Prop) : Prop :=
  ∀ x, Behaves True True (s.contains x) (fun b => if b = true then In x else Out x)

/-- The items an iterator will hand out. -/
def Feed.items (a : Feed T) : List T := a.filterMap id

/-- An answer that the `len` of an operand never departs from. -/
def USet.LenIs (s : USet σ T) (n : Nat) : Prop := Behaves True True s.len (fun l => l = n)

/-- The items handed out before the first `None`. -/
def Feed.upToNone : Feed T → List T
  | [] => []
  | none :: _ => []
  | some x :: as => x :: Feed.upToNone as

/-- Once it has answered `None`, the iterator answers nothing else. -/
def Feed.Fused (a : Feed T) : Prop := ∃ (items : List T) (n : Nat),
  a = items.map some ++ List.replicate n none

/-- `n` calls of `next`: the answers, and the iterator afterwards. -/
def ncalls {ι : Type} (next : ι → Call σ (Option T × ι)) : Nat → ι → Call σ (List (Option T) × ι)
  | 0, s => pure ([], s)
  | n + 1, s => do
    let r ← next s
    let rs ← ncalls next n r.2
    return (r.1 :: rs.1, rs.2)

/-- `l` consists of the items of `a` and those of `b`, each in its order. -/
inductive Interleave : List T → List T → List T → Prop
  | nil : Interleave [] [] []
  | left {x : T} {a b l : List T} : Interleave a b l → Interleave (x :: a) b (x :: l)
  | right {x : T} {a b l : List T} : Interleave a b l → Interleave a (x :: b) (x :: l)

/-- The items among `outs` are some of the items `a` hands out for which `P` holds, interleaved with
some of those `b` hands out for which `Q` holds: each in its order and none used twice. -/
def DrawnFrom (a b : Feed T) (P Q : T → Prop) (outs : List (Option T)) : Prop :=
  ∃ la lb : List T, la.Sublist a.items ∧ lb.Sublist b.items ∧ (∀ x ∈ la, P x) ∧ (∀ x ∈ lb, Q x) ∧
    Interleave la lb (Feed.items outs)

end FC
