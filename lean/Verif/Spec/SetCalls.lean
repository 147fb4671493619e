import Verif.Spec.SetCode
import Verif.Spec.EqCalls

/-
Which membership tests a set operation makes, in which order. The tests are the work: each is a
lookup in one of the operands.
-/

set_option autoImplicit false

namespace FC
variable {σ T E : Type}

/-- One of the two operands. -/
inductive Operand where
  | first | second
  deriving DecidableEq

/-- A membership test: the operand asked, the value asked about, the answer. -/
structure Test (T : Type) where
  asked : Operand
  item : T
  answer : Bool
  deriving DecidableEq

/-- A set that hands out `items` and reports their number. What it answers to a membership test is
left open: any code. The tests are logged. -/
def testedSet (who : Operand) (items : List T) (contains : T → Call σ Bool) :
    USet (σ × List (Test T)) T where
  iter := items.map some
  contains x := (contains x).noted (⟨who, x, ·⟩)
  len := pure items.length

/-- The operand `who` is asked about `xs`, one after another, until `n` of them got the answer `want`:
those are `found`, and no value is tested once they are. If fewer get that answer, all are tested. -/
structure Sifts (who : Operand) (want : Bool) (xs : List T) (n : Nat) (found : List T)
    (ev : List (Test T)) : Prop where
  asked : ∀ e ∈ ev, e.asked = who
  inOrder : ev.map (·.item) <+: xs
  found_eq : found = (ev.filter (fun e => e.answer = want)).map (·.item)
  stops : (found.length = n ∧ ∀ e, ev.getLast? = some e → e.answer = want) ∨
    (found.length < n ∧ ev.map (·.item) = xs)

/-- The operand `who` is asked about `xs`, one after another, up to the first answer that is not
`want`; `all` says that there was none. -/
structure AsksUntil (who : Operand) (want : Bool) (xs : List T) (all : Bool) (ev : List (Test T)) :
    Prop where
  asked : ∀ e ∈ ev, e.asked = who
  inOrder : ev.map (·.item) <+: xs
  earlier : ∀ e ∈ ev.dropLast, e.answer = want
  all_true : all = true → ev.map (·.item) = xs ∧ ∀ e ∈ ev, e.answer = want
  all_false : all = false → ∃ e, ev.getLast? = some e ∧ e.answer ≠ want

/-- What `n` calls of `next` answer when `l` are the items, and `None` ever after. -/
def answers (n : Nat) (l : List T) : List (Option T) :=
  l.map some ++ List.replicate (n - l.length) none

/-- `op` between sets that hand out `xs` and `ys`, and `n` calls of `next`: the answers and the tests
made.

* union: the larger operand's items, untested; then those of the smaller that the larger denies;
* intersection: the items of the smaller operand that the larger claims;
* difference: the items of the first that the second denies;
* symmetric difference: the items of the first that the second denies, then those of the second that
  the first denies. -/
def OpTests (xs ys : List T) (n : Nat) : SetOp → List (Option T) → List (Test T) → Prop
  | .union, outs, ev => ∃ found,
    if xs.length > ys.length then
      Sifts .first false ys (n - xs.length) found ev ∧ outs = answers n (xs.take n ++ found)
    else Sifts .second false xs (n - ys.length) found ev ∧ outs = answers n (ys.take n ++ found)
  | .intersection, outs, ev => ∃ found,
    (if xs.length < ys.length then Sifts .second true xs n found ev
      else Sifts .first true ys n found ev) ∧ outs = answers n found
  | .difference, outs, ev => ∃ found, Sifts .second false xs n found ev ∧ outs = answers n found
  | .symmetricDifference, outs, ev => ∃ found₁ found₂ ev₁ ev₂, ev = ev₁ ++ ev₂ ∧
    Sifts .second false xs n found₁ ev₁ ∧ Sifts .first false ys (n - found₁.length) found₂ ev₂ ∧
    outs = answers n (found₁ ++ found₂)

/-- The predicates on two sets (specialized_sets/set_ops.rs, and `PartialEq`). -/
inductive SetPred where
  | isSubset | isSuperset | isDisjoint | eq
  deriving DecidableEq

/-- Ask one of them. -/
def SetPred.ask : SetPred → USet σ T → USet σ T → Call σ Bool
  | .isSubset, a, b => a.isSubset b
  | .isSuperset, a, b => a.isSuperset b
  | .isDisjoint, a, b => a.isDisjoint b
  | .eq, a, b => a.eq b

/-- The tests a predicate makes. `is_disjoint` goes through the first set even if the second is
smaller. -/
def PredTests (xs ys : List T) : SetPred → Bool → List (Test T) → Prop
  | .isSubset, r, ev =>
    if xs.length ≤ ys.length then AsksUntil .second true xs r ev else r = false ∧ ev = []
  | .isSuperset, r, ev =>
    if ys.length ≤ xs.length then AsksUntil .first true ys r ev else r = false ∧ ev = []
  | .isDisjoint, r, ev => AsksUntil .second false xs r ev
  | .eq, r, ev =>
    if xs.length = ys.length then AsksUntil .second true xs r ev else r = false ∧ ev = []

/-- `ev` are the events of the tests, one test after another; `R` says which events a test consists
of. -/
def Details (R : Test T → List E → Prop) (tests : List (Test T)) (ev : List E) : Prop :=
  ∃ evs, List.Forall₂ R tests evs ∧ ev = evs.flatten

/-- How many tests `op` should need at most, between sets of `m` and `n` elements. -/
def SetOp.bound (m n : Nat) : SetOp → Nat
  | .union | .intersection => min m n
  | .difference => m
  | .symmetricDifference => m + n

/-- Is this a hash of a value asked about? -/
def CallEvent.isHash : CallEvent T T → Bool
  | .hashed _ _ => true
  | _ => false

variable [Target]

/-- The calls that build a `FrozenSet` over `payload`: its elements in stored order, its layout, and
the events. Fewer than four elements are only listed. -/
def SetLaysOut (payload elems : List T) (lay : Option Layout) (ev : List (CallEvent T T)) : Prop :=
  if payload.length < 4 then lay = none ∧ elems = payload ∧ ev = []
  else ∃ l, lay = some l ∧ LaysOut (payload.map (fun x => (x, ()))) elems l ev

/-- The calls of a test: a lookup of the value in the elements of the operand asked. -/
def Test.Looks (elems₁ elems₂ : List T) (lay₁ lay₂ : Option Layout) (t : Test T)
    (ev : List (CallEvent T T)) : Prop :=
  ∃ o : Option (T × Unit), t.answer = o.isSome ∧
    match t.asked with
    | .first => FC.Looks (elems₁.map (fun x => (x, ()))) t.item lay₁ o ev
    | .second => FC.Looks (elems₂.map (fun x => (x, ()))) t.item lay₂ o ev

/-- Build two `FrozenSet`s, start a set operation and call `next` `n` times. Shows the elements of
both in stored order, and the answers. -/
def operationSession (env : Env) (u : UserCode σ T T) (payload₁ payload₂ : List T) (op : SetOp)
    (n : Nat) : Call σ (List T × List T × List (Option T)) := do
  let a ← UMap.facade env u (payload₁.map (fun x => (x, ())))
  let b ← UMap.facade env u (payload₂.map (fun x => (x, ())))
  let r ← ncalls op.next n (UBin.new (a.toSet u) (b.toSet u))
  return (a.entries.map (·.1), b.entries.map (·.1), r.1)

/-- Build two `FrozenSet`s and ask a predicate of them. -/
def predicateSession (env : Env) (u : UserCode σ T T) (payload₁ payload₂ : List T) (pred : SetPred) :
    Call σ (List T × List T × Bool) := do
  let a ← UMap.facade env u (payload₁.map (fun x => (x, ())))
  let b ← UMap.facade env u (payload₂.map (fun x => (x, ())))
  let r ← pred.ask (a.toSet u) (b.toSet u)
  return (a.entries.map (·.1), b.entries.map (·.1), r)

end FC
