import Verif.Model.UserCode
import Verif.Model.Iter

/-
The set operations once more, this time over operands that are arbitrary code. `Set<T>` is a public
trait, so an operand may be any type with its own `iter`, `contains` and `len`; and a library set
calls the `Hash` and `Eq` of its elements. Every such call reads and changes a hidden state and may
panic. Lemmas/SetCode.lean proves that for operands that are functions of their arguments these
definitions are those of Model/Iter.lean and Model/Sets.lean.
-/

set_option autoImplicit false

namespace FC
variable [Target]
variable {σ T : Type}

/-- An iterator of an operand: its answers to coming calls of `next`, in order. After the last it
answers `None` for ever, but it may answer `None` earlier and then go on (the trait does not ask for
`FusedIterator`). Simplification: an iterator that never stops answering `Some` is left out; with one,
the loops below need not end. An implementation of `Set::iter`, specialized_sets/set.rs:9-181. -/
abbrev Feed (T : Type) := List (Option T)

/-- `next`. The caller's; called from specialized_sets/iterators.rs:156-182. -/
def Feed.next : Feed T → Option T × Feed T
  | [] => (none, [])
  | a :: as => (a, as)

/-- A value of a type implementing `Set<T>` (specialized_sets/set.rs:9-181). -/
structure USet (σ T : Type) where
  iter : Feed T
  contains : T → Call σ Bool
  len : Call σ Nat

/-- State of a set-operation iterator (specialized_sets/iterators.rs:122-132, 227-237, 325-334,
408-418; `Difference` has no second iterator, its `it2` stays unused). -/
structure UBin (σ T : Type) where
  s1 : USet σ T
  it1 : Feed T
  s2 : USet σ T
  it2 : Feed T

/-- specialized_sets/iterators.rs:139-146, 244-251, 341-347, 425-432 (`new`). -/
def UBin.new (s1 s2 : USet σ T) : UBin σ T := ⟨s1, s1.iter, s2, s2.iter⟩

/-- `loop { let item = iter.next()?; if contains(item) == want { return Some(item) } }`
(specialized_sets/iterators.rs:163-168, 175-180, 262-272, 274-279, 358-363, 444-449, 451-456). -/
def skipToU (want : Bool) (contains : T → Call σ Bool) : Feed T → Call σ (Option T × Feed T)
  | [] => pure (none, [])
  | none :: as => pure (none, as)
  | some x :: as => do
    if (← contains x) = want then return (some x, as) else skipToU want contains as

namespace UBin

/-- specialized_sets/iterators.rs:156-182 (`Union::next`). -/
def unionNext (s : UBin σ T) : Call σ (Option T × UBin σ T) := do
  let l1 ← s.s1.len
  let l2 ← s.s2.len
  if l1 > l2 then
    match s.it1.next with
    | (some x, r) => return (some x, { s with it1 := r })
    | (none, r) =>
      let o ← skipToU false s.s1.contains s.it2
      return (o.1, { s with it1 := r, it2 := o.2 })
  else
    match s.it2.next with
    | (some x, r) => return (some x, { s with it2 := r })
    | (none, r) =>
      let o ← skipToU false s.s2.contains s.it1
      return (o.1, { s with it2 := r, it1 := o.2 })

/-- specialized_sets/iterators.rs:261-280 (`SymmetricDifference::next`). -/
def symDiffNext (s : UBin σ T) : Call σ (Option T × UBin σ T) := do
  let o ← skipToU false s.s2.contains s.it1
  match o.1 with
  | some x => return (some x, { s with it1 := o.2 })
  | none =>
    let o2 ← skipToU false s.s1.contains s.it2
    return (o2.1, { s with it1 := o.2, it2 := o2.2 })

/-- specialized_sets/iterators.rs:357-364 (`Difference::next`). -/
def differenceNext (s : UBin σ T) : Call σ (Option T × UBin σ T) := do
  let o ← skipToU false s.s2.contains s.it1
  return (o.1, { s with it1 := o.2 })

/-- specialized_sets/iterators.rs:442-458 (`Intersection::next`). -/
def intersectionNext (s : UBin σ T) : Call σ (Option T × UBin σ T) := do
  let l1 ← s.s1.len
  let l2 ← s.s2.len
  if l1 < l2 then
    let o ← skipToU true s.s2.contains s.it1
    return (o.1, { s with it1 := o.2 })
  else
    let o ← skipToU true s.s1.contains s.it2
    return (o.1, { s with it2 := o.2 })

end UBin

/-- `iter.all(p)`: stops at the first failure or at the first `None`. std, called at
specialized_sets/set_ops.rs:10, 12, 23, 36. -/
def Feed.all (p : T → Call σ Bool) : Feed T → Call σ Bool
  | [] => pure true
  | none :: _ => pure true
  | some x :: as => do
    if ← p x then Feed.all p as else return false

namespace USet

/-- specialized_sets/set_ops.rs:3-14 (`is_disjoint`); the test asks `s1` for its length twice, as in
the source. -/
def isDisjoint (s1 s2 : USet σ T) : Call σ Bool := do
  let a ← s1.len
  let b ← s1.len
  if a ≤ b then s1.iter.all (fun v => do return !(← s2.contains v))
  else s2.iter.all (fun v => do return !(← s1.contains v))

/-- specialized_sets/set_ops.rs:16-27 (`is_subset`). -/
def isSubset (s1 s2 : USet σ T) : Call σ Bool := do
  let a ← s1.len
  let b ← s2.len
  if a ≤ b then s1.iter.all s2.contains else return false

/-- specialized_sets/set_ops.rs:29-40 (`is_superset`). -/
def isSuperset (s1 s2 : USet σ T) : Call σ Bool := do
  let a ← s2.len
  let b ← s1.len
  if a ≤ b then s2.iter.all s1.contains else return false

/-- The `PartialEq<ST: Set>` of every specialized set (lines at `SetI.eq` in Model/Sets.lean). E.g.
specialized_sets/common_set.rs:352-358. -/
def eq (s1 s2 : USet σ T) : Call σ Bool := do
  let a ← s1.len
  let b ← s2.len
  if a ≠ b then return false else s1.iter.all s2.contains

end USet

/-- The `Set` implementation of the scanning, common, integer, length and slice sets, and of
`FrozenSet` over an element type of the caller's own: `contains` looks the value up in the wrapped
map (scanning_set.rs:44-50, common_set.rs:156-162, integer_set.rs:43-49, length_set.rs:48-54,
left_slice_set.rs:71-77, right_slice_set.rs:71-77, facades/frozen_set.rs:312-316). -/
def UMap.toSet (u : UserCode σ T T) (m : UMap T Unit) : USet σ T where
  iter := m.entries.map (fun e => some e.1)
  contains x := do return (← m.lookup u x).isSome
  len := pure m.len

/-- The four iterators that `Set` hands out, specialized_sets/set.rs:54-160. -/
inductive SetOp where
  | union | intersection | difference | symmetricDifference
  deriving DecidableEq

/-- `next` of each, specialized_sets/iterators.rs:156 (union), 442 (intersection), 357 (difference), 261
(symmetric difference). -/
def SetOp.next : SetOp → UBin σ T → Call σ (Option T × UBin σ T)
  | .union => UBin.unionNext
  | .intersection => UBin.intersectionNext
  | .difference => UBin.differenceNext
  | .symmetricDifference => UBin.symDiffNext

end FC
