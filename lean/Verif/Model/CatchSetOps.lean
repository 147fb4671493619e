import Verif.Model.Catch
import Verif.Model.SetCode

/-
The set-operation iterators once more, this time held by a caller that catches the panics of `next`, with
`std::panic::catch_unwind` around one call at a time. The iterator is memory that `next` reads and writes:
an item taken from an operand's iterator stays taken if the test of that item panics.
-/

set_option autoImplicit false

namespace FC
variable {σ T : Type}

/-- `s1_iter.next()`. specialized_sets/iterators.rs:158. -/
def UBin.take1 : Holding σ (UBin σ T) (Option T) := fun b s =>
  .done b.it1.next.1 { b with it1 := b.it1.next.2 } s

/-- `s2_iter.next()`. specialized_sets/iterators.rs:170. -/
def UBin.take2 : Holding σ (UBin σ T) (Option T) := fun b s =>
  .done b.it2.next.1 { b with it2 := b.it2.next.2 } s

/-- `loop { let item = iter.next()?; if contains(item) == want { return Some(item) } }`, where `put` stores
the iterator's position. The item whose test panics has been taken. specialized_sets/iterators.rs:163-168,
175-180, 262-272, 274-279, 358-363, 444-449, 451-456. -/
def skipToH (want : Bool) (contains : T → Call σ Bool) (put : Feed T → UBin σ T) :
    Feed T → σ → Landed σ (UBin σ T) (Option T)
  | [], s => .done none (put []) s
  | none :: as, s => .done none (put as) s
  | some x :: as, s =>
    match contains x s with
    | .ok r => if r.1 = want then .done (some x) (put as) r.2 else skipToH want contains put as r.2
    | .panic => .panicked (put as)
    | .ub => .ub

/-- The loop over the first iterator, testing against the second set. specialized_sets/iterators.rs:175-180,
262-272, 358-363, 444-449. -/
def UBin.skip1 (want : Bool) : Holding σ (UBin σ T) (Option T) := fun b s =>
  skipToH want b.s2.contains (fun as => { b with it1 := as }) b.it1 s

/-- The loop over the second iterator, testing against the first set. specialized_sets/iterators.rs:163-168,
274-279, 451-456. -/
def UBin.skip2 (want : Bool) : Holding σ (UBin σ T) (Option T) := fun b s =>
  skipToH want b.s1.contains (fun as => { b with it2 := as }) b.it2 s

/-- specialized_sets/iterators.rs:156-182 (`Union::next`). -/
def UBin.unionNextH : Holding σ (UBin σ T) (Option T) := do
  let l1 ← Holding.read (fun b => b.s1.len)
  let l2 ← Holding.read (fun b => b.s2.len)
  if l1 > l2 then
    match ← UBin.take1 with
    | some x => return some x
    | none => UBin.skip2 false
  else
    match ← UBin.take2 with
    | some x => return some x
    | none => UBin.skip1 false

/-- specialized_sets/iterators.rs:261-280 (`SymmetricDifference::next`). -/
def UBin.symDiffNextH : Holding σ (UBin σ T) (Option T) := do
  match ← UBin.skip1 false with
  | some x => return some x
  | none => UBin.skip2 false

/-- specialized_sets/iterators.rs:442-458 (`Intersection::next`). -/
def UBin.intersectionNextH : Holding σ (UBin σ T) (Option T) := do
  let l1 ← Holding.read (fun b => b.s1.len)
  let l2 ← Holding.read (fun b => b.s2.len)
  if l1 < l2 then UBin.skip1 true else UBin.skip2 true

/-- `next` of each, as for `SetOp.next`; `Difference::next` is specialized_sets/iterators.rs:357-364. -/
def SetOp.nextH : SetOp → Holding σ (UBin σ T) (Option T)
  | .union => UBin.unionNextH
  | .intersection => UBin.intersectionNextH
  | .difference => UBin.skip1 false
  | .symmetricDifference => UBin.symDiffNextH

/-- `catch_unwind(|| iter.next())`: no answer if it panicked. `left` is what the rest of the program's state
is then. The caller's code, around specialized_sets/iterators.rs:156-182, 261-280, 357-364, 442-458. -/
def SetOp.caughtNext (op : SetOp) (b : UBin σ T) (left : σ) :
    Call σ (Option (Option T) × UBin σ T) := fun s =>
  match op.nextH b s with
  | .done o b' s' => .ok ((some o, b'), s')
  | .panicked b' => .ok ((none, b'), left)
  | .ub => .ub

/-- One call after the other. The caller's code. -/
def SetOp.draw (op : SetOp) (b : UBin σ T) : List σ → Call σ (List (Option (Option T)) × UBin σ T)
  | [] => pure ([], b)
  | left :: ls => do
    let r ← op.caughtNext b left
    let rs ← SetOp.draw op r.2 ls
    return (r.1 :: rs.1, rs.2)

end FC
