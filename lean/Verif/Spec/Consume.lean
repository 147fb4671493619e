import Verif.Model.Consume
import Verif.Spec.Drops
import Verif.Spec.SetLookups

/-
Consuming a set without the account of what is dropped, and what the element type's code may do.
-/

set_option autoImplicit false

namespace FC
variable {σ K Q : Type}

/-- The element type's `Clone` and `Debug` answer anything, and panic only if `p`. -/
structure ElemCode.Safe (p : Prop) (c : ElemCode σ K) : Prop where
  clone : ∀ k, Behaves False p (c.clone k) (fun _ => True)
  fmt : ∀ k, Behaves False p (c.fmt k) (fun _ => True)

/-- `listO` without the account. -/
def ElemCode.list (c : ElemCode σ K) : List (K × Unit) → Bool → Call σ Bool
  | [], ok => pure ok
  | e :: es, ok => do
    let ok' ← (if ok then c.fmt e.1 else pure false)
    ElemCode.list c es ok'

/-- `SetIntoIter.cloneO` without the account. -/
def SetIntoIter.cloneU (c : ElemCode σ K) (it : SetIntoIter K) : Call σ (SetIntoIter K) := do
  let es ← Call.mapList (fun e : K × Unit => do return (← c.clone e.1, ← pure ())) it.rest
  return ⟨es⟩

/-- `Takers.stepO` without the account. -/
def Takers.step (c : ElemCode σ K) (t : Takers K) : TakeOp → Call σ (TakeOut K × Takers K)
  | .next i =>
    match t.its[i]? with
    | some (some it) =>
      match it.next with
      | (some x, it') => pure (.item (some x), ⟨t.its.set i (some it'), t.got ++ [x]⟩)
      | (none, it') => pure (.item none, ⟨t.its.set i (some it'), t.got⟩)
    | _ => pure (.nothing, t)
  | .len i =>
    match t.its[i]? with
    | some (some it) => pure (.number it.len, t)
    | _ => pure (.nothing, t)
  | .debug i =>
    match t.its[i]? with
    | some (some it) => do
      let copy ← it.cloneU c
      let ok ← c.list copy.rest true
      return (.formatted ok, t)
    | _ => pure (.nothing, t)
  | .clone i =>
    match t.its[i]? with
    | some (some it) => do
      let copy ← it.cloneU c
      return (.nothing, ⟨t.its ++ [some copy], t.got⟩)
    | _ => pure (.nothing, t)
  | .count i =>
    match t.its[i]? with
    | some (some it) => pure (.number it.count, ⟨t.its.set i none, t.got⟩)
    | _ => pure (.nothing, t)
  | .drop i =>
    match t.its[i]? with
    | some (some _) => pure (.nothing, ⟨t.its.set i none, t.got⟩)
    | _ => pure (.nothing, t)
  | .panic => Call.lift .panic

/-- `Takers.runO` without the account. -/
def Takers.run (c : ElemCode σ K) (t : Takers K) : List TakeOp → Call σ (List (TakeOut K) × Takers K)
  | [] => pure ([], t)
  | op :: ops => do
    let r ← t.step c op
    let rs ← Takers.run c r.2 ops
    return (r.1 :: rs.1, rs.2)

/-- `UMap.takeSessionO` without the account. -/
def UMap.takeSession (u : UserCode σ K Q) (c : ElemCode σ K) (build : Call σ (UMap K Unit))
    (asks : List (SetAsk Q)) (ops : List TakeOp) :
    Call σ (List (SetAns K) × List (TakeOut K) × Takers K) := do
  let m ← build
  let outs ← m.asks u asks
  let r ← m.intoTakers.run c ops
  return (outs, r.1, r.2)

/-- The element type's `Clone` answers what it was given, and its `Debug` is never refused. Both may panic
and change state. -/
structure ElemCode.Faithful (c : ElemCode σ K) : Prop where
  clone : ∀ k s r, c.clone k s = .ok r → r.1 = k
  fmt : ∀ k s r, c.fmt k s = .ok r → r.1 = true

/-- What iterators are answered that are plain lists of what they have left, `none` once gone. -/
def listsStep (its : List (Option (List K))) : TakeOp → TakeOut K × List (Option (List K))
  | .next i =>
    match its[i]? with
    | some (some (x :: xs)) => (.item (some x), its.set i (some xs))
    | some (some []) => (.item none, its)
    | _ => (.nothing, its)
  | .len i =>
    match its[i]? with
    | some (some xs) => (.number xs.length, its)
    | _ => (.nothing, its)
  | .debug i =>
    match its[i]? with
    | some (some _) => (.formatted true, its)
    | _ => (.nothing, its)
  | .clone i =>
    match its[i]? with
    | some (some xs) => (.nothing, its ++ [some xs])
    | _ => (.nothing, its)
  | .count i =>
    match its[i]? with
    | some (some xs) => (.number xs.length, its.set i none)
    | _ => (.nothing, its)
  | .drop i =>
    match its[i]? with
    | some (some _) => (.nothing, its.set i none)
    | _ => (.nothing, its)
  | .panic => (.nothing, its)

/-- One after the other. -/
def listsRun (its : List (Option (List K))) : List TakeOp → List (TakeOut K)
  | [] => []
  | op :: ops => (listsStep its op).1 :: listsRun (listsStep its op).2 ops

/-- The elements handed out among some answers. -/
def handedOut (outs : List (TakeOut K)) : List K :=
  outs.filterMap fun
    | .item x => x
    | _ => none

end FC
