import Verif.Model.Threads

/-
Values with interior mutability: a shared map of atomics, mutexes or the like. `get` and `iter` give
`&V`, and with such a `V` a shared reference is enough to change the value. The map knows a value only by
the place it has; so the map is modelled with numbers of cells for values, and what is in the cells is in a
memory that all threads share. Every access to a cell is one step (`fetch_add`, `swap`, a `lock` with all
that is done under it); accesses of different threads, and the steps of their lookups, are interleaved in
any way. Accesses are seen by all threads in one order; weaker orderings are not modelled.
-/

set_option autoImplicit false

namespace FC
variable {K Q X R : Type}

/-- What a thread does with a shared map of cells. Model device over the `&self` methods. -/
inductive CellOp (Q X R : Type) where
  /-- `map.get(q).map(f)`, or `f(&map[q])` if `index`: specialized_maps/common_map.rs:68-82 and 216-218 -/
  | use (index : Bool) (q : Q) (f : X → X × R)
  /-- `map.values().map(f).collect()`: specialized_maps/common_map.rs:160-172 -/
  | each (f : X → X × R)

/-- What comes of it. Model device. -/
inductive CellAns (R : Type) where
  | one (o : Option R)
  | all (rs : List R)
deriving DecidableEq

/-- What a thread is in the middle of: a lookup, holding a reference that a lookup has given, or an
iteration, with a reference that `next` has given or without. Model device. -/
inductive CellDoing (E : Engine K Nat Q) (X R : Type) where
  | nothing
  | looking (index : Bool) (f : X → X × R) (s : E.State)
  | holding (f : X → X × R) (c : Nat)
  | visiting (f : X → X × R) (now : Option Nat) (it : MapIter K Nat) (rs : List R)

/-- A thread; what it does next depends on all that has come of what it did. Model device. -/
structure Worker (E : Engine K Nat Q) (X R : Type) where
  plan : List (CellAns R) → Option (CellOp Q X R)
  doing : CellDoing E X R
  outs : List (CellAns R)
  panicked : Bool

/-- A thread with its program. Model device. -/
def Worker.new (E : Engine K Nat Q) (plan : List (CellAns R) → Option (CellOp Q X R)) :
    Worker E X R := ⟨plan, .nothing, [], false⟩

/-- One access to a cell. There is no such cell: the reference is wild. Model device. -/
def accessCell (mem : List X) (c : Nat) (f : X → X × R) : Res (R × List X) :=
  match mem[c]? with
  | none => .ub
  | some x => .ok ((f x).2, mem.set c (f x).1)

/-- One step of a thread. Lookups as in `Reader.step` (specialized_maps/common_map.rs:68-82), then the access
through the reference found; iterations ask `next` for a reference (specialized_maps/iterators.rs:26-39) and
then access through it, in turn. -/
def Worker.step {E : Engine K Nat Q} (w : Worker E X R) (mem : List X) : Res (Worker E X R × List X) :=
  if w.panicked then .ok (w, mem)
  else match w.doing with
    | .nothing =>
      match w.plan w.outs with
      | none => .ok (w, mem)
      | some (.use index q f) =>
        match E.begin q with
        | .ok s => .ok ({ w with doing := .looking index f s }, mem)
        | .panic => .ok ({ w with panicked := true }, mem)
        | .ub => .ub
      | some (.each f) => .ok ({ w with doing := .visiting f none (MapIter.new E.entries) [] }, mem)
    | .looking index f s =>
      match E.step s with
      | .ok (.inr s') => .ok ({ w with doing := .looking index f s' }, mem)
      | .ok (.inl (some e)) => .ok ({ w with doing := .holding f e.2 }, mem)
      | .ok (.inl none) =>
        if index then .ok ({ w with panicked := true }, mem)
        else .ok ({ w with doing := .nothing, outs := w.outs ++ [.one none] }, mem)
      | .panic => .ok ({ w with panicked := true }, mem)
      | .ub => .ub
    | .holding f c => do
      let r ← accessCell mem c f
      return ({ w with doing := .nothing, outs := w.outs ++ [.one (some r.1)] }, r.2)
    | .visiting f (some c) it rs => do
      let r ← accessCell mem c f
      return ({ w with doing := .visiting f none it (rs ++ [r.1]) }, r.2)
    | .visiting f none it rs =>
      match it.next with
      | (some e, it') => .ok ({ w with doing := .visiting f (some e.2) it' rs }, mem)
      | (none, _) => .ok ({ w with doing := .nothing, outs := w.outs ++ [.all rs] }, mem)

/-- Threads taking turns as the scheduler says. Model device. -/
def runWorkers {E : Engine K Nat Q} : List Nat → List (Worker E X R) → List X →
    Res (List (Worker E X R) × List X)
  | [], ws, mem => .ok (ws, mem)
  | i :: σ, ws, mem =>
    match ws[i]? with
    | none => runWorkers σ ws mem
    | some w => do
      let r ← w.step mem
      runWorkers σ (ws.set i r.1) r.2

end FC
