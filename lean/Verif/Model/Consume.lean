import Verif.Model.Drops

/-
Consuming a set: `into_iter` of the specialized sets, with every move of an element. The iterator is a
`std::vec::IntoIter`, which owns the elements not yet handed out. (There is no consuming iterator over
maps or over the facades.)
-/

set_option autoImplicit false

namespace FC
variable [Target] {σ K Q : Type}

/-- The code of the element type that the iterator calls: its `Clone` and its `Debug`, which answers
whether the formatter accepted the output. Parameter for `T` of specialized_sets/iterators.rs:112-119. -/
structure ElemCode (σ K : Type) where
  clone : K → Call σ K
  fmt : K → Call σ Bool

/-- What a caller does with its consuming iterators, which are numbered in the order in which they came
into being. -/
inductive TakeOp where
  /-- `it.next()` -/
  | next (i : Nat)
  /-- `it.len()` -/
  | len (i : Nat)
  /-- `format!("{:?}", it)` -/
  | debug (i : Nat)
  /-- `it.clone()` -/
  | clone (i : Nat)
  /-- `it.count()` -/
  | count (i : Nat)
  /-- `drop(it)` -/
  | drop (i : Nat)
  /-- the caller panics -/
  | panic
deriving DecidableEq

/-- What it is answered. -/
inductive TakeOut (K : Type) where
  | item (x : Option K)
  | number (n : Nat)
  | formatted (ok : Bool)
  | nothing
deriving DecidableEq

/-- What the caller has: its iterators (`none` once dropped) and the elements they handed out. Model
device: the caller's variables. -/
structure Takers (K : Type) where
  its : List (Option (SetIntoIter K))
  got : List K

/-- What an iterator owns. specialized_sets/iterators.rs:72-74. -/
def SetIntoIter.owned (it : SetIntoIter K) : List (Thing K Unit) := things it.rest

/-- What is owned by an iterator that may have been dropped. Model device. -/
def ownedBy : Option (SetIntoIter K) → List (Thing K Unit)
  | some it => it.owned
  | none => []

/-- What the caller owns. Model device. -/
def Takers.owned (t : Takers K) : List (Thing K Unit) :=
  t.its.flatMap ownedBy ++ t.got.map .key

/-- The derived `Clone` of specialized_sets/iterators.rs:71, std's `vec::IntoIter::clone`: clone the
elements left, first to last. -/
def SetIntoIter.cloneO (c : ElemCode σ K) (it : SetIntoIter K) : Own σ K Unit (SetIntoIter K) := do
  let es ← cloneEntriesO c.clone (fun _ => pure ()) it.rest []
  return ⟨es⟩

/-- `f.debug_list().entries(iter)`: each element is formatted, unless the formatter has refused an earlier
one, and then dropped. std; called at specialized_sets/iterators.rs:117. -/
def listO (c : ElemCode σ K) : List (K × Unit) → Bool → Own σ K Unit Bool
  | [], ok => pure ok
  | e :: es, ok => do
    Own.drop [.value e.2]
    let ok' ← (if ok then Own.holding (.key e.1 :: things es) (Own.call (c.fmt e.1)) else pure false)
    Own.drop [.key e.1]
    listO c es ok'

/-- specialized_sets/iterators.rs:112-119 (`Debug`): of a clone, which is used up. -/
def SetIntoIter.debugO (c : ElemCode σ K) (it : SetIntoIter K) : Own σ K Unit Bool := do
  let copy ← it.cloneO c
  listO c copy.rest true

/-- One step of a caller that owns iterators and elements: specialized_sets/iterators.rs:87-90 (`next`), 105-107
(`len`), 112-119 (`fmt`), 71 (`clone`), 96-101 (`count`). What is done with an iterator that is not there
does nothing. -/
def Takers.stepO (c : ElemCode σ K) (t : Takers K) : TakeOp → Own σ K Unit (TakeOut K × Takers K)
  | .next i =>
    match t.its[i]? with
    | some (some it) =>
      match it.next with
      | (some x, it') => do
        Own.drop [.value ()]
        return (.item (some x), ⟨t.its.set i (some it'), t.got ++ [x]⟩)
      | (none, it') => pure (.item none, ⟨t.its.set i (some it'), t.got⟩)
    | _ => pure (.nothing, t)
  | .len i =>
    match t.its[i]? with
    | some (some it) => pure (.number it.len, t)
    | _ => pure (.nothing, t)
  | .debug i =>
    match t.its[i]? with
    | some (some it) => do
      let ok ← Own.holding t.owned (it.debugO c)
      return (.formatted ok, t)
    | _ => pure (.nothing, t)
  | .clone i =>
    match t.its[i]? with
    | some (some it) => do
      let copy ← Own.holding t.owned (it.cloneO c)
      return (.nothing, ⟨t.its ++ [some copy], t.got⟩)
    | _ => pure (.nothing, t)
  | .count i =>
    match t.its[i]? with
    | some (some it) => do
      Own.drop it.owned
      return (.number it.count, ⟨t.its.set i none, t.got⟩)
    | _ => pure (.nothing, t)
  | .drop i =>
    match t.its[i]? with
    | some (some it) => do
      Own.drop it.owned
      return (.nothing, ⟨t.its.set i none, t.got⟩)
    | _ => pure (.nothing, t)
  | .panic => Own.holding t.owned (Own.call (Call.lift .panic))

/-- One step after the other. Model device: the caller's code. -/
def Takers.runO (c : ElemCode σ K) (t : Takers K) :
    List TakeOp → Own σ K Unit (List (TakeOut K) × Takers K)
  | [] => pure ([], t)
  | op :: ops => do
    let r ← t.stepO c op
    let rs ← Takers.runO c r.2 ops
    return (r.1 :: rs.1, rs.2)

/-- `set.into_iter()`: the set's other fields are dropped, the entries move into the iterator.
specialized_sets/common_set.rs:219-221, scanning_set.rs:77-79 and counterparts;
specialized_sets/iterators.rs:77-81. -/
def UMap.intoTakers (m : UMap K Unit) : Takers K := ⟨[some (SetIntoIter.new m.entries)], []⟩

/-- Build a set, ask it things, consume it. Model device: the caller's code. -/
def UMap.takeSessionO (u : UserCode σ K Q) (c : ElemCode σ K) (build : Own σ K Unit (UMap K Unit))
    (asks : List (SetAsk Q)) (ops : List TakeOp) :
    Own σ K Unit (List (SetAns K) × List (TakeOut K) × Takers K) := do
  let m ← build
  let outs ← Own.holding (things m.entries) (Own.call (m.asks u asks))
  let r ← m.intoTakers.runO c ops
  return (outs, r.1, r.2)

/-- The same, and then the iterators and the elements in hand go out of scope. Model device: the caller's
code. -/
def UMap.consumeSessionO (u : UserCode σ K Q) (c : ElemCode σ K) (build : Own σ K Unit (UMap K Unit))
    (asks : List (SetAsk Q)) (ops : List TakeOp) :
    Own σ K Unit (List (SetAns K) × List (TakeOut K)) := do
  let r ← UMap.takeSessionO u c build asks ops
  Own.drop r.2.2.owned
  return (r.1, r.2.1)

end FC
