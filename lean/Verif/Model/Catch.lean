import Verif.Model.IntTraits
import Verif.Spec.IntTraits

/-
Panics that the caller catches, with `std::panic::catch_unwind` around one operation at a time. Unlike
elsewhere, here a panic does not end the history: what the map holds at that moment is what the caller
finds afterwards. So the map is memory that code reads and writes, and a panic keeps what was written.
-/

set_option autoImplicit false

namespace FC
variable {σ M K V Q α β : Type}

/-- How code with the map in its hands ends. A panic leaves the map as it is at that moment. Model
device. -/
inductive Landed (σ M α : Type) where
  | done (a : α) (m : M) (s : σ)
  | panicked (m : M)
  | ub

/-- Code with the map in its hands. Model device. -/
def Holding (σ M α : Type) : Type := M → σ → Landed σ M α

/-- One after the other. Model device. -/
instance : Monad (Holding σ M) where
  pure a := fun m s => .done a m s
  bind c f := fun m s =>
    match c m s with
    | .done a m' s' => f a m' s'
    | .panicked m' => .panicked m'
    | .ub => .ub

/-- Code that reads the map and does not write to it: it has `&self`, as the code of all lookups does
(e.g. specialized_maps/common_map.rs:58-101), or makes no use of its `&mut self` but to hand out
references (104-118 and 121-145). -/
def Holding.read (c : M → Call σ α) : Holding σ M α := fun m s =>
  match c m s with
  | .ok r => .done r.1 m r.2
  | .panic => .panicked m
  | .ub => .ub

/-- `panic!()`. Model device. -/
def Holding.panic : Holding σ M α := fun m _ => .panicked m

/-- Undefined behaviour. Model device. -/
def Holding.ub : Holding σ M α := fun _ _ => .ub

/-- A write through a reference to entry `i`. Model device for the caller's `*r = v`. -/
def CallApi.assign (A : CallApi σ M K V Q) (i : Nat) (v : V) : Holding σ M Unit := fun m s =>
  .done () (A.write m i v) s

/-- The caller writes through references that it was handed, in turn, `*r = v`. With `some n` it panics
after `n` of the writes (or after the last, if there are fewer). The caller's code; the references come
from e.g. specialized_maps/common_map.rs:104-118 and 121-145. -/
def CallApi.writeAll (A : CallApi σ M K V Q) : List (Ref V × V) → Option Nat → Holding σ M Unit
  | _, some 0 => Holding.panic
  | [], none => pure ()
  | [], some (_ + 1) => Holding.panic
  | rv :: rvs, stop => do
    A.assign rv.1.idx rv.2
    CallApi.writeAll A rvs (stop.map (· - 1))

/-- One operation, and what the caller does with the outcome: `some n` if the caller panics after
`n` writes through the references handed out, none if it does not panic. -/
structure Attempt (V Q : Type) where
  op : MapOp V Q
  stop : Option Nat

/-- What an operation that does not write shows. E.g. specialized_maps/common_map.rs:58-101, 148-160. -/
def CallApi.show (A : CallApi σ M K V Q) (op : MapOp V Q) (m : M) : Call σ (Out K V) := do
  let r ← A.step m op
  return r.1

/-- Perform one operation and use the outcome. Two live `&mut` to one value are undefined behaviour.
E.g. specialized_maps/common_map.rs:104-118 (`get_mut`), 121-145 (`get_many_mut`), 225-231 (`index_mut`); the writes
are the caller's. -/
def CallApi.attempt (A : CallApi σ M K V Q) (x : Attempt V Q) : Holding σ M (Out K V) :=
  match x.op with
  | .getMut q v => do
    match ← Holding.read (A.lookup · q) with
    | some r =>
      A.writeAll [(r.2, v)] x.stop
      return .value (some r.2.val)
    | none =>
      A.writeAll [] x.stop
      return .value none
  | .indexMut q v => do
    match ← Holding.read (A.lookup · q) with
    | some r =>
      A.writeAll [(r.2, v)] x.stop
      return .value (some r.2.val)
    | none => Holding.panic
  | .getManyMut qvs => do
    match ← Holding.read (A.getManyMut · (qvs.map (·.1))) with
    | some rs =>
      if (rs.map Ref.idx).Nodup then
        A.writeAll (rs.zip (qvs.map (·.2))) x.stop
        return .many (some (rs.map Ref.val))
      else Holding.ub
    | none =>
      A.writeAll [] x.stop
      return .many none
  | op => do
    let out ← Holding.read (A.show op)
    A.writeAll [] x.stop
    return out

/-- `catch_unwind(|| ...)` around one operation: no outcome if it panicked. `left` is what the rest of
the program's state is then. The caller's code. -/
def CallApi.caught (A : CallApi σ M K V Q) (m : M) (x : Attempt V Q) (left : σ) :
    Call σ (Option (Out K V) × M) := fun s =>
  match A.attempt x m s with
  | .done out m' s' => .ok ((some out, m'), s')
  | .panicked m' => .ok ((none, m'), left)
  | .ub => .ub

/-- One after the other. The caller's code. -/
def CallApi.caughtRun (A : CallApi σ M K V Q) (m : M) :
    List (Attempt V Q × σ) → Call σ (List (Option (Out K V)) × M)
  | [] => pure ([], m)
  | x :: xs => do
    let r ← A.caught m x.1 x.2
    let rs ← CallApi.caughtRun A r.2 xs
    return (r.1 :: rs.1, rs.2)

/-- Build a map and use it, catching every panic after that. The caller's code. -/
def CallApi.caughtSession (A : CallApi σ M K V Q) (build : Call σ M) (xs : List (Attempt V Q × σ)) :
    Call σ (List (Option (Out K V)) × List (K × V)) := do
  let m ← build
  let r ← A.caughtRun m xs
  return (r.1, A.entries r.2)

end FC
