import Verif.Model.Threads
import Verif.Model.UserCode
import Verif.Spec.UserCode

/-
Several threads reading one map at the same time, this time with arbitrary code for the key type. That
code is `Sync`, but may use state shared between the threads (atomics, locks, globals), may answer
differently from call to call and may panic. Each call into it is a step, the steps of different threads
are interleaved in any way, and in between anything else in the program may change the state. (That other
threads may run in the middle of such a call is covered too: the hidden state may contain whatever the
answer of the call depends on.)
-/

set_option autoImplicit false

namespace FC

variable {σ K V Q : Type}

/-- The first step of a lookup: hash the probe and find the entries to look at. specialized_maps/common_map.rs:58-64
and 73-74 and its counterparts; scanning_map.rs:31-36 has nothing to hash. -/
def UMap.start (u : UserCode σ K Q) (m : UMap K V) (q : Q) : Call σ (List (K × V)) :=
  match m with
  | .scanning es => pure es
  | .hashed T => do
    let code ← u.probeCode q
    let r ← Call.lift (T.getHashInfo code)
    Call.lift (sliceUnchecked T.entries r.1 r.2)

/-- One turn of the loop `for entry in entries { if key.eq(entry.0.borrow()) { return Some(..); } } None`,
e.g. specialized_maps/common_map.rs:75-81. -/
def UMap.turn (u : UserCode σ K Q) (q : Q) :
    List (K × V) → Call σ (Option (K × V) ⊕ List (K × V))
  | [] => pure (.inl none)
  | e :: es => do
    if ← u.isMatch q e.1 then return .inl (some e) else return .inr es

/-- What a thread is in the middle of. Model device for the loops of common_map.rs:75-81 and iter.rs. -/
inductive UDoing (K V Q : Type) where
  | nothing
  | looking (how : Lookup) (q : Q) (es : List (K × V))
  | iterating (seen : List (K × V)) (it : MapIter K V)

/-- A thread: what it has still to ask, what it is doing, what it has been answered, and whether it has
panicked. Model device. -/
structure UReader (K V Q : Type) where
  todo : List (SharedOp Q)
  doing : UDoing K V Q
  outs : List (Out K V)
  panicked : Bool

/-- A thread with its program. Model device. -/
def UReader.new (prog : List (SharedOp Q)) : UReader K V Q := ⟨prog, .nothing, [], false⟩

/-- Go on after a step that may panic: a panic ends the thread, and only this thread. Model device. What
the panicking code did to the state is left to the changes between the turns, see `Turn.elsewhere`. -/
def UReader.after {α : Type} (r : UReader K V Q) (x : Call σ α) (f : α → UReader K V Q) :
    Call σ (UReader K V Q) := fun s =>
  match x s with
  | .ok (a, s') => .ok (f a, s')
  | .panic => .ok ({ r with panicked := true }, s)
  | .ub => .ub

/-- One step of a thread: `len` reads the length (common_map.rs:191-195), `iter` makes an iterator that is
then asked for one entry at a time (160-162), a lookup hashes and then compares, one entry at a time
(68-82). -/
def UReader.step (u : UserCode σ K Q) (m : UMap K V) (r : UReader K V Q) : Call σ (UReader K V Q) :=
  if r.panicked then pure r
  else match r.doing with
    | .nothing =>
      match r.todo with
      | [] => pure r
      | .look how q :: ops =>
        r.after (m.start u q) fun es => { r with todo := ops, doing := .looking how q es }
      | .len :: ops => pure { r with todo := ops, outs := r.outs ++ [.number m.len] }
      | .iter :: ops => pure { r with todo := ops, doing := .iterating [] (MapIter.new m.entries) }
    | .looking how q es => r.after (UMap.turn u q es) fun
      | .inl o =>
        match how.answer o with
        | some out => { r with doing := .nothing, outs := r.outs ++ [out] }
        | none => { r with panicked := true }
      | .inr es' => { r with doing := .looking how q es' }
    | .iterating seen it =>
      match it.next with
      | (some e, it') => pure { r with doing := .iterating (seen ++ [e]) it' }
      | (none, _) => pure { r with doing := .nothing, outs := r.outs ++ [.items seen] }

/-- What happens next: the turn of a thread, or something elsewhere that changes the state the key type's
code looks at. Model device: the scheduler is arbitrary. -/
inductive Turn (σ : Type) where
  | thread (i : Nat)
  | elsewhere (f : σ → σ)

/-- Threads taking turns. Model device: the scheduler is arbitrary. -/
def UMap.share (u : UserCode σ K Q) (m : UMap K V) :
    List (Turn σ) → List (UReader K V Q) → Call σ (List (UReader K V Q))
  | [], ts => pure ts
  | .elsewhere f :: turns, ts => do
    modify f
    UMap.share u m turns ts
  | .thread i :: turns, ts =>
    match ts[i]? with
    | none => UMap.share u m turns ts
    | some r => do
      let r' ← r.step u m
      UMap.share u m turns (ts.set i r')

end FC
