import Verif.Model.UserThreads

/-
What threads that share a map of misbehaving keys may see.
-/

set_option autoImplicit false

namespace FC
variable {σ K V Q : Type}

/-- The operation a thread performs, as an operation of a history. -/
def SharedOp.toMapOp : SharedOp Q → MapOp V Q
  | .look .get q => .get q
  | .look .getKeyValue q => .getKeyValue q
  | .look .containsKey q => .containsKey q
  | .look .index q => .index q
  | .len => .len
  | .iter => .iter

/-- How often it is the turn of thread `i`. -/
def turnsOf (i : Nat) : List (Turn σ) → Nat
  | [] => 0
  | .thread j :: turns => turnsOf i turns + if j = i then 1 else 0
  | .elsewhere _ :: turns => turnsOf i turns

/-- Build a map, use it exclusively for a while (`before`), share it between threads, and when they are
gone use it exclusively again (`after`). Shows what was seen before, by each of the threads, and after. -/
def UMap.sharedSession (u : UserCode σ K Q) (build : Call σ (UMap K V)) (before : List (MapOp V Q))
    (progs : List (List (SharedOp Q))) (turns : List (Turn σ)) (after : List (MapOp V Q)) :
    Call σ (List (Out K V) × List (UReader K V Q) × List (Out K V)) := do
  let m ← build
  let r ← m.run u before
  let ts ← r.2.share u turns (progs.map UReader.new)
  let r' ← r.2.run u after
  return (r.1, ts, r'.1)

/-- What such a session may show. There is one list of the given pairs such that each thread sees what a
history of the operations before, its own so far and the operations after can show on that list, as if
the other threads did not exist. The thread has panicked only if `p` or in a `map[key]`. And it is
through, with all its operations done unless it has panicked, once it has had as many turns as two more
than there are pairs, for each of its operations. -/
structure SharedOutcome (R : Q → K → Prop) (p : Prop) (payload : List (K × V)) (before : List (MapOp V Q))
    (progs : List (List (SharedOp Q))) (turns : List (Turn σ)) (after : List (MapOp V Q))
    (seenBefore : List (Out K V)) (threads : List (UReader K V Q)) (seenAfter : List (Out K V)) :
    Prop where
  length : threads.length = progs.length
  seen : ∃ d : List (K × V), d.Perm payload ∧
    Loose.Run R d (before ++ after) (seenBefore ++ seenAfter) ∧
    ∀ (i : Nat) (prog : List (SharedOp Q)), progs[i]? = some prog → ∃ t n, threads[i]? = some t ∧
      Loose.Run R d (before ++ (prog.take n).map SharedOp.toMapOp ++ after)
        (seenBefore ++ t.outs ++ seenAfter) ∧
      (t.panicked = true → p ∨ ∃ q, prog[n]? = some (.look .index q)) ∧
      (prog.length * (payload.length + 2) ≤ turnsOf i turns → t.panicked = true ∨ prog.length ≤ n)

end FC
