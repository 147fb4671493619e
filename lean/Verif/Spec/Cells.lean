import Verif.Model.Cells

/-
What threads that share a map of cells should see: a plain list of keys with contents, on which each
call for one key is a single action.
-/

set_option autoImplicit false

namespace FC
variable {K Q X R : Type}

/-- A thread on a plain list of pairs: what it does next, where in the list it is if it is going through
it, what has come of its calls, and whether it has panicked. -/
structure PlainWorker (Q X R : Type) where
  plan : List (CellAns R) → Option (CellOp Q X R)
  going : Option ((X → X × R) × Nat × List R)
  outs : List (CellAns R)
  panicked : Bool

def PlainWorker.new (plan : List (CellAns R) → Option (CellOp Q X R)) : PlainWorker Q X R :=
  ⟨plan, none, [], false⟩

/-- One action. A call for one key is one action: the pair is found, its content is replaced, and the
caller has its result. Going through the list takes one action for each pair. -/
def PlainWorker.step (eq : Q → Q → Bool) (borrow : K → Q) (u : PlainWorker Q X R) (d : List (K × X)) :
    PlainWorker Q X R × List (K × X) :=
  if u.panicked then (u, d)
  else match u.going with
    | none =>
      match u.plan u.outs with
      | none => (u, d)
      | some (.use index q f) =>
        match Dict.find eq borrow d q with
        | some e => ({ u with outs := u.outs ++ [.one (some (f e.2).2)] },
            Dict.assign eq borrow d q (f e.2).1)
        | none => if index then ({ u with panicked := true }, d)
            else ({ u with outs := u.outs ++ [.one none] }, d)
      | some (.each f) => ({ u with going := some (f, 0, []) }, d)
    | some (f, i, rs) =>
      match d[i]? with
      | some e => ({ u with going := some (f, i + 1, rs ++ [(f e.2).2]) }, d.set i (e.1, (f e.2).1))
      | none => ({ u with going := none, outs := u.outs ++ [.all rs] }, d)

/-- Threads acting one after the other in some order. -/
def runPlain (eq : Q → Q → Bool) (borrow : K → Q) :
    List Nat → List (PlainWorker Q X R) → List (K × X) → List (PlainWorker Q X R) × List (K × X)
  | [], us, d => (us, d)
  | i :: σ, us, d =>
    match us[i]? with
    | none => runPlain eq borrow σ us d
    | some u => runPlain eq borrow σ (us.set i (u.step eq borrow d).1) (u.step eq borrow d).2

/-- The cells of `payload`, numbered: what the map is made of. -/
def cellsOf (payload : List (K × X)) : List (K × Nat) := (payload.map (·.1)).zipIdx

/-- After `turns`, threads that share the map `E` of the cells of `payload` are where they would be if their
calls had been single actions on the plain list of pairs `start`, done in the order `order`. There has been no undefined
behaviour, and no panic has got out of a thread; each thread has got the same results, and has panicked if and only if
it would have there; the cells hold what the pairs hold. A thread that has had as many turns as
three more than twice the number of entries, for each of `n` calls, has got the results of `n` calls, or has no more
to do, or has panicked. -/
def CellsSeen (E : Engine K Nat Q) (eq : Q → Q → Bool) (borrow : K → Q) (payload start : List (K × X))
    (plans : List (List (CellAns R) → Option (CellOp Q X R))) (turns order : List Nat) : Prop :=
  ∃ ws mem, runWorkers turns (plans.map (Worker.new E)) (payload.map (·.2)) = .ok (ws, mem) ∧
    (let after := runPlain eq borrow order (plans.map PlainWorker.new) start
     after.1.map (fun u => (u.outs, u.panicked)) = ws.map (fun w => (w.outs, w.panicked)) ∧
     after.2.Perm ((payload.map (·.1)).zip mem)) ∧
    mem.length = payload.length ∧ ws.length = plans.length ∧
    ∀ (i : Nat) (plan : List (CellAns R) → Option (CellOp Q X R)) (w : Worker E X R) (n : Nat),
      plans[i]? = some plan → ws[i]? = some w → n * (2 * payload.length + 3) ≤ turns.count i →
      w.panicked = true ∨ plan w.outs = none ∨ n ≤ w.outs.length

/-- The map `E` of the cells of `payload`, shared by any number of threads that do anything with the
references they get, interleaved in any way: all is as if each call had been a single action, done at one
of the thread's own turns. What was so at any moment stays so: what is done later comes later in the order. -/
def CellsAtomic (E : Engine K Nat Q) (eq : Q → Q → Bool) (borrow : K → Q) (payload : List (K × X)) :
    Prop :=
  ∃ start : List (K × X), start.Perm payload ∧
    ∀ (R : Type) (plans : List (List (CellAns R) → Option (CellOp Q X R))) (before after : List Nat),
      ∃ order order', order.Sublist before ∧ order'.Sublist after ∧
        CellsSeen E eq borrow payload start plans before order ∧
        CellsSeen E eq borrow payload start plans (before ++ after) (order ++ order')

/-- The map `m` of numbered cells, one for each of `keys`, whatever is in the cells to begin with. -/
def SharesCells {M : Type} (engine : M → Engine K Nat Q) (eq : Q → Q → Bool) (borrow : K → Q) (m : M)
    (keys : List K) : Prop :=
  ∀ (X : Type) (payload : List (K × X)), payload.map (·.1) = keys →
    CellsAtomic (engine m) eq borrow payload

/-- The sum of what `prog` adds for the key `k`. -/
def addsFor (eq : Q → Q → Bool) (borrow : K → Q) (k : K) (prog : List (Q × Int)) : Int :=
  ((prog.filter (fun a => eq a.1 (borrow k))).map (·.2)).sum

/-- A program that adds up: for each pair of a probe and a number, `map.get(q).map(|c|
c.fetch_add(n))`, which gives what was there. -/
def adding (prog : List (Q × Int)) (outs : List (CellAns Int)) : Option (CellOp Q Int Int) :=
  (prog[outs.length]?).map (fun a => .use false a.1 (fun x => (x + a.2, x)))

/-- Any number of threads add up in a shared map of counters, interleaved in any way, until all are done:
each counter then has its first value and all that was added for its key. -/
def CountersRight (E : Engine K Nat Q) (eq : Q → Q → Bool) (borrow : K → Q) (payload : List (K × Int)) :
    Prop :=
  ∀ (progs : List (List (Q × Int))) (turns : List Nat),
    (∀ (i : Nat) (prog : List (Q × Int)), progs[i]? = some prog →
      prog.length * (2 * payload.length + 3) ≤ turns.count i) →
    ∃ ws mem, runWorkers turns (progs.map (fun p => Worker.new E (adding p))) (payload.map (·.2)) =
        .ok (ws, mem) ∧
      mem = payload.map (fun e => e.2 + (progs.map (addsFor eq borrow e.1)).sum)

end FC
