import Verif.Model.Threads

/-
What threads that share a map should see.
-/

set_option autoImplicit false

namespace FC
variable {K V Q : Type}

/-- The answer of a plain list of pairs; none if the call panics. -/
def Dict.answer (eq : Q → Q → Bool) (borrow : K → Q) (d : List (K × V)) : SharedOp Q → Option (Out K V)
  | .look .get q => some (.value ((Dict.find eq borrow d q).map (·.2)))
  | .look .getKeyValue q => some (.entry (Dict.find eq borrow d q))
  | .look .containsKey q => some (.bool (Dict.find eq borrow d q).isSome)
  | .look .index q => (Dict.find eq borrow d q).map (fun e => .value (some e.2))
  | .len => some (.number d.length)
  | .iter => some (.items d)

/-- Any number of threads with any programs, interleaved in any way: there is no undefined behaviour, and
no panic gets out of a thread; at every moment each thread has got the answers of a plain list of pairs to
the first so many of its questions, and has panicked only if the next of them panics for a plain list of
pairs, that is, indexes with an absent key; and a thread that has had as many turns as two more than there
are entries, for each of its questions, has got all of its answers or has panicked, whatever the other
threads do. -/
def ReadersUndisturbed (E : Engine K V Q) (eq : Q → Q → Bool) (borrow : K → Q) (d : List (K × V)) :
    Prop :=
  ∀ (progs : List (List (SharedOp Q))) (turns : List Nat),
    ∃ ts, runThreads turns (progs.map (Reader.new E)) = .ok ts ∧
      ∀ (i : Nat) (prog : List (SharedOp Q)), progs[i]? = some prog →
        ∃ r n, ts[i]? = some r ∧
          List.Forall₂ (fun op out => ∃ out', Dict.answer eq borrow d op = some out' ∧ out'.Agree out)
            (prog.take n) r.outs ∧
          (r.panicked = true → ∃ op, prog[n]? = some op ∧ Dict.answer eq borrow d op = none) ∧
          (prog.length * (d.length + 2) ≤ turns.count i → r.panicked = true ∨ prog.take n = prog)

/-- The map is used exclusively for any while, with writes through the references it hands out, and is
then shared: the threads see the entries as they were left. `engine m` is the map `m` read in steps. -/
def SharesRefine {M : Type} (A : MapApi M K V Q) (engine : M → Engine K V Q) (eq : Q → Q → Bool)
    (borrow : K → Q) (m : M) (d : List (K × V)) : Prop :=
  ∀ (ops : List (MapOp V Q)) (outs : List (Out K V)) (d' : List (K × V)),
    Dict.run eq borrow d ops = .ok (outs, d') →
    ∃ outs' m', A.run m ops = .ok (outs', m') ∧ List.Forall₂ Out.Agree outs outs' ∧
      ReadersUndisturbed (engine m') eq borrow d'

/-- A thread that has the machine for itself, for so many turns. -/
def Reader.alone {E : Engine K V Q} : Nat → Reader E → Res (Reader E)
  | 0, r => .ok r
  | n + 1, r => do
    let r' ← r.step
    Reader.alone n r'

end FC
