import Verif.Model.SetThreads

/-
What threads that share a set should see.
-/

set_option autoImplicit false

namespace FC
variable {T Q : Type}

/-- The answer is right for the elements `xs`, which are iterated over in any order. -/
def SharedSetOp.Right (eq : Q → Q → Bool) (borrow : T → Q) (xs : List T) :
    SharedSetOp Q → SetAnswer T → Prop
  | .get q, .item x => x = xs.find? (fun y => eq q (borrow y))
  | .contains q, .bool b => b = xs.any (fun y => eq q (borrow y))
  | .len, .number n => n = xs.length
  | .iter, .items ys => ys.Perm xs
  | _, _ => False

/-- Any number of threads with any programs, interleaved in any way: there is no undefined behaviour and
nobody panics; at every moment each thread has got right answers to the first so many of its questions, and
to all of them once it has had as many turns as two more than there are elements, for each question,
whatever the other threads do. -/
def SetReadersUndisturbed (E : Engine T Unit Q) (eq : Q → Q → Bool) (borrow : T → Q) (xs : List T) :
    Prop :=
  ∀ (progs : List (List (SharedSetOp Q))) (turns : List Nat),
    ∃ ts, runThreads turns (progs.map (fun prog => Reader.new E (prog.map SharedSetOp.inner))) = .ok ts ∧
      ∀ (i : Nat) (prog : List (SharedSetOp Q)), progs[i]? = some prog →
        ∃ r n, ts[i]? = some r ∧ r.panicked = false ∧
          List.Forall₂ (fun op out => ∃ x, out = some x ∧ op.Right eq borrow xs x) (prog.take n)
            (r.setAnswers prog) ∧
          (prog.length * (xs.length + 2) ≤ turns.count i → prog.take n = prog)

end FC
