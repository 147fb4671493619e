import Verif.Model.Clone
import Verif.Spec.History
import Verif.Spec.UserCode

/-
Histories in which the user clones maps and goes on using original and clones in any order.
-/

set_option autoImplicit false

namespace FC
variable [Target]
variable {σ M K V Q : Type}

/-- One step of a user who holds several maps, numbered in the order they got them. -/
inductive ShelfOp (V Q : Type) where
  /-- an operation on map `i` -/
  | on (i : Nat) (op : MapOp V Q)
  /-- get a further map by cloning map `i` -/
  | clone (i : Nat)

/-- Steps on a list of maps, given how to operate on one and how to clone one. A step that names a
map the user does not hold does nothing. -/
def shelfStep {O : Type} (step : M → MapOp V Q → Res (O × M)) (clone : M → M) (ms : List M) :
    ShelfOp V Q → Res (Option O × List M)
  | .on i op =>
    match ms[i]? with
    | none => .ok (none, ms)
    | some m => do
      let r ← step m op
      return (some r.1, ms.set i r.2)
  | .clone i =>
    match ms[i]? with
    | none => .ok (none, ms)
    | some m => .ok (none, ms ++ [clone m])

/-- A whole history of steps. -/
def shelfRun {O : Type} (step : M → MapOp V Q → Res (O × M)) (clone : M → M) (ms : List M) :
    List (ShelfOp V Q) → Res (List (Option O) × List M)
  | [] => .ok ([], ms)
  | op :: ops => do
    let r ← shelfStep step clone ms op
    let rs ← shelfRun step clone r.2 ops
    return (r.1 :: rs.1, rs.2)

/-- The pairs a cloned dictionary holds. -/
def Dict.clone (ck : K → K) (cv : V → V) (d : List (K × V)) : List (K × V) :=
  d.map fun e => (ck e.1, cv e.2)

/-- However often `next` is called, the second iterator gives the clones of what the first gives. -/
def SameOrder {T : Type} (ct : T → T) (it it' : SetIter T) : Prop :=
  ∀ n, (calls SetIter.next n it').1 = ((calls SetIter.next n it).1).map (Option.map ct)

/-- Both saw nothing, or both saw something and it agrees. -/
def SeenAgree : Option (Out K V) → Option (Out K V) → Prop
  | none, none => True
  | some a, some b => a.Agree b
  | _, _ => False

/-- Start with the map `m` and with the dictionary `d`. Whatever is then done, cloning and operating on
original and clones in any order, gives the same panics and agreeing observations. So a clone has
the pairs of its original, and what is done to one is not seen in the other. -/
def CloneRefines (A : MapApi M K V Q) (clone : M → M) (eq : Q → Q → Bool) (borrow : K → Q)
    (ck : K → K) (cv : V → V) (m : M) (d : List (K × V)) : Prop :=
  ∀ ops : List (ShelfOp V Q),
    match shelfRun (Dict.step eq borrow) (Dict.clone ck cv) [d] ops with
    | .ok (outs, _) => ∃ outs' ms', shelfRun A.step clone [m] ops = .ok (outs', ms') ∧
        List.Forall₂ SeenAgree outs outs'
    | .panic => shelfRun A.step clone [m] ops = .panic
    | .ub => False

/-- Build a map, clone it, perform one history on the clone and one on the original. -/
def UMap.cloneSession (u : UserCode σ K Q) (ck : K → Call σ K) (cv : V → Call σ V)
    (build : Call σ (UMap K V)) (ops ops' : List (MapOp V Q)) :
    Call σ (List (Out K V) × List (Out K V)) := do
  let m ← build
  let c ← m.clone ck cv
  let r ← c.run u ops
  let r' ← m.run u ops'
  return (r.1, r'.1)

end FC
