import Verif.Model.Borrows
import Verif.Spec.History

/-
Histories of operations in which the references that the map hands out are used as their types allow,
under Rust's aliasing rules (Verif/Model/Borrows.lean).
-/

set_option autoImplicit false

namespace FC
variable {M K V Q : Type}

/-- A step of a user: an operation, or reading once more through a shared reference obtained earlier
and still allowed by the borrow checker. -/
inductive BorrowOp (V Q : Type) where
  | op (o : MapOp V Q)
  | again (j : Nat)

/-- The map, the references to its values, and the shared references (place and tag) that the user
holds. -/
structure BorrowState (M : Type) where
  map : M
  places : Cells
  held : List (Nat × Nat)

/-- What one operation does to the references. Shared ones are kept for later; a call through
`&mut self` ends them. The references returned by `get_mut`, `index_mut` and `get_many_mut` are read
and then written through. -/
def MapApi.borrowStep (A : MapApi M K V Q) (w : Walk) (s : BorrowState M) :
    MapOp V Q → Res (Cells × List (Nat × Nat))
  | .get q => do
    match ← A.get s.map q with
    | some r =>
      let x ← s.places.handOutAll w [r.idx]
      return (x.2, s.held ++ x.1)
    | none =>
      let b ← s.places.look w.visited
      return (b, s.held)
  | .getKeyValue q => do
    match ← A.getKeyValue s.map q with
    | some r =>
      let x ← s.places.handOutAll w [r.2.idx]
      return (x.2, s.held ++ x.1)
    | none =>
      let b ← s.places.look w.visited
      return (b, s.held)
  | .index q => do
    let r ← A.index s.map q
    let x ← s.places.handOutAll w [r.idx]
    return (x.2, s.held ++ x.1)
  | .containsKey _ | .len | .keys => do
    let b ← s.places.look w.visited
    return (b, s.held)
  | .iter | .values => do
    let x ← s.places.handOutAll w (List.range (A.len s.map))
    return (x.2, s.held ++ x.1)
  | .getMut q _ => do
    match ← A.getMut s.map q with
    | some r =>
      let x ← s.places.handOutMut w r.idx
      let b ← x.2.use (Cell.read x.1) r.idx
      let b ← b.use (Cell.write x.1) r.idx
      return (b, [])
    | none =>
      let b ← s.places.lookMut w.visited
      return (b, [])
  | .indexMut q _ => do
    let r ← A.indexMut s.map q
    let x ← s.places.handOutMut w r.idx
    let b ← x.2.use (Cell.read x.1) r.idx
    let b ← b.use (Cell.write x.1) r.idx
    return (b, [])
  | .getManyMut qvs => do
    match ← A.getManyMut s.map (qvs.map (·.1)) with
    | some rs =>
      let x ← s.places.handOutMany w (rs.map Ref.idx)
      let b ← x.2.useAll Cell.read ((rs.map Ref.idx).zip x.1)
      let b ← b.useAll Cell.write ((rs.map Ref.idx).zip x.1)
      return (b, [])
    | none =>
      let b ← s.places.look w.visited
      return (b, [])

/-- A whole history under the aliasing rules. `walk n` says what the `n`-th call re-borrows on its
way. What is seen is what the operations return. -/
def MapApi.borrowRun (A : MapApi M K V Q) (walk : Nat → Walk) :
    Nat → BorrowState M → List (BorrowOp V Q) → Res (List (Out K V) × M)
  | _, s, [] => .ok ([], s.map)
  | n, s, .again j :: ops => do
    match s.held[j]? with
    | some (i, t) =>
      let b ← s.places.use (Cell.read t) i
      A.borrowRun walk (n + 1) { s with places := b } ops
    | none => A.borrowRun walk (n + 1) s ops
  | n, s, .op o :: ops => do
    let r ← A.step s.map o
    let x ← A.borrowStep (walk n) s o
    let rs ← A.borrowRun walk (n + 1) ⟨r.2, x.1, x.2⟩ ops
    return (r.1 :: rs.1, rs.2)

/-- The operations of a history. -/
def opsOf : List (BorrowOp V Q) → List (MapOp V Q)
  | [] => []
  | .op o :: ops => o :: opsOf ops
  | .again _ :: ops => opsOf ops

/-- Somewhere in the history `get_many_mut` is asked for at least one value and returns references. -/
def HandsOutMany (A : MapApi M K V Q) (m : M) (ops : List (MapOp V Q)) : Prop :=
  ∃ pre qvs post outs m' rs, ops = pre ++ .getManyMut qvs :: post ∧ A.run m pre = .ok (outs, m') ∧
    A.getManyMut m' (qvs.map (·.1)) = .ok (some rs) ∧ rs ≠ []

/-- A map that nobody holds references into. -/
def BorrowState.start (m : M) : BorrowState M := ⟨m, fun _ => .owned, []⟩

/-- The same, told from the reference dictionary: somewhere in the history `get_many_mut` is asked for at
least one value, for different keys that are all present. -/
def Dict.HandsOutMany (eq : Q → Q → Bool) (borrow : K → Q) (d : List (K × V))
    (ops : List (MapOp V Q)) : Prop :=
  ∃ pre qvs post outs d' vs d'', ops = pre ++ .getManyMut qvs :: post ∧
    Dict.run eq borrow d pre = .ok (outs, d') ∧
    Dict.step eq borrow d' (.getManyMut qvs) = .ok (.many (some vs), d'') ∧ vs ≠ []

/-- Whatever the calls re-borrow on their way: a history in which `get_many_mut` hands out nothing keeps
to the aliasing rules and answers as the reference dictionary does; any other history is undefined
behaviour. -/
def BorrowRefines (A : MapApi M K V Q) (eq : Q → Q → Bool) (borrow : K → Q) (m : M)
    (d : List (K × V)) : Prop :=
  ∀ (walk : Nat → Walk) (prog : List (BorrowOp V Q)),
    (¬ Dict.HandsOutMany eq borrow d (opsOf prog) →
      match Dict.run eq borrow d (opsOf prog) with
      | .ok (outs, _) => ∃ outs' m', A.borrowRun walk 0 (.start m) prog = .ok (outs', m') ∧
          List.Forall₂ Out.Agree outs outs'
      | .panic => A.borrowRun walk 0 (.start m) prog = .panic
      | .ub => False) ∧
    (Dict.HandsOutMany eq borrow d (opsOf prog) → A.borrowRun walk 0 (.start m) prog = .ub)

end FC
