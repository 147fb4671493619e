import Verif.Model.IntTraits
import Verif.Spec.UserCode

/-
Histories on maps over integer types of the caller's own, and what such a type has to keep for its
maps to be safe.
-/

set_option autoImplicit false

namespace FC
variable {σ X M K V Q : Type}

/-- Perform one operation. Two live `&mut` to one value are undefined behaviour. -/
def CallApi.step (A : CallApi σ M K V Q) (m : M) : MapOp V Q → Call σ (Out K V × M)
  | .get q => do return (.value ((← A.lookup m q).map (·.2.val)), m)
  | .getKeyValue q => do return (.entry ((← A.lookup m q).map (fun e => (e.1, e.2.val))), m)
  | .containsKey q => do return (.bool (← A.lookup m q).isSome, m)
  | .index q => do
    match ← A.lookup m q with
    | some r => return (.value (some r.2.val), m)
    | none => Call.lift .panic
  | .len => return (.number (A.entries m).length, m)
  | .iter => return (.items (A.entries m), m)
  | .keys => return (.keys ((A.entries m).map (·.1)), m)
  | .values => return (.values ((A.entries m).map (·.2)), m)
  | .getMut q v => do
    match ← A.lookup m q with
    | some r => return (.value (some r.2.val), A.write m r.2.idx v)
    | none => return (.value none, m)
  | .indexMut q v => do
    match ← A.lookup m q with
    | some r => return (.value (some r.2.val), A.write m r.2.idx v)
    | none => Call.lift .panic
  | .getManyMut qvs => do
    match ← A.getManyMut m (qvs.map (·.1)) with
    | some rs =>
      if (rs.map Ref.idx).Nodup then
        return (.many (some (rs.map Ref.val)),
          (rs.zip (qvs.map (·.2))).foldl (fun m rv => A.write m rv.1.idx rv.2) m)
      else Call.lift .ub
    | none => return (.many none, m)

/-- Perform a whole history. -/
def CallApi.run (A : CallApi σ M K V Q) (m : M) : List (MapOp V Q) → Call σ (List (Out K V) × M)
  | [] => return ([], m)
  | op :: ops => do
    let r ← A.step m op
    let rs ← CallApi.run A r.2 ops
    return (r.1 :: rs.1, rs.2)

/-- Build a map, perform a history, show what was seen. -/
def CallApi.session (A : CallApi σ M K V Q) (build : Call σ M) (ops : List (MapOp V Q)) :
    Call σ (List (Out K V)) := do
  let m ← build
  let r ← A.run m ops
  return r.1

/-- The code of the index type is safe Rust: no undefined behaviour of its own. It may panic. -/
structure IdxCode.Safe (I : IdxCode σ X) : Prop where
  zero : Behaves False True I.zero (fun _ => True)
  maxValue : Behaves False True I.maxValue (fun _ => True)
  toUsize : ∀ x, Behaves False True (I.toUsize x) (fun _ => True)
  ofI32 : ∀ n, Behaves False True (I.ofI32 n) (fun _ => True)
  add : ∀ x y, Behaves False True (I.add x y) (fun _ => True)

/-- The index type counts honestly: its values stand for numbers up to some `max`, and zero, the
greatest value, conversions in both directions and sums that do not exceed `max` are what they should
be. A conversion may also answer `None`, and any of them may panic. -/
def IdxCode.Honest (I : IdxCode σ X) : Prop :=
  ∃ (Stands : X → Nat → Prop) (max : Nat),
    Behaves True True I.zero (fun x => Stands x 0) ∧
    Behaves True True I.maxValue (fun x => Stands x max) ∧
    (∀ x n, Stands x n → Behaves True True (I.toUsize x) (fun o => ∀ m ∈ o, m = n)) ∧
    (∀ i, Behaves True True (I.ofI32 i) (fun o => ∀ x ∈ o, ∃ n : Nat, (n : Int) = i ∧ Stands x n)) ∧
    (∀ x y a b, Stands x a → Stands y b → a + b ≤ max →
      Behaves True True (I.add x y) (fun z => Stands z (a + b)))

/-- The code of the integer types is safe Rust, and sorting gives the same pairs in some order. (The
standard library promises this much for orders that make no sense, too; it may panic.) -/
structure RangeCode.Safe (c : RangeCode σ K V Q) : Prop where
  zero : Behaves False True c.zero (fun _ => True)
  sort : ∀ l, Behaves False True (c.sort l) (fun l' => l'.Perm l)
  span : ∀ a b, Behaves False True (c.span a b) (fun _ => True)
  spanSize : ∀ a, Behaves False True (c.spanSize a) (fun _ => True)
  ge : ∀ q k, Behaves False True (c.ge q k) (fun _ => True)
  le : ∀ q k, Behaves False True (c.le q k) (fun _ => True)
  sub : ∀ q k, Behaves False True (c.sub q k) (fun _ => True)
  toUsize : ∀ q, Behaves False True (c.toUsize q) (fun _ => True)
  same : ∀ a b, Behaves False True (c.same a b) (fun _ => True)

/-- Equality and subtraction of probes fit together: measured from any key, each probe has one place,
and probes with one place are never found different. -/
def RangeCode.EqOK (c : RangeCode σ K V Q) : Prop :=
  ∀ k, ∃ place : Q → Int,
    (∀ q, Behaves True True (do c.toUsize (← c.sub q k)) (fun o => ∀ i ∈ o, (i : Int) = place q)) ∧
    (∀ a b, Behaves True True (c.same a b) (fun r => r = false → place a ≠ place b))

end FC
