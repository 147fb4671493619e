import Verif.Model.Api
import Verif.Spec

/-
Histories of operations on a map, and the reference dictionary they are compared with.
-/

set_option autoImplicit false

namespace FC
variable [Target]
variable {M K V Q : Type}

/-- One operation of a user on a map. -/
inductive MapOp (V Q : Type) where
  | get (q : Q)
  | getKeyValue (q : Q)
  | containsKey (q : Q)
  /-- `m[q]` -/
  | index (q : Q)
  | len
  /-- `m.iter().collect()` -/
  | iter
  | keys
  | values
  /-- `if let Some(r) = m.get_mut(q) { *r = v }` -/
  | getMut (q : Q) (v : V)
  /-- `m[q] = v` -/
  | indexMut (q : Q) (v : V)
  /-- `if let Some(rs) = m.get_many_mut(qs) { for each r in rs { *r = its v } }` -/
  | getManyMut (qvs : List (Q × V))

/-- What the user sees. For the mutating operations, the values read through the returned
references before they are overwritten. -/
inductive Out (K V : Type) where
  | value (o : Option V)
  | entry (o : Option (K × V))
  | bool (b : Bool)
  | number (n : Nat)
  | items (l : List (K × V))
  | keys (l : List K)
  | values (l : List V)
  | many (o : Option (List V))
  deriving Repr, DecidableEq

/-- Two observations agree: equal, except that iteration order is not promised. -/
def Out.Agree : Out K V → Out K V → Prop
  | .items a, .items b => a.Perm b
  | .keys a, .keys b => a.Perm b
  | .values a, .values b => a.Perm b
  | a, b => a = b

/-! ### The implementation -/

/-- Perform one operation on an implementation. -/
def MapApi.step (A : MapApi M K V Q) (m : M) : MapOp V Q → Res (Out K V × M)
  | .get q => do return (.value ((← A.get m q).map Ref.val), m)
  | .getKeyValue q => do return (.entry ((← A.getKeyValue m q).map (fun e => (e.1, e.2.val))), m)
  | .containsKey q => do return (.bool (← A.containsKey m q), m)
  | .index q => do return (.value (some (← A.index m q).val), m)
  | .len => .ok (.number (A.len m), m)
  | .iter => .ok (.items ((A.iter m).fold (fun l e => l ++ [e]) []), m)
  | .keys => .ok (.keys ((A.keys m).fold (fun l e => l ++ [e]) []), m)
  | .values => .ok (.values ((A.values m).fold (fun l e => l ++ [e]) []), m)
  | .getMut q v => do
    match ← A.getMut m q with
    | some r => return (.value (some r.val), A.write m r.idx v)
    | none => return (.value none, m)
  | .indexMut q v => do
    let r ← A.indexMut m q
    return (.value (some r.val), A.write m r.idx v)
  | .getManyMut qvs => do
    match ← A.getManyMut m (qvs.map (·.1)) with
    | some rs => return (.many (some (rs.map Ref.val)),
        (rs.zip (qvs.map (·.2))).foldl (fun m rv => A.write m rv.1.idx rv.2) m)
    | none => return (.many none, m)

/-- Perform a whole history. -/
def MapApi.run (A : MapApi M K V Q) (m : M) : List (MapOp V Q) → Res (List (Out K V) × M)
  | [] => .ok ([], m)
  | op :: ops => do
    let r ← A.step m op
    let rs ← A.run r.2 ops
    return (r.1 :: rs.1, rs.2)

/-! ### The reference: a list of pairs -/

namespace Dict

/-- The pair whose key is probed by `q`. -/
def find (eq : Q → Q → Bool) (borrow : K → Q) (d : List (K × V)) (q : Q) : Option (K × V) :=
  d.find? (fun e => eq q (borrow e.1))

/-- The same pairs, with the value for `q` replaced. -/
def assign (eq : Q → Q → Bool) (borrow : K → Q) (d : List (K × V)) (q : Q) (v : V) :
    List (K × V) := d.map (fun e => if eq q (borrow e.1) then (e.1, v) else e)

/-- Perform one operation on the reference dictionary. Indexing with an absent key panics; asking
for several values gives nothing if some key is absent or two keys are equal. -/
def step (eq : Q → Q → Bool) (borrow : K → Q) (d : List (K × V)) :
    MapOp V Q → Res (Out K V × List (K × V))
  | .get q => .ok (.value ((find eq borrow d q).map (·.2)), d)
  | .getKeyValue q => .ok (.entry (find eq borrow d q), d)
  | .containsKey q => .ok (.bool (find eq borrow d q).isSome, d)
  | .index q =>
    match find eq borrow d q with
    | some e => .ok (.value (some e.2), d)
    | none => .panic
  | .len => .ok (.number d.length, d)
  | .iter => .ok (.items d, d)
  | .keys => .ok (.keys (d.map (·.1)), d)
  | .values => .ok (.values (d.map (·.2)), d)
  | .getMut q v => .ok (.value ((find eq borrow d q).map (·.2)), assign eq borrow d q v)
  | .indexMut q v =>
    match find eq borrow d q with
    | some e => .ok (.value (some e.2), assign eq borrow d q v)
    | none => .panic
  | .getManyMut qvs =>
    if (qvs.map (·.1)).Pairwise (fun a b => eq a b = false) ∧
        ∀ qv ∈ qvs, (find eq borrow d qv.1).isSome = true then
      .ok (.many (some (qvs.filterMap (fun qv => (find eq borrow d qv.1).map (·.2)))),
        qvs.foldl (fun d qv => assign eq borrow d qv.1 qv.2) d)
    else .ok (.many none, d)

/-- Perform a whole history. -/
def run (eq : Q → Q → Bool) (borrow : K → Q) (d : List (K × V)) :
    List (MapOp V Q) → Res (List (Out K V) × List (K × V))
  | [] => .ok ([], d)
  | op :: ops => do
    let r ← step eq borrow d op
    let rs ← run eq borrow r.2 ops
    return (r.1 :: rs.1, rs.2)

end Dict

/-- Every history on the map `m` gives what it gives on the dictionary `d`: the same panics, and
otherwise agreeing observations. Undefined behaviour never occurs. -/
def Refines (A : MapApi M K V Q) (eq : Q → Q → Bool) (borrow : K → Q) (m : M) (d : List (K × V)) :
    Prop :=
  ∀ ops : List (MapOp V Q),
    match Dict.run eq borrow d ops with
    | .ok (outs, _) => ∃ outs' m', A.run m ops = .ok (outs', m') ∧ List.Forall₂ Out.Agree outs outs'
    | .panic => A.run m ops = .panic
    | .ub => False

/-- After any histories on two maps, `==` returns, and it answers whether the two reference
dictionaries then associate equal values with the same keys. -/
def EqRefines (A : MapApi M K V K) (eq : K → K → Bool) (veq : V → V → Bool) (m₁ m₂ : M)
    (d₁ d₂ : List (K × V)) : Prop :=
  ∀ (ops₁ ops₂ : List (MapOp V K)) (r₁ r₂ : List (Out K V) × M) (s₁ s₂ : List (Out K V) × List (K × V)),
    A.run m₁ ops₁ = .ok r₁ → A.run m₂ ops₂ = .ok r₂ →
    Dict.run eq id d₁ ops₁ = .ok s₁ → Dict.run eq id d₂ ops₂ = .ok s₂ →
    ∃ b, A.partialEq veq r₁.2 r₂.2 = .ok b ∧
      (b = true ↔ ∀ k, SameAnswer veq (lookup eq s₁.2 k) (lookup eq s₂.2 k))

/-- The payload keys are pairwise unequal as probes. -/
abbrev DistinctProbes (eq : Q → Q → Bool) (borrow : K → Q) (payload : List (K × V)) : Prop :=
  DistinctKeys (fun a b => eq (borrow a) (borrow b)) payload

end FC
