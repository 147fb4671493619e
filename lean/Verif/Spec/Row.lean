import Verif.Spec.FirstMatch

/-
The reference of C77: a row of pairs in which a probe designates a place, whatever key is there.
-/

set_option autoImplicit false

namespace FC
variable [Target]
variable {M K V Q : Type}

/-- The place of `q` in a row whose first place is called `lo` and whose last place is called `hi`. -/
def placeIn (lo hi q : Int) : Option Nat :=
  if lo ≤ q ∧ q ≤ hi then some (q - lo).toNat else none

namespace Row

/-- The pair at the place of `q`. -/
def find (place : Q → Option Nat) (d : List (K × V)) (q : Q) : Option (K × V) :=
  (place q).bind (fun i => d[i]?)

/-- The same row, with the value at the place of `q` replaced. -/
def assign (place : Q → Option Nat) (d : List (K × V)) (q : Q) (v : V) : List (K × V) :=
  match place q with
  | some i => d.modify i (fun e => (e.1, v))
  | none => d

/-- Perform one operation. Indexing with a probe that has no place panics; asking for several values
gives nothing if some probe has no place or two probes are equal. -/
def step (eq : Q → Q → Bool) (place : Q → Option Nat) (d : List (K × V)) :
    MapOp V Q → Res (Out K V × List (K × V))
  | .get q => .ok (.value ((find place d q).map (·.2)), d)
  | .getKeyValue q => .ok (.entry (find place d q), d)
  | .containsKey q => .ok (.bool (find place d q).isSome, d)
  | .index q =>
    match find place d q with
    | some e => .ok (.value (some e.2), d)
    | none => .panic
  | .len => .ok (.number d.length, d)
  | .iter => .ok (.items d, d)
  | .keys => .ok (.keys (d.map (·.1)), d)
  | .values => .ok (.values (d.map (·.2)), d)
  | .getMut q v => .ok (.value ((find place d q).map (·.2)), assign place d q v)
  | .indexMut q v =>
    match find place d q with
    | some e => .ok (.value (some e.2), assign place d q v)
    | none => .panic
  | .getManyMut qvs =>
    if (qvs.map (·.1)).Pairwise (fun a b => eq a b = false) ∧
        ∀ qv ∈ qvs, (find place d qv.1).isSome = true then
      .ok (.many (some (qvs.filterMap (fun qv => (find place d qv.1).map (·.2)))),
        qvs.foldl (fun d qv => assign place d qv.1 qv.2) d)
    else .ok (.many none, d)

/-- Perform a whole history. -/
def run (eq : Q → Q → Bool) (place : Q → Option Nat) (d : List (K × V)) :
    List (MapOp V Q) → Res (List (Out K V) × List (K × V))
  | [] => .ok ([], d)
  | op :: ops => do
    let r ← step eq place d op
    let rs ← run eq place r.2 ops
    return (r.1 :: rs.1, rs.2)

end Row

/-- Every history on the map `m` gives exactly what it gives on the row `d`: the same panics, and
otherwise the same observations, iteration order included. Undefined behaviour never occurs. -/
def IsRow (A : MapApi M K V Q) (eq : Q → Q → Bool) (place : Q → Option Nat) (m : M)
    (d : List (K × V)) : Prop :=
  ∀ ops : List (MapOp V Q),
    match Row.run eq place d ops with
    | .ok (outs, _) => ∃ m', A.run m ops = .ok (outs, m')
    | .panic => A.run m ops = .panic
    | .ub => False

/-- After any histories on two maps, `==` returns, and it answers whether the two rows then have the
same length and every pair of the first has an equal value in the second, at the place of its key. -/
def EqIsRow (A : MapApi M K V K) (eq : K → K → Bool) (place₁ place₂ : K → Option Nat)
    (veq : V → V → Bool) (m₁ m₂ : M) (d₁ d₂ : List (K × V)) : Prop :=
  ∀ (ops₁ ops₂ : List (MapOp V K)) (r₁ r₂ : List (Out K V) × M)
    (s₁ s₂ : List (Out K V) × List (K × V)),
    A.run m₁ ops₁ = .ok r₁ → A.run m₂ ops₂ = .ok r₂ →
    Row.run eq place₁ d₁ ops₁ = .ok s₁ → Row.run eq place₂ d₂ ops₂ = .ok s₂ →
    ∃ b, A.partialEq veq r₁.2 r₂.2 = .ok b ∧
      (b = true ↔ s₁.2.length = s₂.2.length ∧ ∀ e ∈ s₁.2, ∃ e',
        Row.find place₂ s₂.2 e.1 = some e' ∧ veq e.2 e'.2 = true)

/-- `d` is `p` sorted by `key`, pairs with equal keys in the order in which `p` has them. -/
def SortedFrom (key : K → Int) (p d : List (K × V)) : Prop :=
  d.Perm p ∧ d.Pairwise (fun a b => key a.1 ≤ key b.1) ∧
    ∀ n, d.filter (fun e => decide (key e.1 = n)) = p.filter (fun e => decide (key e.1 = n))

end FC
