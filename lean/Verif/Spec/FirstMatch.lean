import Verif.Spec.History

/-
The reference of C55: a plain list of pairs, keys repeated or not, in which the first match counts.
-/

set_option autoImplicit false

namespace FC
variable [Target]
variable {M K V Q : Type}

namespace FirstMatch

/-- The first pair whose key is probed by `q`. -/
def find (eq : Q → Q → Bool) (borrow : K → Q) : List (K × V) → Q → Option (K × V)
  | [], _ => none
  | e :: d, q => if eq q (borrow e.1) then some e else find eq borrow d q

/-- The same list, with the value of the first pair for `q` replaced. -/
def assign (eq : Q → Q → Bool) (borrow : K → Q) : List (K × V) → Q → V → List (K × V)
  | [], _, _ => []
  | e :: d, q, v => if eq q (borrow e.1) then (e.1, v) :: d else e :: assign eq borrow d q v

/-- Perform one operation. Indexing with an absent key panics; asking for several values gives
nothing if some key is absent or two keys are equal. -/
def step (eq : Q → Q → Bool) (borrow : K → Q) (d : List (K × V)) :
    MapOp V Q → Res (Out K V × List (K × V))
  | .get q => .ok (.value ((find eq borrow d q).map (·.2)), d)
  | .getKeyValue q => .ok (.entry (find eq borrow d q), d)
  | .containsKey q => .ok (.bool (find eq borrow d q).isSome, d)
  | .index q =>
    match find eq borrow d q with
    | some e => .ok (.value (some e.2), d)
    | none => .panic
  | .len => .ok (.number d.length, d)
  | .iter => .ok (.items d, d)
  | .keys => .ok (.keys (d.map (·.1)), d)
  | .values => .ok (.values (d.map (·.2)), d)
  | .getMut q v => .ok (.value ((find eq borrow d q).map (·.2)), assign eq borrow d q v)
  | .indexMut q v =>
    match find eq borrow d q with
    | some e => .ok (.value (some e.2), assign eq borrow d q v)
    | none => .panic
  | .getManyMut qvs =>
    if (qvs.map (·.1)).Pairwise (fun a b => eq a b = false) ∧
        ∀ qv ∈ qvs, (find eq borrow d qv.1).isSome = true then
      .ok (.many (some (qvs.filterMap (fun qv => (find eq borrow d qv.1).map (·.2)))),
        qvs.foldl (fun d qv => assign eq borrow d qv.1 qv.2) d)
    else .ok (.many none, d)

/-- Perform a whole history. -/
def run (eq : Q → Q → Bool) (borrow : K → Q) (d : List (K × V)) :
    List (MapOp V Q) → Res (List (Out K V) × List (K × V))
  | [] => .ok ([], d)
  | op :: ops => do
    let r ← step eq borrow d op
    let rs ← run eq borrow r.2 ops
    return (r.1 :: rs.1, rs.2)

end FirstMatch

/-- Every history on the map `m` gives exactly what it gives on the list `d`: the same panics, and
otherwise the same observations, iteration order included. Undefined behaviour never occurs. -/
def IsList (A : MapApi M K V Q) (eq : Q → Q → Bool) (borrow : K → Q) (m : M) (d : List (K × V)) :
    Prop :=
  ∀ ops : List (MapOp V Q),
    match FirstMatch.run eq borrow d ops with
    | .ok (outs, _) => ∃ m', A.run m ops = .ok (outs, m')
    | .panic => A.run m ops = .panic
    | .ub => False

/-- After any histories on two maps, `==` returns, and it answers whether the two lists then have the
same length and every pair of the first has an equal value at the first match in the second. -/
def EqIsList (A : MapApi M K V K) (eq : K → K → Bool) (veq : V → V → Bool) (m₁ m₂ : M)
    (d₁ d₂ : List (K × V)) : Prop :=
  ∀ (ops₁ ops₂ : List (MapOp V K)) (r₁ r₂ : List (Out K V) × M)
    (s₁ s₂ : List (Out K V) × List (K × V)),
    A.run m₁ ops₁ = .ok r₁ → A.run m₂ ops₂ = .ok r₂ →
    FirstMatch.run eq id d₁ ops₁ = .ok s₁ → FirstMatch.run eq id d₂ ops₂ = .ok s₂ →
    ∃ b, A.partialEq veq r₁.2 r₂.2 = .ok b ∧
      (b = true ↔ s₁.2.length = s₂.2.length ∧ ∀ e ∈ s₁.2, ∃ e',
        FirstMatch.find eq id s₂.2 e.1 = some e' ∧ veq e.2 e'.2 = true)

/-- The largest key exceeds the smallest by one less than the number of pairs. For distinct keys
this means that they are contiguous. -/
def SpansCount (f : K → Int) (payload : List (K × V)) : Prop :=
  ∃ a ∈ payload, ∃ b ∈ payload, (∀ e ∈ payload, f a.1 ≤ f e.1 ∧ f e.1 ≤ f b.1) ∧
    f b.1 - f a.1 = (payload.length : Int) - 1

/-- What C55 asks of the repeats in a FrozenMap payload: nothing for general and string keys. `u32`
keys must be distinct, fewer than four, or not span exactly their number. -/
def RepeatsFine (ty : KeyTy K) (payload : List (K × V)) : Prop :=
  DistinctKeys ty.eq payload ∨ payload.length < 4 ∨
    ∀ f g, ty.kind = .u32 f g → ¬ SpansCount f payload

end FC
