import Verif.Model.UserCode
import Verif.Spec.History

/-
Histories on a map whose key type misbehaves, and the weakest thing such a map may be: a list of
pairs in which each lookup picks some entry with a key that `Eq` accepts, or none, as it likes.
-/

set_option autoImplicit false

namespace FC
variable [Target]
variable {σ K V Q : Type}

/-- From every state: `c` has no undefined behaviour unless `u`, panics only if `p`, and a value it
returns satisfies `post`. -/
def Behaves {α : Type} (u p : Prop) (c : Call σ α) (post : α → Prop) : Prop :=
  ∀ s, match c s with
    | .ok r => post r.1
    | .panic => p
    | .ub => u

/-- The caller's code behind lookups is safe Rust: no undefined behaviour of its own. It panics only
if `p`. -/
structure UserCode.SafeLookup (p : Prop) (u : UserCode σ K Q) : Prop where
  probeCode : ∀ q, Behaves False p (u.probeCode q) (fun _ => True)
  isMatch : ∀ q k, Behaves False p (u.isMatch q k) (fun _ => True)
  isSame : ∀ a b, Behaves False p (u.isSame a b) (fun _ => True)

/-- The same for all of the caller's code. -/
structure UserCode.Safe (p : Prop) (u : UserCode σ K Q) : Prop extends u.SafeLookup p where
  sizeCode : ∀ k, Behaves False p (u.sizeCode k) (fun _ => True)
  slotCode : ∀ k, Behaves False p (u.slotCode k) (fun _ => True)

/-- `Eq` is an equivalence and does not change: there are classes of keys and probes such that a
probe is only ever found equal to a key of its class, and two probes of one class are never found
different. Nothing is said about hashing. -/
def UserCode.EqOK (u : UserCode σ K Q) : Prop :=
  ∃ (C : Type) (ck : K → C) (cq : Q → C),
    (∀ q k, Behaves True True (u.isMatch q k) (fun b => b = true → cq q = ck k)) ∧
    (∀ a b, Behaves True True (u.isSame a b) (fun b' => b' = false → cq a ≠ cq b))

/-- The caller's `Eq` says yes to this probe and this key, at least sometimes. -/
def UserCode.MayMatch (u : UserCode σ K Q) (q : Q) (k : K) : Prop :=
  ∃ s s', u.isMatch q k s = .ok (true, s')

/-- Perform one operation. Two live `&mut` to one value are undefined behaviour. -/
def UMap.step (u : UserCode σ K Q) (m : UMap K V) : MapOp V Q → Call σ (Out K V × UMap K V)
  | .get q => do return (.value ((← m.lookup u q).map (·.2.val)), m)
  | .getKeyValue q => do return (.entry ((← m.lookup u q).map (fun e => (e.1, e.2.val))), m)
  | .containsKey q => do return (.bool (← m.lookup u q).isSome, m)
  | .index q => do
    match ← m.lookup u q with
    | some r => return (.value (some r.2.val), m)
    | none => Call.lift .panic
  | .len => return (.number m.len, m)
  | .iter => return (.items m.entries, m)
  | .keys => return (.keys (m.entries.map (·.1)), m)
  | .values => return (.values (m.entries.map (·.2)), m)
  | .getMut q v => do
    match ← m.lookup u q with
    | some r => return (.value (some r.2.val), m.write r.2.idx v)
    | none => return (.value none, m)
  | .indexMut q v => do
    match ← m.lookup u q with
    | some r => return (.value (some r.2.val), m.write r.2.idx v)
    | none => Call.lift .panic
  | .getManyMut qvs => do
    match ← m.getManyMut u (qvs.map (·.1)) with
    | some rs =>
      if (rs.map Ref.idx).Nodup then
        return (.many (some (rs.map Ref.val)),
          (rs.zip (qvs.map (·.2))).foldl (fun m rv => m.write rv.1.idx rv.2) m)
      else Call.lift .ub
    | none => return (.many none, m)

/-- Perform a whole history. -/
def UMap.run (u : UserCode σ K Q) (m : UMap K V) :
    List (MapOp V Q) → Call σ (List (Out K V) × UMap K V)
  | [] => return ([], m)
  | op :: ops => do
    let r ← m.step u op
    let rs ← UMap.run u r.2 ops
    return (r.1 :: rs.1, rs.2)

/-- Build a map, perform a history, show what was seen. -/
def UMap.session (u : UserCode σ K Q) (build : Call σ (UMap K V)) (ops : List (MapOp V Q)) :
    Call σ (List (Out K V)) := do
  let m ← build
  let r ← m.run u ops
  return r.1

/-- Build two maps, perform a history on each, and compare them with `==`. `u₂` is the code behind
lookups in the second map, where `==` looks the keys of the first map up. -/
def UMap.eqSession (u₁ u₂ : UserCode σ K K) (veq : V → V → Call σ Bool) (build₁ build₂ : Call σ (UMap K V))
    (ops₁ ops₂ : List (MapOp V K)) : Call σ Bool := do
  let m₁ ← build₁
  let m₂ ← build₂
  let r₁ ← m₁.run u₁ ops₁
  let r₂ ← m₂.run u₂ ops₂
  r₁.2.partialEq u₂ veq r₂.2

namespace Loose

/-- The pairs `d` with the value at place `i` replaced. -/
def assign (d : List (K × V)) (i : Nat) (v : V) : List (K × V) :=
  d.modify i (fun e => (e.1, v))

variable (R : Q → K → Prop)

/-- What one operation may show and do. A lookup for `q` may find any pair whose key `R` allows, or
none. What it shows is what is stored there; a write changes the value of that pair and nothing else;
length and iteration are exact. -/
inductive Step (d : List (K × V)) : MapOp V Q → Out K V → List (K × V) → Prop
  | getNone (q : Q) : Step d (.get q) (.value none) d
  | get (q : Q) (e : K × V) : e ∈ d → R q e.1 → Step d (.get q) (.value (some e.2)) d
  | kvNone (q : Q) : Step d (.getKeyValue q) (.entry none) d
  | kv (q : Q) (e : K × V) : e ∈ d → R q e.1 → Step d (.getKeyValue q) (.entry (some e)) d
  | contains (q : Q) (b : Bool) : (b = true → ∃ e ∈ d, R q e.1) →
      Step d (.containsKey q) (.bool b) d
  | index (q : Q) (e : K × V) : e ∈ d → R q e.1 → Step d (.index q) (.value (some e.2)) d
  | len : Step d .len (.number d.length) d
  | iter : Step d .iter (.items d) d
  | keys : Step d .keys (.keys (d.map (·.1))) d
  | values : Step d .values (.values (d.map (·.2))) d
  | getMutNone (q : Q) (v : V) : Step d (.getMut q v) (.value none) d
  | getMut (q : Q) (v : V) (i : Nat) (e : K × V) : d[i]? = some e → R q e.1 →
      Step d (.getMut q v) (.value (some e.2)) (assign d i v)
  | indexMut (q : Q) (v : V) (i : Nat) (e : K × V) : d[i]? = some e → R q e.1 →
      Step d (.indexMut q v) (.value (some e.2)) (assign d i v)
  | manyNone (qvs : List (Q × V)) : Step d (.getManyMut qvs) (.many none) d
  | many (qvs : List (Q × V)) (is : List Nat) (es : List (K × V)) : is.Nodup →
      List.Forall₂ (fun i e => d[i]? = some e) is es →
      List.Forall₂ (fun qv e => R qv.1 e.1) qvs es →
      Step d (.getManyMut qvs) (.many (some (es.map (·.2))))
        ((is.zip (qvs.map (·.2))).foldl (fun d iv => assign d iv.1 iv.2) d)

/-- What a whole history may show. -/
inductive Run : List (K × V) → List (MapOp V Q) → List (Out K V) → Prop
  | nil (d : List (K × V)) : Run d [] []
  | cons {d d' : List (K × V)} {op : MapOp V Q} {ops : List (MapOp V Q)} {o : Out K V}
      {os : List (Out K V)} : Step R d op o d' → Run d' ops os → Run d (op :: ops) (o :: os)

end Loose

/-- Indexing, the only operation documented to panic. -/
def MapOp.isIndex : MapOp V Q → Prop
  | .index _ => True
  | .indexMut _ _ => True
  | _ => False

/-- Asking for two or more mutable references at once. -/
def MapOp.isMany : MapOp V Q → Prop
  | .getManyMut qvs => 2 ≤ qvs.length
  | _ => False

end FC
