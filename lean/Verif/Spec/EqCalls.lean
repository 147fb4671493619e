import Verif.Spec.Calls

/-
Which calls of the caller's `Hash` and `Eq`, of the keys and of the values, `==` makes.
-/

set_option autoImplicit false

namespace FC
variable [Target]
variable {σ K V Q : Type}

/-- One call of the caller's code: of the key type, or of the `PartialEq` of the value type. -/
inductive EqEvent (K V : Type) where
  | key (call : CallEvent K K)
  | value (a b : V) (answer : Bool)
  deriving DecidableEq

/-- The key type's code with a log. -/
def UserCode.loggedEq (u : UserCode σ K K) : UserCode (σ × List (EqEvent K V)) K K where
  sizeCode k := (u.sizeCode k).noted (fun c => .key (.sized k c))
  slotCode k := (u.slotCode k).noted (fun c => .key (.placed k c))
  probeCode q := (u.probeCode q).noted (fun c => .key (.hashed q c))
  isMatch q k := (u.isMatch q k).noted (fun b => .key (.compared q k b))
  isSame a b := (u.isSame a b).noted (fun c => .key (.paired a b c))

/-- The value type's `PartialEq` with a log. -/
def loggedVals (veq : V → V → Call σ Bool) (a b : V) : Call (σ × List (EqEvent K V)) Bool :=
  (veq a b).noted (.value a b)

/-- Each of the pairs is looked up by its key in the pairs `d` of the other map and, if found, its value
is compared with the value found there; up to the first that is missing or different. -/
inductive Agrees (d : List (K × V)) (h : Option Layout) :
    List (K × V) → Bool → List (EqEvent K V) → Prop
  | done : Agrees d h [] true []
  | missing (e : K × V) (es : List (K × V)) (ev : List (CallEvent K K)) :
      Looks d e.1 h none ev → Agrees d h (e :: es) false (ev.map .key)
  | differ (e e' : K × V) (es : List (K × V)) (ev : List (CallEvent K K)) :
      Looks d e.1 h (some e') ev →
      Agrees d h (e :: es) false (ev.map .key ++ [.value e.2 e'.2 false])
  | same (e e' : K × V) (es : List (K × V)) (b : Bool) (ev : List (CallEvent K K))
      (ev' : List (EqEvent K V)) : Looks d e.1 h (some e') ev → Agrees d h es b ev' →
      Agrees d h (e :: es) b (ev.map .key ++ .value e.2 e'.2 true :: ev')

/-- The calls of `==` between a map with the pairs `d₁` and one with the pairs `d₂` that answers `b`.
Maps of different length are different, without a call. -/
def EqCalls (d₁ d₂ : List (K × V)) (h : Option Layout) (b : Bool) (ev : List (EqEvent K V)) : Prop :=
  if d₁.length = d₂.length then Agrees d₂ h d₁ b ev else b = false ∧ ev = []

/-- The calls that lay out a hashed map over `payload`, see `HashedCalls`: its keys in stored order, its
layout, and the events. -/
def LaysOut (payload : List (K × V)) (keys : List K) (lay : Layout)
    (ev : List (CallEvent K Q)) : Prop :=
  ∃ sizes codes : List Nat,
    sizes.length = payload.length ∧ codes.length = payload.length ∧
    ev = List.zipWith (fun e c => .sized e.1 c) payload sizes ++
      List.zipWith (fun e c => .placed e.1 c) payload codes ∧
    keys.length = lay.places.length ∧
    (keys.zip lay.places).Perm ((payload.map (·.1)).zip codes) ∧
    (payload ≠ [] → ∃ r, analyzeHashCodes sizes = .ok r ∧ lay.slots = r.numHashSlots)

/-- Build a `FrozenMap`, perform a history on it, and compare a map with it. Shows what the history
showed, the pairs the map then has, and the answer. -/
def eqSession (env : Env) (u : UserCode σ K K) (veq : V → V → Call σ Bool) (m₁ : UMap K V)
    (payload : List (K × V)) (ops : List (MapOp V K)) :
    Call σ (List (Out K V) × List (K × V) × Bool) := do
  let m ← UMap.facade env u payload
  let r ← m.run u ops
  let b ← m₁.partialEq u veq r.2
  return (r.1, r.2.entries, b)

end FC
