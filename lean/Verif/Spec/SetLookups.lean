import Verif.Model.SetLookups
import Verif.Spec.UserCode
import Verif.Spec.StringCalls
import Verif.Spec.SetCalls

/-
What a set whose element type or hasher misbehaves may show, and which calls it makes.
-/

set_option autoImplicit false

namespace FC
variable {σ T Q : Type}

/-- What a set with the elements `d`, in iteration order, may answer. A lookup for `q` may find any
element that `R` allows, or none; length and iteration are exact. -/
def SetAsk.May (R : Q → T → Prop) (d : List T) : SetAsk Q → SetAns T → Prop
  | .get q, .element o => ∀ x, o = some x → x ∈ d ∧ R q x
  | .contains q, .bool b => b = true → ∃ x ∈ d, R q x
  | .len, .number n => n = d.length
  | .isEmpty, .bool b => b = true ↔ d = []
  | .iter, .items l => l = d
  | _, _ => False

/-- What it may answer one after another, for some order of the given elements. -/
def SetMayShow (R : Q → T → Prop) (payload : List T) (asks : List (SetAsk Q))
    (outs : List (SetAns T)) : Prop :=
  ∃ d : List T, d.Perm payload ∧ List.Forall₂ (SetAsk.May R d) asks outs

/-- The value a question looks up, if it does. -/
def SetAsk.probe : SetAsk Q → Option Q
  | .get q | .contains q => some q
  | _ => none

/-- Is the answer that `o` was found? -/
def SetAns.Found (o : Option T) : SetAns T → Prop
  | .element o' => o' = o
  | .bool b => b = o.isSome
  | _ => False

/-- The calls of the element type's code made by one question: a lookup of one value (Spec/Calls), or
none at all. -/
def SetAsk.Calls (elems : List T) (lay : Option Layout) (a : SetAsk Q) (out : SetAns T)
    (ev : List (CallEvent T Q)) : Prop :=
  match a.probe with
  | some q => ∃ o : Option (T × Unit), out.Found (o.map (·.1)) ∧
      Looks (elems.map (fun x => (x, ()))) q lay o ev
  | none => ev = []

/-- The calls made by one question after another. -/
inductive AskCalls (elems : List T) (lay : Option Layout) :
    List (SetAsk Q) → List (SetAns T) → List (CallEvent T Q) → Prop
  | nil : AskCalls elems lay [] [] []
  | cons (a : SetAsk Q) (as : List (SetAsk Q)) (o : SetAns T) (os : List (SetAns T))
      (ev ev' : List (CallEvent T Q)) : a.Calls elems lay o ev → AskCalls elems lay as os ev' →
      AskCalls elems lay (a :: as) (o :: os) (ev ++ ev')

/-- Build a set, then ask one thing after another. -/
def UMap.setSession (u : UserCode σ T Q) (build : Call σ (UMap T Unit)) (asks : List (SetAsk Q)) :
    Call σ (List (SetAns T)) := do
  let m ← build
  m.asks u asks

variable [Target]

/-- The same for a `FrozenSet` of strings. -/
def UMap.stringSetSession (env : Env) (h : HasherCode σ) (payload : List Bytes)
    (asks : List (SetAsk Bytes)) : Call σ (List (SetAns Bytes)) := do
  let m ← UMap.stringSetFacade env h payload
  m.2.asks (m.1.code env.oc h) asks

/-- Build two `FrozenSet`s of strings, start a set operation and call `next` `n` times. -/
def stringOperationSession (env : Env) (h₁ h₂ : HasherCode σ) (payload₁ payload₂ : List Bytes)
    (op : SetOp) (n : Nat) : Call σ (List (Option Bytes)) := do
  let a ← UMap.stringSetFacade env h₁ payload₁
  let b ← UMap.stringSetFacade env h₂ payload₂
  let r ← ncalls op.next n
    (UBin.new (a.2.toSet (a.1.code env.oc h₁)) (b.2.toSet (b.1.code env.oc h₂)))
  return r.1

/-- Build two `FrozenSet`s of strings and ask a predicate of them. -/
def stringPredicateSession (env : Env) (h₁ h₂ : HasherCode σ) (payload₁ payload₂ : List Bytes)
    (pred : SetPred) : Call σ Bool := do
  let a ← UMap.stringSetFacade env h₁ payload₁
  let b ← UMap.stringSetFacade env h₂ payload₂
  pred.ask (a.2.toSet (a.1.code env.oc h₁)) (b.2.toSet (b.1.code env.oc h₂))

/-- Which items an operation on sets with these elements may show. -/
def SetOp.MayYield (xs ys : List T) (x : T) : SetOp → Prop
  | .union => x ∈ xs ∨ x ∈ ys
  | .intersection => x ∈ xs ∧ x ∈ ys
  | .difference => x ∈ xs
  | .symmetricDifference => x ∈ xs ∨ x ∈ ys

/-- What a yes to a predicate promises even so: lookups may miss elements but not invent them. -/
def SetPred.Promises (xs ys : List T) : SetPred → Prop
  | .isSubset => xs ⊆ ys
  | .isSuperset => ys ⊆ xs
  | .eq => xs.length = ys.length ∧ xs ⊆ ys
  | .isDisjoint => True

end FC
