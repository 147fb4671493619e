import Verif.Model.Drops

/-
That every key and every value is dropped exactly once.
-/

set_option autoImplicit false

namespace FC
variable {σ K V α : Type}

/-- The things dropped according to a log. -/
def droppedIn (log : List (Fact K V)) : List (Thing K V) :=
  log.filterMap fun | .dropped t => some t | .cloned _ => none

/-- The things made by `clone` according to a log. -/
def clonedIn (log : List (Fact K V)) : List (Thing K V) :=
  log.filterMap fun | .cloned t => some t | .dropped _ => none

/-- Start `o` with the things `given`. If it returns, each thing given or cloned has been dropped once
or is among those `held` by what is returned, and not both; if it panics, each has been dropped once. -/
def Accounts (o : Own σ K V α) (given : List (Thing K V)) (held : α → List (Thing K V)) : Prop :=
  ∀ s, match o s [] with
    | .done a _ log => (droppedIn log ++ held a).Perm (given ++ clonedIn log)
    | .unwound log => (droppedIn log).Perm (given ++ clonedIn log)
    | .ub => True

/-- Start `o` with the things `given`. Whether it returns or panics, each thing given or cloned has been
dropped once. It panics only if `p`, and its behaviour is undefined only if `u`. -/
def DropsOnce (u p : Prop) (o : Own σ K V α) (given : List (Thing K V)) : Prop :=
  ∀ s, match o s [] with
    | .done _ _ log => (droppedIn log).Perm (given ++ clonedIn log)
    | .unwound log => p ∧ (droppedIn log).Perm (given ++ clonedIn log)
    | .ub => u

/-- When `o` returns, what it has dropped satisfies `P`, and nothing has been cloned. -/
def DropsOnly (P : Thing K V → Prop) (o : Own σ K V α) : Prop :=
  ∀ s, match o s [] with
    | .done _ _ log => (∀ t ∈ droppedIn log, P t) ∧ clonedIn log = []
    | _ => True

/-- A value, not a key. -/
def Thing.IsValue : Thing K V → Prop
  | .key _ => False
  | .value _ => True

/-- What an iterator hands out before it ends or panics. -/
def Source.items {α : Type} : Source α → List α
  | .ends items => items
  | .panics items => items

/-- The same run without the log. -/
def Own.forget (o : Own σ K V α) : Call σ α := fun s =>
  match o s [] with
  | .done a s' _ => .ok (a, s')
  | .unwound _ => .panic
  | .ub => .ub

end FC
