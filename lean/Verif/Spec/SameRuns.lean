import Verif.Spec.Programs

/-
Two runs of a program in different surroundings (C99).
-/

set_option autoImplicit false

namespace FC
variable {K V : Type}

/-- What a program sees in `n` actions, beginning with no maps and no sets, on the machine `t`. -/
def programSees (t : Target) (u : Surround K V) (prog : List (Reply K V) → Cmd K V) (n : Nat) :
    Res (List (Reply K V)) :=
  (Shelf.run u prog n [] ⟨[], []⟩).map (·.1)

/-- The action shows contents in an order that is not promised: a map or set is listed, or a `HashSet`
made from two sets, or `union` and the like. -/
def Cmd.Lists : Cmd K V → Prop
  | .onMap _ .iter => True
  | .onMap _ .keys => True
  | .onMap _ .values => True
  | .listSet _ => True
  | .combine _ _ _ => True
  | .visit _ _ _ => True
  | _ => False

/-- The same action, except that a new map or set may get its payload in another order and another
hasher. -/
inductive Cmd.SameBut : Cmd K V → Cmd K V → Prop where
  | newMap (p q : List (K × V)) (bh bh' : Hasher) : p.Perm q → SameBut (.newMap p bh) (.newMap q bh')
  | newSet (p q : List K) (bh bh' : Hasher) : p.Perm q → SameBut (.newSet p bh) (.newSet q bh')
  | other (c : Cmd K V) : SameBut c c

/-- The surroundings agree on what keys and values are: which keys are equal, what a copy is, which
values are equal. They may differ in the build, in the hash codes of keys, in whether the crate knows
the key type as `u32`, `String` or neither, and in how a `HashSet` lists its elements. -/
structure Surround.SameData (u u' : Surround K V) : Prop where
  eq : u.ty.eq = u'.ty.eq
  ck : u.ck = u'.ck
  cv : u.cv = u'.cv
  veq : u.veq = u'.veq

/-- Two replies say the same: equal, or the same contents in another order. Where a `HashSet` made from
two sets is listed, or `union` and the like, the elements are the same up to the keys' `==`. -/
def Reply.SaysSame (eq : K → K → Bool) (c : Cmd K V) (r r' : Reply K V) : Prop :=
  match c, r, r' with
  | .onMap _ _, .saw o, .saw o' => o.Agree o'
  | .listSet _, .elements l, .elements l' => l.Perm l'
  | .combine _ _ _, .elements l, .elements l' => l.length = l'.length ∧ ∀ x, Has eq l x ↔ Has eq l' x
  | .visit _ _ _, .elements l, .elements l' => l.length = l'.length ∧ ∀ x, Has eq l x ↔ Has eq l' x
  | _, r, r' => r = r'

/-- The program has seen the same in two runs, up to the order of what it listed. The first argument is
the program, which says by which action each reply came. -/
inductive SameSeen (eq : K → K → Bool) (prog : List (Reply K V) → Cmd K V) :
    List (Reply K V) → List (Reply K V) → Prop where
  | nil : SameSeen eq prog [] []
  | snoc {seen seen' : List (Reply K V)} {r r' : Reply K V} : SameSeen eq prog seen seen' →
      Reply.SaysSame eq (prog seen) r r' → SameSeen eq prog (seen ++ [r]) (seen' ++ [r'])

/-- The same where panics are caught and show `none`. -/
inductive SameSeenCaught (eq : K → K → Bool) (prog : List (Option (Reply K V)) → Cmd K V) :
    List (Option (Reply K V)) → List (Option (Reply K V)) → Prop where
  | nil : SameSeenCaught eq prog [] []
  | snoc {seen seen' : List (Option (Reply K V))} {r r' : Reply K V} : SameSeenCaught eq prog seen seen' →
      Reply.SaysSame eq (prog seen) r r' → SameSeenCaught eq prog (seen ++ [some r]) (seen' ++ [some r'])
  | panicked {seen seen' : List (Option (Reply K V))} : SameSeenCaught eq prog seen seen' →
      SameSeenCaught eq prog (seen ++ [none]) (seen' ++ [none])

end FC
