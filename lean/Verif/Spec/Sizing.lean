import Verif.Spec
import Mathlib.Data.Nat.Prime.Defs

/-
Words used in the statements about table sizes (C18, C19, C45, C48, C52).
-/

set_option autoImplicit false

namespace FC

/-- How many of the codes fall on a residue an earlier code already took, in a table of `s` slots. -/
def collisions (codes : List Nat) (s : Nat) : Nat :=
  codes.length - (codes.map (· % s)).toFinset.card

/-- Collisions tolerated at the `i`-th size tried: none below 128 codes; otherwise five per hundred
at the first size, and each time 20 per hundred of the previous tolerance. -/
def tolerated (n : Nat) : Nat → Nat
  | 0 => if n < 128 then 0 else 5 * (n / 100)
  | i + 1 => 20 * (tolerated n i / 100)

/-- Smallest size considered. -/
def lowest (n : Nat) : Nat := if n < 128 then n else n - 5 * (n / 100)

/-- Largest size considered. -/
def highest (n : Nat) : Nat := if n < 128 then 16 * n else if n < 1000 then 10 * n else 3 * n

/-- `s` is the first size of the list whose collisions are tolerated at its position. -/
def TakesFirst (codes : List Nat) (L : List Nat) (s : Nat) : Prop :=
  ∃ i, L[i]? = some s ∧ collisions codes s ≤ tolerated codes.length i ∧
    ∀ j < i, ∀ t, L[j]? = some t → tolerated codes.length j < collisions codes t

/-- No size of the list has tolerated collisions. -/
def TakesNone (codes : List Nat) (L : List Nat) : Prop :=
  ∀ (j t : Nat), L[j]? = some t → tolerated codes.length j < collisions codes t

/-- The recommendation follows the list `L`: the first size with tolerated collisions, and the exact
size when there is none. -/
def Follows (codes : List Nat) (L : List Nat) : Prop :=
  ∃ r, analyzeHashCodes codes = .ok r ∧ r.numHashCollisions = collisions codes r.numHashSlots ∧
    (TakesFirst codes L r.numHashSlots ∨ (r.numHashSlots = codes.length ∧ TakesNone codes L))

/-- The sizes tried for millions of codes: the exact size, the lowest size, then each time the least
prime that exceeds the previous size by a third of the number of codes, up to the highest size. -/
structure LargeSizes (n : Nat) (L : List Nat) : Prop where
  first : L[0]? = some n
  second : L[1]? = some (lowest n)
  next : ∀ (i s : Nat), 1 ≤ i → L[i]? = some s →
    ∃ p, p.Prime ∧ s + n / 3 ≤ p ∧ (∀ q, q.Prime → s + n / 3 ≤ q → p ≤ q) ∧
      L[i + 1]? = if p ≤ highest n then some p else none

end FC
