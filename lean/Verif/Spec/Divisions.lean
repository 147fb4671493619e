import Mathlib.Data.Nat.Prime.Infinite
import Mathlib.Data.Nat.Find
import Mathlib.Data.Nat.Sqrt

/-
What looking for primes by trial division costs.
-/

set_option autoImplicit false

namespace FC

/-- Divisions needed to tell whether an odd number is prime, trying 3, then 5, then every odd number from
3 to its square root until one divides it. -/
def divisions (c : Nat) : Nat :=
  if 3 ∣ c then 1 else if 5 ∣ c then 2 else 2 + (min c.minFac (Nat.sqrt c) - 1) / 2

/-- The least prime from `s` on. -/
def nextPrime (s : Nat) : Nat := Nat.find (Nat.exists_infinite_primes s)

/-- Divisions needed to find the least prime from an odd number `s` on, trying every odd number. -/
def searchDivisions (s : Nat) : Nat :=
  ((List.range' s ((nextPrime s - s) / 2 + 1) 2).map divisions).sum

/-- The least odd number from `x` on. -/
def oddFrom (x : Nat) : Nat := if x % 2 = 1 then x else x + 1

end FC
