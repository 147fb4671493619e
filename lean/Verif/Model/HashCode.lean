import Verif.Basic
import Mathlib.Data.Nat.Prime.Infinite
import Mathlib.Data.Nat.Sqrt

/-
Model of analyzers/hash_code_analyzer.rs.
-/

set_option autoImplicit false

namespace FC

/-- analyzers/hash_code_analyzer.rs:4-10 (`HashCodeAnalysisResult`). -/
structure HashAnalysis where
  numHashSlots : Nat
  numHashCollisions : Nat
  deriving Repr, DecidableEq

/-- The `while divisor <= limit` loop of `is_prime`, analyzers/hash_code_analyzer.rs:155-164. -/
def isPrimeLoop (candidate limit divisor : Nat) : Bool :=
  if divisor ≤ limit then
    if candidate % divisor = 0 then false else isPrimeLoop candidate limit (divisor + 2)
  else true
termination_by limit + 1 - divisor

/-- analyzers/hash_code_analyzer.rs:149-165 (`is_prime`). Simplification: `f64::sqrt(c) as u64` is
the integer square root (exact for c < 2^52; see DESIGN.md). -/
def isPrime (candidate : Nat) : Bool :=
  if candidate % 3 = 0 ∨ candidate % 5 = 0 then false
  else isPrimeLoop candidate (Nat.sqrt candidate) 3

/-- The loop accepts primes (needed for the termination of `findPrime`). -/
theorem isPrimeLoop_of_prime {p : Nat} (hp : p.Prime) :
    ∀ (limit d : Nat), 2 ≤ d → limit < p → isPrimeLoop p limit d = true := by
  intro limit d
  induction h : limit + 1 - d using Nat.strongRecOn generalizing d with
  | _ n ih =>
    intro hd hl
    unfold isPrimeLoop
    split
    · rename_i hdl
      have : ¬ p % d = 0 := by
        intro h0
        rcases (Nat.dvd_prime hp).1 (Nat.dvd_of_mod_eq_zero h0) with h1 | h1 <;> omega
      rw [if_neg this]
      exact ih (limit + 1 - (d + 2)) (by omega) (d + 2) rfl (by omega) hl
    · rfl

/-- `is_prime` accepts every prime from 7 on (needed for the termination of `findPrime`). -/
theorem isPrime_of_prime {p : Nat} (hp : p.Prime) (h7 : 7 ≤ p) : isPrime p = true := by
  unfold isPrime
  have h3 : ¬ p % 3 = 0 := by
    intro h0
    rcases (Nat.dvd_prime hp).1 (Nat.dvd_of_mod_eq_zero h0) with h1 | h1 <;> omega
  have h5 : ¬ p % 5 = 0 := by
    intro h0
    rcases (Nat.dvd_prime hp).1 (Nat.dvd_of_mod_eq_zero h0) with h1 | h1 <;> omega
  rw [if_neg (by tauto)]
  exact isPrimeLoop_of_prime hp _ _ (by omega) (Nat.sqrt_lt_self (by omega))

/-- Least prime not below `n`; only the termination measure of `findPrime`. Model device for the loop at
analyzers/hash_code_analyzer.rs:91-93. -/
noncomputable def primeAbove (n : Nat) : Nat :=
  Nat.find (Nat.exists_infinite_primes n)

/-- The measure goes down in each round. -/
theorem primeAbove_step {size : Nat} (h : size % 2 = 1 ∧ 7 ≤ size) (hnp : ¬ isPrime size = true) :
    primeAbove (size + 2) - (size + 2) < primeAbove size - size := by
  have hs := Nat.find_spec (Nat.exists_infinite_primes size)
  have hs2 : primeAbove (size + 2) ≤ primeAbove size := by
    apply Nat.find_min'
    refine ⟨?_, hs.2⟩
    have hge : size ≤ primeAbove size := hs.1
    have hne : primeAbove size ≠ size := by
      intro he
      apply hnp
      have := hs.2
      change (primeAbove size).Prime at this
      rw [he] at this
      exact isPrime_of_prime this h.2
    have hne1 : primeAbove size ≠ size + 1 := by
      intro he
      have := hs.2
      change (primeAbove size).Prime at this
      rw [he] at this
      have h2 : 2 ∣ size + 1 := by omega
      rcases (Nat.dvd_prime this).1 h2 with h3 | h3 <;> omega
    change size + 2 ≤ primeAbove size
    omega
  have hge : size + 2 ≤ primeAbove (size + 2) :=
    (Nat.find_spec (Nat.exists_infinite_primes (size + 2))).1
  omega

/-- The `while !is_prime(size) { size += 2 }` loop, analyzers/hash_code_analyzer.rs:91-93. `size`
is odd (line 90) and large (line 76), which the termination proof uses. -/
def findPrime (size : Nat) (h : size % 2 = 1 ∧ 7 ≤ size) : Nat :=
  if isPrime size = true then size
  else findPrime (size + 2) ⟨by omega, by omega⟩
termination_by primeAbove size - size
decreasing_by exact primeAbove_step h ‹_›

/-- The loop only moves up. -/
theorem le_findPrime (size : Nat) (h : size % 2 = 1 ∧ 7 ≤ size) : size ≤ findPrime size h := by
  fun_induction findPrime size h <;> omega

/-- The `while size <= max_size` loop for very large inputs,
analyzers/hash_code_analyzer.rs:84-94. `size | 1` is written `size + (1 - size % 2)`. -/
def bigSizes (increment maxSize : Nat) (hi : 7 ≤ increment) (size : Nat) : List Nat :=
  if size ≤ maxSize then
    let size' := size + increment
    let size'' := size' + (1 - size' % 2)
    size :: bigSizes increment maxSize hi (findPrime size'' ⟨by omega, by omega⟩)
  else []
termination_by maxSize + 1 - size
decreasing_by
  have := le_findPrime ((size + increment) + (1 - (size + increment) % 2)) ⟨by omega, by omega⟩
  omega

/-- analyzers/hash_code_analyzer.rs:34-41 (`PRIMES`). -/
def primeTable : List Nat :=
  [131, 163, 197, 239, 293, 353, 431, 521, 631, 761, 919, 1103, 1327, 1597, 1931, 2333, 2801,
   3371, 4049, 4861, 5839, 7013, 8419, 10103, 12143, 14591, 17519, 21023, 25229, 30293,
   36353, 43627, 52361, 62851, 75431, 90523, 108631, 130363, 156437, 187751,
   225307, 270371, 324449, 389357, 467237, 560689, 672827, 807403, 968897, 1162687,
   1395263, 1674319, 2009191, 2411033, 2893249, 3471899, 4166287, 4999559,
   5999471, 7199369]

/-- `PRIMES[PRIMES.len() - 1]`, analyzers/hash_code_analyzer.rs:76. -/
def lastPrime : Nat := 7199369

/-- Initial `acceptable_collisions`, analyzers/hash_code_analyzer.rs:44-49. -/
def acceptableCollisions (n : Nat) : Nat := if n < 128 then 0 else (n / 100) * 5

/-- `min_size`, analyzers/hash_code_analyzer.rs:52. -/
def minSize (n : Nat) : Nat := n - acceptableCollisions n

/-- `max_size`, analyzers/hash_code_analyzer.rs:55-61. -/
def maxSize (n : Nat) : Nat := if n < 128 then n * 16 else if n < 1000 then n * 10 else n * 3

/-- The list `sizes` of candidate table sizes, analyzers/hash_code_analyzer.rs:69-95. The proof
argument of `bigSizes` records that the increment is positive there, i.e. that the loop ends. -/
def candidateSizes (n : Nat) : List Nat :=
  n :: (if maxSize n < 128 then
          List.range' (minSize n) (maxSize n + 1 - minSize n)
        else if h : minSize n < lastPrime then primeTable
        else bigSizes (n / 3) (maxSize n)
          (by unfold minSize lastPrime at h; omega) (minSize n))

/-- The inner counting loop over the hash codes, analyzers/hash_code_analyzer.rs:107-117.
`use_table[slot]` is bounds-checked. -/
def countLoop (size best : Nat) : List Nat → List Bool → Nat → Res Nat
  | [], _, num => .ok num
  | code :: codes, table, num =>
    match umod code size with
    | .ok slot =>
      match table[slot]? with
      | none => .panic
      | some true => if num + 1 ≥ best then .ok (num + 1) else countLoop size best codes table (num + 1)
      | some false => countLoop size best codes (table.set slot true) num
    | .panic => .panic
    | .ub => .ub

/-- Shrinking of `acceptable_collisions`, analyzers/hash_code_analyzer.rs:131-137. -/
def reduceAcceptable (acc : Nat) : Nat := if acc > 0 then (acc / 100) * 20 else acc

/-- The main loop over candidate sizes, analyzers/hash_code_analyzer.rs:97-143. -/
def sizeLoop (codes : List Nat) (minS maxS : Nat) :
    List Nat → (bestSize best acc : Nat) → Res HashAnalysis
  | [], bestSize, best, _ => .ok ⟨bestSize, best⟩
  | size :: sizes, bestSize, best, acc =>
    if size < minS then sizeLoop codes minS maxS sizes bestSize best acc
    else if size > maxS then .ok ⟨bestSize, best⟩
    else
      match countLoop size best codes (List.replicate maxS false) 0 with
      | .ok num =>
        if num < best then
          let upd := bestSize = 0 ∨ num ≤ acc
          let bestSize' := if upd then size else bestSize
          let best' := if upd then num else best
          if num ≤ acc then .ok ⟨bestSize', best'⟩
          else sizeLoop codes minS maxS sizes bestSize' best' (reduceAcceptable acc)
        else sizeLoop codes minS maxS sizes bestSize best (reduceAcceptable acc)
      | .panic => .panic
      | .ub => .ub

/-- analyzers/hash_code_analyzer.rs:14-144 (`analyze_hash_codes`). -/
def analyzeHashCodes (codes : List Nat) : Res HashAnalysis :=
  sizeLoop codes (minSize codes.length) (maxSize codes.length) (candidateSizes codes.length)
    0 codes.length (acceptableCollisions codes.length)

end FC
