import Verif.Model.HashCode

/-
The table sizing of analyzers/hash_code_analyzer.rs once more, this time also counting the work: how
many candidate tables are cleared and filled, how many hash codes are put into them, and how many
trial divisions the search for primes makes. Dropping the counts gives back Model/HashCode.lean (see
`Verif.Lemmas.SizingCost`).
-/

set_option autoImplicit false

namespace FC

/-- The loop over the hash codes, analyzers/hash_code_analyzer.rs:107-117; `steps` counts its
rounds. -/
def countLoopC (size best : Nat) : List Nat → List Bool → (num steps : Nat) → Res (Nat × Nat)
  | [], _, num, steps => .ok (num, steps)
  | code :: codes, table, num, steps =>
    match umod code size with
    | .ok slot =>
      match table[slot]? with
      | none => .panic
      | some true =>
        if num + 1 ≥ best then .ok (num + 1, steps + 1)
        else countLoopC size best codes table (num + 1) (steps + 1)
      | some false => countLoopC size best codes (table.set slot true) num (steps + 1)
    | .panic => .panic
    | .ub => .ub

/-- Work done by the sizing. Model device: counts the steps of analyzers/hash_code_analyzer.rs:14-144. -/
structure SizingWork where
  /-- How often the table was cleared, analyzers/hash_code_analyzer.rs:104. -/
  tables : Nat
  /-- How many hash codes were put into it, analyzers/hash_code_analyzer.rs:107. -/
  codes : Nat
  deriving Repr, DecidableEq

/-- The loop over the candidate sizes, analyzers/hash_code_analyzer.rs:97-143, with its work so far. -/
def sizeLoopC (codes : List Nat) (minS maxS : Nat) :
    List Nat → (bestSize best acc : Nat) → SizingWork → Res (HashAnalysis × SizingWork)
  | [], bestSize, best, _, w => .ok (⟨bestSize, best⟩, w)
  | size :: sizes, bestSize, best, acc, w =>
    if size < minS then sizeLoopC codes minS maxS sizes bestSize best acc w
    else if size > maxS then .ok (⟨bestSize, best⟩, w)
    else
      match countLoopC size best codes (List.replicate maxS false) 0 0 with
      | .ok (num, steps) =>
        let w' : SizingWork := ⟨w.tables + 1, w.codes + steps⟩
        if num < best then
          let upd := bestSize = 0 ∨ num ≤ acc
          let bestSize' := if upd then size else bestSize
          let best' := if upd then num else best
          if num ≤ acc then .ok (⟨bestSize', best'⟩, w')
          else sizeLoopC codes minS maxS sizes bestSize' best' (reduceAcceptable acc) w'
        else sizeLoopC codes minS maxS sizes bestSize best (reduceAcceptable acc) w'
      | .panic => .panic
      | .ub => .ub

/-- analyzers/hash_code_analyzer.rs:14-144 (`analyze_hash_codes`) with the work of its main loop. -/
def analyzeHashCodesC (codes : List Nat) : Res (HashAnalysis × SizingWork) :=
  sizeLoopC codes (minSize codes.length) (maxSize codes.length) (candidateSizes codes.length)
    0 codes.length (acceptableCollisions codes.length) ⟨0, 0⟩

/-- The loop of `is_prime`, analyzers/hash_code_analyzer.rs:155-164, counting divisions. -/
def isPrimeLoopC (candidate limit divisor : Nat) : Bool × Nat :=
  if divisor ≤ limit then
    if candidate % divisor = 0 then (false, 1)
    else
      let r := isPrimeLoopC candidate limit (divisor + 2)
      (r.1, r.2 + 1)
  else (true, 0)
termination_by limit + 1 - divisor

/-- analyzers/hash_code_analyzer.rs:149-165 (`is_prime`), counting divisions. -/
def isPrimeC (candidate : Nat) : Bool × Nat :=
  if candidate % 3 = 0 then (false, 1)
  else if candidate % 5 = 0 then (false, 2)
  else
    let r := isPrimeLoopC candidate (Nat.sqrt candidate) 3
    (r.1, r.2 + 2)

/-- Divisions made by `while !is_prime(size) { size += 2 }`, analyzers/hash_code_analyzer.rs:91-93. -/
def findPrimeCost (size : Nat) (h : size % 2 = 1 ∧ 7 ≤ size) : Nat :=
  if isPrime size = true then (isPrimeC size).2
  else (isPrimeC size).2 + findPrimeCost (size + 2) ⟨by omega, by omega⟩
termination_by primeAbove size - size
decreasing_by exact primeAbove_step h ‹_›

/-- Divisions made by the loop for very large inputs, analyzers/hash_code_analyzer.rs:84-94. -/
def bigSizesCost (increment maxSize : Nat) (hi : 7 ≤ increment) (size : Nat) : Nat :=
  if size ≤ maxSize then
    let size' := size + increment
    let size'' := size' + (1 - size' % 2)
    findPrimeCost size'' ⟨by omega, by omega⟩
      + bigSizesCost increment maxSize hi (findPrime size'' ⟨by omega, by omega⟩)
  else 0
termination_by maxSize + 1 - size
decreasing_by
  have := le_findPrime ((size + increment) + (1 - (size + increment) % 2)) ⟨by omega, by omega⟩
  omega

/-- Divisions made to list the candidate sizes, analyzers/hash_code_analyzer.rs:69-95. -/
def candidateSizesCost (n : Nat) : Nat :=
  if maxSize n < 128 then 0
  else if h : minSize n < lastPrime then 0
  else bigSizesCost (n / 3) (maxSize n) (by unfold minSize lastPrime at h; omega) (minSize n)

end FC
