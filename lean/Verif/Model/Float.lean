import Verif.Model.HashCode
import Verif.Model.SliceKey
import Mathlib.Analysis.Real.Sqrt
import Mathlib.Algebra.Order.Floor.Semiring

/-
The two places where the code computes in `f64`. `Model/HashCode.lean` and `Model/SliceKey.lean` use
whole numbers there; `Props/Float.lean` proves that this makes no difference.
-/

set_option autoImplicit false

namespace FC
variable [Target]

/-- The finite values of `f64` (IEEE 754 binary64): `m · 2^e` with a 53-bit `m`. The type of `(num as
f64).sqrt()` at analyzers/hash_code_analyzer.rs:149-165. -/
def IsF64 (x : ℝ) : Prop :=
  ∃ m e : ℤ, |m| < 2 ^ 53 ∧ -1074 ≤ e ∧ e ≤ 971 ∧ x = m * (2 : ℝ) ^ e

/-- What IEEE 754 asks of the rounding of every operation, far from overflow: the result is a value
of `f64`, and none is nearer. The choice between two equally near values is left open. Contract of the
`f64` operations at analyzers/hash_code_analyzer.rs:149-165. -/
structure Rounds (rnd : ℝ → ℝ) : Prop where
  isF64 : ∀ x : ℝ, IsF64 (rnd x)
  nearest : ∀ x y : ℝ, IsF64 y → |rnd x - x| ≤ |y - x|

/-- `f64::sqrt(candidate as f64) as u64`, analyzers/hash_code_analyzer.rs:154. -/
noncomputable def f64SqrtLimit (rnd : ℝ → ℝ) (candidate : Nat) : Nat :=
  ⌊rnd (Real.sqrt (rnd candidate))⌋₊

/-- analyzers/hash_code_analyzer.rs:149-165 (`is_prime`) with the floating-point limit. -/
noncomputable def isPrimeF64 (rnd : ℝ → ℝ) (candidate : Nat) : Bool :=
  if candidate % 3 = 0 ∨ candidate % 5 = 0 then false
  else isPrimeLoop candidate (f64SqrtLimit rnd candidate) 3

/-- `((keys.len() as f64) * 0.05) as usize`, analyzers/slice_key_analyzer.rs:96,106. The literal
`0.05` is the rounding of 1/20. -/
noncomputable def f64Tolerance (rnd : ℝ → ℝ) (n : Nat) : Nat :=
  ⌊rnd (rnd n * rnd (1 / 20))⌋₊

/-- analyzers/slice_key_analyzer.rs:89-175 (`analyze_subslices`) with the floating-point tolerance. -/
noncomputable def analyzeSubslicesF64 (rnd : ℝ → ℝ) (oc : Bool) (bh : Hasher) (keys : List Bytes) :
    Res SliceVerdict :=
  subsliceLoop oc bh keys (minLen keys) (maxLen keys) (f64Tolerance rnd keys.length) 1
    (min (minLen keys) 16)

end FC
