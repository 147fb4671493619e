import Verif.Lemmas.Float

/-
C53: the floating-point steps of the analyses give the whole-number results, on every machine whose
`f64` rounds to nearest.
-/

set_option autoImplicit false

namespace FC

/-- The share of duplicate subslices tolerated is exactly one in twenty, rounded down. -/
theorem C53_tolerance (rnd : ℝ → ℝ) (h : Rounds rnd) (n : Nat) (hn : n < 2 ^ 52) :
    f64Tolerance rnd n = n / 20 := f64Tolerance_eq h hn

/-- So the verdict on string keys is the one of the whole-number analysis. -/
theorem C53_subslices [Target] (rnd : ℝ → ℝ) (h : Rounds rnd) (oc : Bool) (bh : Hasher) (keys : List Bytes)
    (hn : keys.length < 2 ^ 52) :
    analyzeSubslicesF64 rnd oc bh keys = analyzeSubslices oc bh keys := by
  unfold analyzeSubslicesF64 analyzeSubslices
  rw [f64Tolerance_eq h hn]

example [Target] := C53_subslices _ rounds_exists.choose_spec true (fun cs => cs.length)
  [[120, 97, 120], [120, 98, 120], [121, 97, 120], [121, 98, 120]] (by decide)

/-- The primality test is exact for the odd numbers from 7 to `2^53`. -/
theorem C53_is_prime (rnd : ℝ → ℝ) (h : Rounds rnd) (c : Nat) (hodd : c % 2 = 1) (h7 : 7 ≤ c)
    (hc : c < 2 ^ 53) : isPrimeF64 rnd c = true ↔ c.Prime := by
  obtain ⟨h1, h2⟩ := f64SqrtLimit_bounds h hc
  have hsq : Nat.sqrt c + 1 < c := by
    have := Nat.sqrt_le' c
    by_contra hlt
    push Not at hlt
    have : 6 ≤ Nat.sqrt c := by omega
    nlinarith [Nat.sqrt_le c]
  unfold isPrimeF64
  split
  · rename_i h35
    constructor
    · intro hf; cases hf
    · intro hp
      rcases h35 with h3 | h5
      · rcases (Nat.dvd_prime hp).1 (Nat.dvd_of_mod_eq_zero h3) with h | h <;> omega
      · rcases (Nat.dvd_prime hp).1 (Nat.dvd_of_mod_eq_zero h5) with h | h <;> omega
  · exact isPrimeLoop_iff hodd (by omega) h1 (by omega)

example := C53_is_prime _ rounds_exists.choose_spec 1009 (by decide) (by decide) (by decide)

/-- So the two versions of the primality test agree. -/
theorem C53_is_prime_same (rnd : ℝ → ℝ) (h : Rounds rnd) (c : Nat) (hodd : c % 2 = 1) (h7 : 7 ≤ c)
    (hc : c < 2 ^ 53) : isPrimeF64 rnd c = isPrime c := by
  rw [Bool.eq_iff_iff, C53_is_prime rnd h c hodd h7 hc, isPrime_iff hodd h7]

/-- Non-vacuity: such a rounding exists, so a machine with it computes 5 for 100 to 119 keys. -/
example : ∃ rnd : ℝ → ℝ, Rounds rnd ∧ f64Tolerance rnd 119 = 5 ∧ f64Tolerance rnd 100 = 5 ∧
    isPrimeF64 rnd 9 = false := by
  obtain ⟨rnd, h⟩ := rounds_exists
  refine ⟨rnd, h, C53_tolerance rnd h 119 (by norm_num), C53_tolerance rnd h 100 (by norm_num), ?_⟩
  rw [C53_is_prime_same rnd h 9 (by norm_num) (by norm_num) (by norm_num)]
  rfl

end FC
