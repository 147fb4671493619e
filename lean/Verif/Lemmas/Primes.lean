import Verif.Model.HashCode
import Mathlib.Tactic.NormNum.Prime

/-
The primality test and the prime search.
-/

set_option autoImplicit false

namespace FC

theorem isPrimeLoop_true {c limit d : Nat} (h : isPrimeLoop c limit d = true) :
    ∀ k, d + 2 * k ≤ limit → ¬ (d + 2 * k) ∣ c := by
  induction hn : limit + 1 - d using Nat.strongRecOn generalizing d with
  | _ n ih =>
    intro k hk hdvd
    unfold isPrimeLoop at h
    rw [if_pos (by omega)] at h
    split at h
    · cases h
    · rename_i hmod
      cases k with
      | zero => exact hmod (Nat.mod_eq_zero_of_dvd (by simpa using hdvd))
      | succ k =>
        refine ih (limit + 1 - (d + 2)) (by omega) h rfl k (by omega) ?_
        rwa [show d + 2 + 2 * k = d + 2 * (k + 1) by omega]

/-- The loop is exact for odd numbers whatever the upper limit, as long as it is at least the
square root and below the candidate. -/
theorem isPrimeLoop_iff {c limit : Nat} (hodd : c % 2 = 1) (h2 : 2 ≤ c) (hl : Nat.sqrt c ≤ limit)
    (hlt : limit < c) : isPrimeLoop c limit 3 = true ↔ c.Prime := by
  constructor
  · intro h
    by_contra hnp
    have hf := Nat.minFac_prime (n := c) (by omega)
    have hdvd := Nat.minFac_dvd c
    have hle : c.minFac ≤ limit :=
      (Nat.le_sqrt.2 ((sq c.minFac).symm ▸ Nat.minFac_sq_le_self (by omega) hnp)).trans hl
    have hne : c.minFac ≠ 2 := by
      intro h2
      rw [h2] at hdvd
      omega
    have hodd' : c.minFac % 2 = 1 := by
      rcases hf.eq_two_or_odd with h | h
      · exact absurd h hne
      · exact h
    have h2 := hf.two_le
    have := isPrimeLoop_true h ((c.minFac - 3) / 2) (by omega)
    rw [show 3 + 2 * ((c.minFac - 3) / 2) = c.minFac by omega] at this
    exact this hdvd
  · intro hp
    exact isPrimeLoop_of_prime hp _ _ (by omega) hlt

theorem isPrime_iff {c : Nat} (hodd : c % 2 = 1) (h7 : 7 ≤ c) : isPrime c = true ↔ c.Prime := by
  refine ⟨fun h => ?_, fun h => isPrime_of_prime h h7⟩
  unfold isPrime at h
  split at h
  · cases h
  · exact (isPrimeLoop_iff hodd (by omega) le_rfl (Nat.sqrt_lt_self (by omega))).1 h

theorem findPrime_spec (size : Nat) (h : size % 2 = 1 ∧ 7 ≤ size) :
    (findPrime size h).Prime ∧ size ≤ findPrime size h ∧
      ∀ p, p.Prime → size ≤ p → findPrime size h ≤ p := by
  fun_induction findPrime size h with
  | case1 s hs hp => exact ⟨(isPrime_iff hs.1 hs.2).1 hp, le_rfl, fun p _ h => h⟩
  | case2 s hs hp ih =>
    refine ⟨ih.1, by omega, fun p hp' hle => ih.2.2 p hp' ?_⟩
    have h1 : p ≠ s := by
      rintro rfl
      exact hp (isPrime_of_prime hp' hs.2)
    have h2 : p ≠ s + 1 := by
      rintro rfl
      rcases hp'.eq_two_or_odd with h | h <;> omega
    omega

theorem bigSizes_tail {inc mx : Nat} (hi : 7 ≤ inc) (size : Nat) :
    ∀ s ∈ (bigSizes inc mx hi size).tail, s.Prime := by
  induction hn : mx + 1 - size using Nat.strongRecOn generalizing size with
  | _ n ih =>
    unfold bigSizes
    split
    · rename_i hle
      simp only [List.tail_cons]
      intro s hs
      generalize hq : (⟨by omega, by omega⟩ :
        (size + inc + (1 - (size + inc) % 2)) % 2 = 1 ∧ 7 ≤ size + inc + (1 - (size + inc) % 2)) = q
        at hs
      have hp := findPrime_spec _ q
      generalize findPrime (size + inc + (1 - (size + inc) % 2)) q = f at hs hp
      have := ih (mx + 1 - f) (by omega) f rfl
      unfold bigSizes at hs this
      split at hs
      · rename_i hf
        rw [if_pos hf] at this
        rcases List.mem_cons.1 hs with rfl | hs
        · exact hp.1
        · exact this s hs
      · simp at hs
    · simp

theorem primeTable_prime : ∀ p ∈ primeTable, p.Prime := by
  simp only [primeTable, List.mem_cons, List.not_mem_nil, or_false, forall_eq_or_imp, forall_eq]
  norm_num

end FC
