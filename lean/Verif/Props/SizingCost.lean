import Verif.Lemmas.Divisions
import Verif.Props.HashAnalysis

/-
C69: the work done to choose the size of the hash table.
-/

set_option autoImplicit false

namespace FC

/-- The counted sizing always returns, with the answer of the sizing itself. Whatever the hash
codes, it fills at most 107 trial tables, at most 16 from 8 keys on and at most 8 from 1000 keys
on; and it looks at each hash code at most once per trial table. -/
theorem C69_trial_tables (codes : List Nat) :
    ∃ r w, analyzeHashCodes codes = .ok r ∧ analyzeHashCodesC codes = .ok (r, w) ∧
      w.tables ≤ 107 ∧ (8 ≤ codes.length → w.tables ≤ 16) ∧ (1000 ≤ codes.length → w.tables ≤ 8) ∧
      w.codes ≤ w.tables * codes.length := by
  obtain ⟨r, hr, _⟩ := analyze_total codes
  have he := sizeLoopC_eq codes (minSize codes.length) (maxSize codes.length)
    (candidateSizes codes.length) 0 codes.length (acceptableCollisions codes.length) ⟨0, 0⟩
  change (analyzeHashCodesC codes).bind _ = analyzeHashCodes codes at he
  rw [hr] at he
  cases hc : analyzeHashCodesC codes with
  | ok q =>
    obtain ⟨r', w⟩ := q
    rw [hc] at he
    have hrr : r' = r := by simpa [Res.bind] using he
    subst hrr
    have hmm := (minSize_le codes.length).trans (le_maxSize codes.length)
    obtain ⟨h1, _, h3⟩ := sizeLoopC_work hmm hc
    have h2 := candidates_tried codes.length
    simp only [Nat.zero_add, Nat.sub_zero] at h1 h3
    refine ⟨r', w, hr, rfl, ?_, fun h => ?_, fun h => ?_, h3⟩ <;> split_ifs at h2 <;> omega
  | panic => rw [hc] at he; cases he
  | ub => rw [hc] at he; cases he

/-- So sizing looks at a number of hash codes linear in the number of keys. -/
theorem C69_linear (codes : List Nat) :
    ∃ r w, analyzeHashCodesC codes = .ok (r, w) ∧ w.codes ≤ 107 * codes.length := by
  obtain ⟨r, w, _, hc, h1, _, _, h2⟩ := C69_trial_tables codes
  exact ⟨r, w, hc, h2.trans (Nat.mul_le_mul_right _ h1)⟩

/-- And no less than each hash code once: the counts leave nothing out. -/
theorem C69_every_code_counted (codes : List Nat) (hne : codes ≠ []) :
    ∃ r w, analyzeHashCodesC codes = .ok (r, w) ∧ 1 ≤ w.tables ∧ codes.length ≤ w.codes := by
  obtain ⟨r, w, hr, hc, _⟩ := C69_trial_tables codes
  obtain ⟨r', hr', _, hmin, _⟩ := analyze_spec codes hne
  rw [hr] at hr'
  cases hr'
  have hpos : r.numHashSlots ≠ 0 := by
    obtain ⟨r'', hr'', hb⟩ := C18_bounds codes
    rw [hr] at hr''
    cases hr''
    have := (hb hne).1
    omega
  obtain ⟨_, _, h⟩ := sizeLoopC_mono hc
  obtain ⟨h1, h2⟩ := h rfl hpos
  simp only at h1 h2
  exact ⟨r, w, hc, by omega, by omega⟩

example := C69_every_code_counted [10, 11, 12, 13] (by decide)

/-- The bounds are met: seven equal codes fill all 107 tables. -/
example : analyzeHashCodesC [5, 5, 5, 5, 5, 5, 5] = .ok (⟨7, 6⟩, ⟨107, 749⟩) := by decide +kernel

/-- Codes that fit at once fill one table and are looked at once. -/
example : analyzeHashCodesC [10, 11, 12, 13] = .ok (⟨4, 0⟩, ⟨1, 4⟩) := by decide +kernel

/-- No search for primes up to 7,199,368 keys, hence no division at all. -/
theorem C69_no_prime_search (n : Nat) (h : n < 7199369) : candidateSizesCost n = 0 := by
  unfold candidateSizesCost
  split
  · rfl
  · have := minSize_le n
    rw [dif_pos (by unfold lastPrime; omega)]

example := C69_no_prime_search 7199368 (by decide)

/-- Beyond that, testing one candidate for being prime takes at most `2 + √c / 2` divisions, and the
divisions of the whole search stay below `64 · n · (√n + 1)`: the search is not quadratic. -/
theorem C69_prime_search (n : Nat) :
    candidateSizesCost n ≤ 64 * (n * (Nat.sqrt n + 1)) ∧
      ∀ c, 1 ≤ c → (isPrimeC c).1 = isPrime c ∧ (isPrimeC c).2 ≤ 2 + Nat.sqrt c / 2 := by
  refine ⟨?_, fun c hc => ⟨isPrimeC_fst c, isPrimeC_snd c hc⟩⟩
  by_cases hb : minSize n < lastPrime
  · unfold candidateSizesCost
    split
    · omega
    · omega
  · have hmn := minSize_le n
    have hbig : 7199369 ≤ n := by
      unfold lastPrime at hb
      omega
    have hi : 7 ≤ n / 3 := by omega
    unfold candidateSizesCost
    rw [if_neg (by unfold maxSize; split_ifs <;> omega), dif_neg hb]
    refine (bigSizesCost_le hi (minSize n)).trans ?_
    have h1 := bigSizes_length hi (mx := maxSize n) (minSize n)
    have h3 : maxSize n - minSize n ≤ 2 * n + 5 * (n / 100) := by
      unfold maxSize minSize acceptableCollisions
      rw [if_neg (by omega), if_neg (by omega), if_neg (by omega)]
      omega
    have hl : (bigSizes (n / 3) (maxSize n) hi (minSize n)).length ≤ 7 := by
      generalize (bigSizes (n / 3) (maxSize n) hi (minSize n)).length = l at h1
      by_contra hl
      have h4 : n / 3 * 7 ≤ n / 3 * (l - 1) := Nat.mul_le_mul_left _ (by omega)
      omega
    have hmax : maxSize n = n * 3 := by
      unfold maxSize; rw [if_neg (by omega), if_neg (by omega)]
    generalize (bigSizes (n / 3) (maxSize n) hi (minSize n)).length = l at hl ⊢
    rw [hmax]
    have hsq : Nat.sqrt (2 * (n * 3 + n / 3 + 1)) ≤ 3 * (Nat.sqrt n + 1) := by
      apply Nat.le_of_lt_succ
      rw [Nat.sqrt_lt']
      have := Nat.lt_succ_sqrt' n
      simp only [Nat.succ_eq_add_one] at this
      have hd : 3 * (n / 3) ≤ n := Nat.mul_div_le n 3
      have he : (3 * (Nat.sqrt n + 1) + 1) ^ 2
          = 9 * (Nat.sqrt n + 1) ^ 2 + 6 * (Nat.sqrt n + 1) + 1 := by ring
      rw [Nat.succ_eq_add_one, he]
      omega
    generalize Nat.sqrt (2 * (n * 3 + n / 3 + 1)) = q at hsq
    have hs : 3 ≤ Nat.sqrt n := Nat.le_sqrt.2 (by omega)
    generalize Nat.sqrt n = s at hsq hs
    have hA : n * 3 + n / 3 + 3 ≤ 4 * n := by omega
    have hB : 2 + q / 2 ≤ 2 * (s + 1) := by omega
    calc _ ≤ 7 * (4 * n * (2 * (s + 1))) := Nat.mul_le_mul hl (Nat.mul_le_mul hA hB)
      _ = 56 * (n * (s + 1)) := by ring
      _ ≤ 64 * (n * (s + 1)) := Nat.mul_le_mul_right _ (by omega)

/-- The exact number of divisions: testing an odd number takes `divisions`, and where primes are
searched for, one search is made from a third of `n` beyond each candidate size listed. -/
theorem C69_divisions_exact :
    (∀ c, c % 2 = 1 → c ≠ 1 → (isPrimeC c).2 = divisions c) ∧
    ∀ n, 128 ≤ maxSize n → lastPrime ≤ minSize n →
      candidateSizesCost n
        = ((candidateSizes n).tail.map (fun s => searchDivisions (oddFrom (s + n / 3)))).sum := by
  refine ⟨fun c h1 h2 => isPrimeC_exact h1 h2, fun n h1 h2 => ?_⟩
  unfold candidateSizesCost candidateSizes
  rw [if_neg (by omega), dif_neg (by omega), if_neg (by omega), dif_neg (by omega)]
  exact bigSizesCost_exact _ _

example := C69_divisions_exact.2 8000000 (by decide) (by decide)

/-- 29 is tried by 3, 5 and once more by 3 and 5; 7199369 by all odd numbers up to 2683. -/
example : divisions 29 = 4 ∧ divisions 21 = 1 ∧ divisions 35 = 2 ∧ divisions 49 = 5 ∧
    (isPrimeC 7199369).2 = 1343 := by
  have h1 : Nat.sqrt 29 = 5 := by decide +kernel
  have h2 : Nat.sqrt 49 = 7 := by decide +kernel
  refine ⟨by norm_num [divisions, h1], by norm_num [divisions], by norm_num [divisions],
    by norm_num [divisions, h2], by decide +kernel⟩

/-- The search is reached, and costs something. -/
example : ¬ minSize 8000000 < lastPrime ∧ 0 < (isPrimeC 10266667).2 := by decide +kernel

/-- Each prime is found before twice the number the search started from (Bertrand's postulate), so
the loop that steps by two ends after at most `size / 2` steps. -/
theorem C69_prime_is_near (size : Nat) (h : size % 2 = 1 ∧ 7 ≤ size) :
    findPrime size h ≤ 2 * size := findPrime_lt_two_mul size h

example := C69_prime_is_near 7199371 (by decide)

example : findPrime 25 ⟨by decide, by decide⟩ = 29 := by
  have h := findPrime_spec 25 ⟨by decide, by decide⟩
  have h1 := h.2.2 29 (by norm_num) (by omega)
  have h2 := h.2.1
  have h3 := h.1
  generalize findPrime 25 _ = f at *
  interval_cases f <;> first | rfl | (exfalso; revert h3; norm_num)

end FC
