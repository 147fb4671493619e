import Verif.Spec.Sizing
import Verif.Lemmas.HashCode
import Verif.Lemmas.Primes

/-
C18, C19, C45, C48: choosing the hash table size.
-/

set_option autoImplicit false

namespace FC

/-! ### C18 -/

/-- The analysis always returns, and within the bounds. -/
theorem C18_bounds (codes : List Nat) :
    ∃ r, analyzeHashCodes codes = .ok r ∧
      (codes ≠ [] →
        0 < r.numHashSlots ∧ codes.length - 5 * (codes.length / 100) ≤ r.numHashSlots ∧
        (codes.length < 128 → codes.length ≤ r.numHashSlots ∧ r.numHashSlots ≤ 16 * codes.length) ∧
        (128 ≤ codes.length → r.numHashSlots ≤ 10 * codes.length) ∧
        (1000 ≤ codes.length → r.numHashSlots ≤ 3 * codes.length)) := by
  by_cases h : codes = []
  · subst h; exact ⟨_, analyze_nil, fun h => absurd rfl h⟩
  · obtain ⟨r, hr, _, hmin, hmax, _⟩ := analyze_spec codes h
    have hpos := minSize_pos (List.length_pos_iff.2 h)
    refine ⟨r, hr, fun _ => ⟨by omega, ?_, fun h => ?_, fun h => ?_, fun h => ?_⟩⟩ <;>
      · unfold minSize acceptableCollisions at hmin
        unfold maxSize at hmax
        split_ifs at hmin hmax <;> omega

/-! ### C19 -/

/-- The reported collision count is the true one for the recommended size. -/
theorem C19_collisions_true (codes : List Nat) :
    ∃ r, analyzeHashCodes codes = .ok r ∧
      r.numHashCollisions = collisions codes r.numHashSlots := by
  by_cases h : codes = []
  · subst h; exact ⟨_, analyze_nil, rfl⟩
  · obtain ⟨r, hr, _, _, _, hc, _⟩ := analyze_spec codes h
    exact ⟨r, hr, hc⟩

/-- The recommended size is exactly `n`, or the collisions stay within the acceptable rate. After
the exact size failed, the rate tolerated is at most a fifth of five percent. -/
theorem C19_exact_or_good (codes : List Nat) :
    ∃ r, analyzeHashCodes codes = .ok r ∧
      (r.numHashSlots = codes.length ∨
        (r.numHashCollisions ≤ 5 * (codes.length / 100) ∧
          (codes.length < 128 → r.numHashCollisions = 0) ∧
          5 * r.numHashCollisions ≤ 5 * (codes.length / 100))) := by
  by_cases h : codes = []
  · subst h; exact ⟨_, analyze_nil, Or.inl rfl⟩
  · obtain ⟨r, hr, _, _, _, _, hor, _⟩ := analyze_spec codes h
    refine ⟨r, hr, hor.imp id fun hc => ?_⟩
    unfold reduceAcceptable acceptableCollisions at hc
    split_ifs at hc <;> refine ⟨?_, fun _ => ?_, ?_⟩ <;> omega

/-- Codes that are all different modulo `n` get the exact size and no collisions. -/
theorem C19_perfect (codes : List Nat) (h : (codes.map (· % codes.length)).Nodup) :
    analyzeHashCodes codes = .ok ⟨codes.length, 0⟩ := by
  by_cases hne : codes = []
  · subst hne; exact analyze_nil
  · have hd : distinctResidues codes codes.length = codes.length := by
      unfold distinctResidues
      rw [List.toFinset_card_of_nodup h, List.length_map]
    obtain ⟨⟨s, c⟩, hr, _, _, _, hc, _, hp⟩ := analyze_spec codes hne
    have hs : s = codes.length := hp hd
    subst hs
    simp only [hd, Nat.sub_self] at hc
    rw [hr, hc]

example := C19_perfect [1000, 1001, 1002, 1003, 1004] (by decide)

/-- Consecutive integers are such codes. -/
example : (([1000, 1001, 1002, 1003, 1004] : List Nat).map (· % 5)).Nodup := by decide

/-- The bounds and the collision count on a list where the exact size collides. -/
example : analyzeHashCodes [0, 3, 6] = .ok ⟨4, 0⟩ ∧ collisions [0, 3, 6] 3 = 2 ∧
    collisions [0, 3, 6] 4 = 0 := by decide +kernel

/-! ### C48 -/

theorem takeWhile_all {α : Type} (p : α → Bool) (l : List α) (h : ∀ x ∈ l, p x = true) :
    l.takeWhile p = l := by
  induction l with
  | nil => rfl
  | cons x xs ih =>
    rw [List.takeWhile_cons_of_pos (h x (by simp)), ih (fun y hy => h y (List.mem_cons_of_mem _ hy))]

theorem least_size (codes : List Nat) (hne : codes ≠ []) (h7 : codes.length ≤ 7) :
    ∃ r, analyzeHashCodes codes = .ok r ∧
      ((collisions codes r.numHashSlots = 0 ∧
          ∀ s, codes.length ≤ s → s < r.numHashSlots → collisions codes s ≠ 0) ∨
        (r.numHashSlots = codes.length ∧
          ∀ s, codes.length ≤ s → s ≤ 16 * codes.length → collisions codes s ≠ 0)) := by
  have hpos : 0 < codes.length := List.length_pos_iff.2 hne
  obtain ⟨r, hr, hm⟩ := analyze_small codes hne (by omega)
  refine ⟨r, hr, ?_⟩
  have hmax : maxSize codes.length = codes.length * 16 := by unfold maxSize; rw [if_pos (by omega)]
  have hmn : minSize codes.length = codes.length := by
    unfold minSize acceptableCollisions; rw [if_pos (by omega)]; omega
  have hcand : candidateSizes codes.length = codes.length :: List.range' codes.length
      (codes.length * 16 + 1 - codes.length) := by
    unfold candidateSizes
    rw [hmax, if_pos (by omega), hmn]
  have htake : (candidateSizes codes.length).takeWhile
      (fun s => decide (s ≤ maxSize codes.length)) = candidateSizes codes.length := by
    rw [hcand, hmax]
    refine takeWhile_all _ _ ?_
    intro x hx
    rcases List.mem_cons.1 hx with rfl | hx
    · simp; omega
    · have := List.mem_range'_1.1 hx
      simp; omega
  rw [htake, hcand] at hm
  have hcol : ∀ s, collisions codes s = 0 ↔ distinctResidues codes s = codes.length := by
    intro s
    have h1 := distinctResidues_le codes s
    unfold collisions
    unfold distinctResidues at h1 ⊢
    omega
  split at hm
  · rename_i s hs
    subst hm
    obtain ⟨hps, as, bs, has, hno⟩ := List.find?_eq_some_iff_append.1 hs
    simp only [decide_eq_true_eq] at hps
    refine Or.inl ⟨(hcol _).2 hps.2, fun s' hle hlt => ?_⟩
    intro hc
    simp only at hlt
    -- s' precedes s in the candidate list
    cases as with
    | nil =>
      simp only [List.nil_append, List.cons.injEq] at has
      omega
    | cons a as =>
      simp only [List.cons_append, List.cons.injEq] at has
      obtain ⟨_, has⟩ := has
      have hsorted : (List.range' codes.length (codes.length * 16 + 1 - codes.length)).Pairwise
          (· < ·) := List.pairwise_lt_range' _
      have hsmem : s ∈ List.range' codes.length (codes.length * 16 + 1 - codes.length) := by
        rw [has]; simp
      have hmem : s' ∈ List.range' codes.length (codes.length * 16 + 1 - codes.length) := by
        have h1 := List.mem_range'_1.1 hsmem
        exact List.mem_range'_1.2 ⟨by omega, by omega⟩
      rw [has] at hmem hsorted
      rcases List.mem_append.1 hmem with hm | hm
      · have := hno s' (List.mem_cons_of_mem _ hm)
        simp only [decide_eq_false_iff_not, Bool.not_eq_true', hle, true_and] at this
        exact this ((hcol _).1 hc)
      · rcases List.mem_cons.1 hm with h | h
        · omega
        · have := (List.pairwise_cons.1 (List.pairwise_append.1 hsorted).2.1).1 s' h
          omega
  · rename_i hs
    subst hm
    refine Or.inr ⟨rfl, fun s hle hlt hc => ?_⟩
    rw [List.find?_eq_none] at hs
    have := hs s (List.mem_cons_of_mem _ (List.mem_range'_1.2 ⟨by omega, by omega⟩))
    simp only [decide_eq_true_eq, not_and] at this
    exact this hle ((hcol _).1 hc)

/-- Up to seven codes: the recommended size is the least size from `n` to `16 n` without collisions,
and `n` when there is none. -/
theorem C48_least_size (codes : List Nat) (hne : codes ≠ []) (h7 : codes.length ≤ 7) :
    ∃ r, analyzeHashCodes codes = .ok r ∧
      ((codes.length ≤ r.numHashSlots ∧ r.numHashSlots ≤ 16 * codes.length ∧
          collisions codes r.numHashSlots = 0 ∧
          ∀ s, codes.length ≤ s → s < r.numHashSlots → collisions codes s ≠ 0) ∨
        (r.numHashSlots = codes.length ∧
          ∀ s, codes.length ≤ s → s ≤ 16 * codes.length → collisions codes s ≠ 0)) := by
  obtain ⟨r, hr, h⟩ := least_size codes hne h7
  obtain ⟨r', hr', h'⟩ := C18_bounds codes
  obtain rfl := Res.ok.inj (hr.symm.trans hr')
  obtain ⟨_, _, h', _⟩ := h' hne
  have := h' (by omega)
  exact ⟨r, hr, h.imp (fun h => ⟨this.1, this.2, h⟩) id⟩

example := C48_least_size [0, 12, 24, 60] (by decide) (by decide)

example : analyzeHashCodes [0, 12, 24, 60] = .ok ⟨7, 0⟩ := by decide +kernel

/-! ### C45 -/

/-- The primality test is exact for odd numbers from 7 on. -/
theorem C45_is_prime_exact (c : Nat) (hodd : c % 2 = 1) (h7 : 7 ≤ c) :
    isPrime c = true ↔ c.Prime := isPrime_iff hodd h7

example := C45_is_prime_exact 1009 (by decide) (by decide)

/-- The floating-point square root need not be exact for this: any loop limit from the true root up
to the candidate gives the same answer. -/
theorem C45_any_limit (c limit : Nat) (hodd : c % 2 = 1) (h7 : 7 ≤ c) (hl : Nat.sqrt c ≤ limit)
    (hlt : limit < c) : isPrimeLoop c limit 3 = true ↔ c.Prime :=
  isPrimeLoop_iff hodd (by omega) hl hlt

example := C45_any_limit 121 15 (by decide) (by decide) (by decide +kernel) (by decide)

/-- The search ends at the least prime not below its start. -/
theorem C45_search (size : Nat) (hodd : size % 2 = 1) (h7 : 7 ≤ size) :
    (findPrime size ⟨hodd, h7⟩).Prime ∧ size ≤ findPrime size ⟨hodd, h7⟩ ∧
      ∀ p, p.Prime → size ≤ p → findPrime size ⟨hodd, h7⟩ ≤ p := findPrime_spec size ⟨hodd, h7⟩

example := C45_search 1011 (by decide) (by decide)

/-- Very large inputs: every size tried after the first two is prime. -/
theorem C45_big_sizes_prime (n : Nat) (hbig : 7199369 ≤ n - 5 * (n / 100)) :
    ∀ s ∈ (candidateSizes n).drop 2, s.Prime := by
  have hmin : minSize n = n - 5 * (n / 100) := by
    unfold minSize acceptableCollisions
    rw [if_neg (by omega)]
    omega
  have hmax : ¬ maxSize n < 128 := by have := le_maxSize n; omega
  unfold candidateSizes
  rw [if_neg hmax]
  split
  · rename_i h; unfold lastPrime at h; omega
  · rw [List.drop_succ_cons, List.drop_one]
    exact bigSizes_tail _ _

example := C45_big_sizes_prime 8000000 (by decide)

/-- Medium inputs: every size tried other than the exact one is prime. -/
theorem C45_medium_sizes_prime (n : Nat) (h8 : 8 ≤ n) (hmed : n - 5 * (n / 100) < 7199369) :
    ∀ s ∈ (candidateSizes n).tail, s.Prime := by
  have hmax : ¬ maxSize n < 128 := by unfold maxSize; split_ifs <;> omega
  have hmin : minSize n < lastPrime := by
    unfold minSize acceptableCollisions lastPrime
    split_ifs <;> omega
  unfold candidateSizes
  rw [if_neg hmax, dif_pos hmin, List.tail_cons]
  exact primeTable_prime

example := C45_medium_sizes_prime 1000 (by decide) (by decide)

example : (7199369 : Nat) ≤ 8000000 - 5 * (8000000 / 100) ∧ (1009 : Nat) % 2 = 1 := by decide

end FC
