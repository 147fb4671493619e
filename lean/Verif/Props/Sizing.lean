import Verif.Spec.Sizing
import Verif.Props.HashAnalysis
import Verif.Lemmas.Sizing

/-
C52: exactly which table size is recommended, for every number of hash codes.
-/

set_option autoImplicit false

namespace FC

theorem tolerated_eq (n i : Nat) : reduceAcceptable^[i] (acceptableCollisions n) = tolerated n i := by
  induction i with
  | zero => simp only [Function.iterate_zero, id, acceptableCollisions, tolerated]; split <;> omega
  | succ i ih =>
    rw [Function.iterate_succ_apply', ih, tolerated, reduceAcceptable]
    split <;> omega

theorem lowest_eq (n : Nat) : minSize n = lowest n := by
  unfold minSize acceptableCollisions lowest; split <;> omega

theorem highest_eq (n : Nat) : maxSize n = highest n := by
  unfold maxSize highest; split
  · omega
  · split <;> omega

theorem follows_of (codes : List Nat) (hne : codes ≠ []) (L : List Nat)
    (hL : inBounds (minSize codes.length) (maxSize codes.length) (candidateSizes codes.length) = L) :
    Follows codes L := by
  have h := analyze_firstFit codes hne
  rw [hL] at h
  cases hf : firstFit codes L (acceptableCollisions codes.length) with
  | some s =>
    rw [hf] at h
    refine ⟨_, h, rfl, Or.inl ?_⟩
    obtain ⟨i, h1, h2, h3⟩ := firstFit_some hf
    refine ⟨i, h1, ?_, ?_⟩
    · rw [← tolerated_eq]; exact h2
    · intro j hj t ht
      rw [← tolerated_eq]; exact h3 j hj t ht
  | none =>
    rw [hf] at h
    refine ⟨_, h, rfl, Or.inr ⟨rfl, ?_⟩⟩
    intro j t ht
    rw [← tolerated_eq]
    exact firstFit_none hf j t ht

theorem primeTable_sorted : primeTable.Pairwise (· ≤ ·) := by decide +kernel

/-- Up to seven codes: the exact size, then every size from `n` to `16 n`. -/
theorem C52_small (codes : List Nat) (hne : codes ≠ []) (h7 : codes.length ≤ 7) :
    Follows codes (codes.length :: List.range' codes.length (15 * codes.length + 1)) := by
  apply follows_of codes hne
  have hmin : minSize codes.length = codes.length := by
    unfold minSize acceptableCollisions; rw [if_pos (by omega)]; rfl
  have hmax : maxSize codes.length = codes.length * 16 := by
    unfold maxSize; rw [if_pos (by omega)]
  unfold candidateSizes
  rw [if_pos (by omega), hmin, hmax,
    show codes.length * 16 + 1 - codes.length = 15 * codes.length + 1 by omega]
  unfold inBounds
  rw [takeWhile_all, List.filter_eq_self.2]
  · intro s hs
    rcases List.mem_cons.1 hs with rfl | hs
    · simp
    · simpa using (List.mem_range'_1.1 hs).1
  · intro s hs
    rcases List.mem_cons.1 hs with rfl | hs
    · simp; omega
    · have := List.mem_range'_1.1 hs
      simp; omega

example := C52_small [0, 3, 7] (by decide) (by decide)

/-- Eight codes or more, but not millions: the exact size, then the primes of the fixed table that
lie between the bounds, in ascending order. -/
theorem C52_medium (codes : List Nat) (h8 : 8 ≤ codes.length)
    (hmed : lowest codes.length < 7199369) :
    Follows codes (codes.length ::
      [131, 163, 197, 239, 293, 353, 431, 521, 631, 761, 919, 1103, 1327, 1597, 1931, 2333, 2801,
        3371, 4049, 4861, 5839, 7013, 8419, 10103, 12143, 14591, 17519, 21023, 25229, 30293,
        36353, 43627, 52361, 62851, 75431, 90523, 108631, 130363, 156437, 187751,
        225307, 270371, 324449, 389357, 467237, 560689, 672827, 807403, 968897, 1162687,
        1395263, 1674319, 2009191, 2411033, 2893249, 3471899, 4166287, 4999559,
        5999471, 7199369].filter
          (fun p => decide (lowest codes.length ≤ p ∧ p ≤ highest codes.length))) := by
  have hne : codes ≠ [] := by rintro rfl; simp at h8
  apply follows_of codes hne
  have hle := minSize_le codes.length
  have hge := le_maxSize codes.length
  have h1 : candidateSizes codes.length = codes.length :: primeTable := by
    unfold candidateSizes
    rw [if_neg (by rw [highest_eq]; unfold highest; split_ifs <;> omega),
      dif_pos (by rw [lowest_eq]; exact hmed)]
  rw [h1]
  have h2 : inBounds (minSize codes.length) (maxSize codes.length) (codes.length :: primeTable)
      = codes.length :: inBounds (minSize codes.length) (maxSize codes.length) primeTable := by
    unfold inBounds
    rw [List.takeWhile_cons_of_pos (by simpa using hge), List.filter_cons_of_pos (by simpa using hle)]
  rw [h2, inBounds_sorted primeTable_sorted, lowest_eq, highest_eq]
  rfl

example := C52_medium [0, 10, 20, 30, 40, 50, 60, 70, 80, 90] (by decide) (by decide +kernel)

/-- Millions of codes. -/
theorem C52_large (codes : List Nat) (hbig : 7199369 ≤ lowest codes.length) :
    ∃ L, LargeSizes codes.length L ∧ Follows codes L := by
  have hlow : lowest codes.length ≤ codes.length := by
    rw [← lowest_eq]; exact minSize_le _
  have hn : 7199369 ≤ codes.length := by omega
  have hne : codes ≠ [] := by rintro rfl; simp at hn
  have hge := le_maxSize codes.length
  have hmax : ¬ maxSize codes.length < 128 := by omega
  have hmin : ¬ minSize codes.length < lastPrime := by
    rw [lowest_eq]; unfold lastPrime; omega
  refine ⟨_, ?_, follows_of codes hne _ rfl⟩
  have hi : 7 ≤ codes.length / 3 := by omega
  have h1 : candidateSizes codes.length = codes.length :: bigSizes (codes.length / 3)
      (maxSize codes.length) hi (minSize codes.length) := by
    unfold candidateSizes
    rw [if_neg hmax, dif_neg hmin]
  have hb := bigSizes_bounds hi (mx := maxSize codes.length) (minSize codes.length)
  have h2 : inBounds (minSize codes.length) (maxSize codes.length) (candidateSizes codes.length)
      = candidateSizes codes.length := by
    rw [h1]
    have hle := minSize_le codes.length
    unfold inBounds
    rw [takeWhile_all, List.filter_eq_self.2]
    · intro s hs
      rcases List.mem_cons.1 hs with rfl | hs
      · simpa using hle
      · simpa using (hb s hs).1
    · intro s hs
      rcases List.mem_cons.1 hs with rfl | hs
      · simpa using hge
      · simpa using (hb s hs).2
  rw [h2, h1]
  refine ⟨rfl, ?_, ?_⟩
  · rw [List.getElem?_cons_succ]
    unfold bigSizes
    rw [if_pos (by rw [lowest_eq]; omega)]
    simp [lowest_eq]
  · intro i s h1i hs
    obtain ⟨i, rfl⟩ : ∃ k, i = k + 1 := ⟨i - 1, by omega⟩
    rw [List.getElem?_cons_succ] at hs
    obtain ⟨p, hp, hge, hl, hnext⟩ := bigSizes_chain hi _ i s hs
    refine ⟨p, hp, hge, hl, ?_⟩
    rw [List.getElem?_cons_succ, hnext, highest_eq]

example := C52_large (List.replicate 10000000 0) (by rw [List.length_replicate]; decide +kernel)

/-- The sizes for millions of codes are determined by the number of codes. -/
theorem C52_large_unique (n : Nat) (L L' : List Nat) (h : LargeSizes n L) (h' : LargeSizes n L') :
    L = L' := by
  have key : ∀ i, L[i + 1]? = L'[i + 1]? := by
    intro i
    induction i with
    | zero => rw [h.second, h'.second]
    | succ i ih =>
      cases hs : L[i + 1]? with
      | none =>
        rw [hs] at ih
        have a1 : L.length ≤ i + 1 := by simpa using hs
        have a2 : L'.length ≤ i + 1 := by simpa using ih.symm
        rw [List.getElem?_eq_none (by omega), List.getElem?_eq_none (by omega)]
      | some s =>
        rw [hs] at ih
        obtain ⟨p, hp, hge, hl, hn⟩ := h.next (i + 1) s (by omega) hs
        obtain ⟨p', hp', hge', hl', hn'⟩ := h'.next (i + 1) s (by omega) ih.symm
        have : p = p' := Nat.le_antisymm (hl p' hp' hge') (hl' p hp hge)
        subst this
        rw [hn, hn']
  apply List.ext_getElem?
  intro i
  cases i with
  | zero => rw [h.first, h'.first]
  | succ i => exact key i

example : ∃ L, LargeSizes 10000000 L ∧ ∀ L', LargeSizes 10000000 L' → L = L' := by
  obtain ⟨L, h, _⟩ := C52_large (List.replicate 10000000 0) (by rw [List.length_replicate]; decide +kernel)
  rw [List.length_replicate] at h
  exact ⟨L, h, fun L' h' => C52_large_unique _ L L' h h'⟩

/-- Eight codes: only the exact size is ever recommended, however bad it is. -/
theorem C52_eight (codes : List Nat) (h8 : codes.length = 8) :
    ∃ r, analyzeHashCodes codes = .ok r ∧ r.numHashSlots = 8 := by
  obtain ⟨r, h1, _, h3⟩ := C52_medium codes (by omega) (by rw [h8]; decide)
  refine ⟨r, h1, ?_⟩
  rcases h3 with ⟨i, hi, _⟩ | ⟨h, _⟩
  · rw [h8, show lowest 8 = 8 from rfl, show highest 8 = 128 from rfl] at hi
    have hL : (8 :: ([131, 163, 197, 239, 293, 353, 431, 521, 631, 761, 919, 1103, 1327, 1597, 1931, 2333, 2801,
        3371, 4049, 4861, 5839, 7013, 8419, 10103, 12143, 14591, 17519, 21023, 25229, 30293,
        36353, 43627, 52361, 62851, 75431, 90523, 108631, 130363, 156437, 187751,
        225307, 270371, 324449, 389357, 467237, 560689, 672827, 807403, 968897, 1162687,
        1395263, 1674319, 2009191, 2411033, 2893249, 3471899, 4166287, 4999559,
        5999471, 7199369] : List Nat).filter (fun p => decide (8 ≤ p ∧ p ≤ 128))) = [8] := by
      decide +kernel
    rw [hL] at hi
    cases i with
    | zero => simpa using hi.symm
    | succ i => simp at hi
  · omega

example := C52_eight [0, 8, 16, 24, 32, 40, 48, 56] rfl

/-- Non-vacuity: three colliding codes get five slots; ten codes `0, 10, …, 90` get the prime 131. -/
example : analyzeHashCodes [0, 3, 7] = .ok ⟨5, 0⟩ ∧
    analyzeHashCodes [0, 10, 20, 30, 40, 50, 60, 70, 80, 90] = .ok ⟨131, 0⟩ ∧
    analyzeHashCodes [0, 8, 16, 24, 32, 40, 48, 56] = .ok ⟨8, 7⟩ := by decide +kernel

example : 7199369 ≤ lowest 10000000 ∧ tolerated 10000000 1 = 100000 ∧
    tolerated 10000000 2 = 20000 ∧ lowest 10000 = 9500 ∧ lowest 10000 < 7199369 := by decide +kernel

end FC
