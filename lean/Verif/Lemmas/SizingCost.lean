import Verif.Model.SizingCost
import Verif.Lemmas.Sizing
import Mathlib.NumberTheory.Bertrand

/-
The counted table sizing: it is the sizing, and its counts are bounded.
-/

set_option autoImplicit false

namespace FC

/-! ### Dropping the counts -/

theorem countLoopC_eq (size best : Nat) (codes : List Nat) :
    ∀ (table : List Bool) (num steps : Nat),
      (countLoopC size best codes table num steps).bind (fun r => .ok r.1)
        = countLoop size best codes table num := by
  induction codes with
  | nil => intro table num steps; rfl
  | cons c codes ih =>
    intro table num steps
    unfold countLoopC countLoop
    cases umod c size with
    | ok slot =>
      simp only
      cases table[slot]? with
      | none => rfl
      | some b =>
        cases b with
        | true =>
          simp only
          split
          · rfl
          · exact ih _ _ _
        | false => exact ih _ _ _
    | panic => rfl
    | ub => rfl

theorem countLoopC_steps {size best : Nat} {codes : List Nat} :
    ∀ {table : List Bool} {num steps n s : Nat},
      countLoopC size best codes table num steps = .ok (n, s) → s ≤ steps + codes.length := by
  induction codes with
  | nil => intro table num steps n s h; cases h; simp
  | cons c codes ih =>
    intro table num steps n s h
    unfold countLoopC at h
    rw [List.length_cons]
    cases hm : umod c size with
    | ok slot =>
      rw [hm] at h
      simp only at h
      cases ht : table[slot]? with
      | none => rw [ht] at h; cases h
      | some b =>
        rw [ht] at h
        cases b with
        | true =>
          simp only at h
          split at h
          · cases h; omega
          · have := ih h; omega
        | false => have := ih h; omega
    | panic => rw [hm] at h; cases h
    | ub => rw [hm] at h; cases h

theorem sizeLoopC_eq (codes : List Nat) (minS maxS : Nat) (sizes : List Nat) :
    ∀ (bestSize best acc : Nat) (w : SizingWork),
      (sizeLoopC codes minS maxS sizes bestSize best acc w).bind (fun r => .ok r.1)
        = sizeLoop codes minS maxS sizes bestSize best acc := by
  induction sizes with
  | nil => intro bestSize best acc w; rfl
  | cons size sizes ih =>
    intro bestSize best acc w
    unfold sizeLoopC sizeLoop
    split
    · exact ih _ _ _ _
    · split
      · rfl
      · rw [← countLoopC_eq size best codes (List.replicate maxS false) 0 0]
        cases countLoopC size best codes (List.replicate maxS false) 0 0 with
        | ok r =>
          simp only [Res.bind]
          by_cases h1 : r.1 < best
          · simp only [h1, if_true]
            by_cases h2 : r.1 ≤ acc
            · simp only [h2, if_true]
            · simp only [h2, if_false]
              exact ih _ _ _ _
          · simp only [h1, if_false]
            exact ih _ _ _ _
        | panic => rfl
        | ub => rfl

theorem sizeLoopC_work {codes : List Nat} {minS maxS : Nat} {sizes : List Nat} (hmm : minS ≤ maxS) :
    ∀ {bestSize best acc : Nat} {w w' : SizingWork} {r : HashAnalysis},
      sizeLoopC codes minS maxS sizes bestSize best acc w = .ok (r, w') →
        w'.tables ≤ w.tables + (inBounds minS maxS sizes).length ∧ w.tables ≤ w'.tables ∧
        w'.codes ≤ w.codes + (w'.tables - w.tables) * codes.length := by
  induction sizes with
  | nil => intro bestSize best acc w w' r h; cases h; simp
  | cons size sizes ih =>
    intro bestSize best acc w w' r h
    unfold sizeLoopC at h
    split at h
    · rename_i hlt
      have hib : inBounds minS maxS (size :: sizes) = inBounds minS maxS sizes := by
        unfold inBounds
        rw [List.takeWhile_cons_of_pos (by simp; omega), List.filter_cons_of_neg (by simp; omega)]
      rw [hib]
      exact ih h
    · rename_i hlt
      split at h
      · cases h; simp
      · rename_i hgt
        have hib : inBounds minS maxS (size :: sizes) = size :: inBounds minS maxS sizes := by
          unfold inBounds
          rw [List.takeWhile_cons_of_pos (by simp; omega), List.filter_cons_of_pos (by simp; omega)]
        rw [hib, List.length_cons]
        cases hc : countLoopC size best codes (List.replicate maxS false) 0 0 with
        | ok q =>
          obtain ⟨num, steps⟩ := q
          have hst := countLoopC_steps hc
          rw [hc] at h
          have key : ∀ {bs b a : Nat},
              sizeLoopC codes minS maxS sizes bs b a ⟨w.tables + 1, w.codes + steps⟩ = .ok (r, w') →
              w'.tables ≤ w.tables + ((inBounds minS maxS sizes).length + 1) ∧ w.tables ≤ w'.tables ∧
              w'.codes ≤ w.codes + (w'.tables - w.tables) * codes.length := by
            intro bs b a h'
            obtain ⟨h1, h2, h3⟩ := ih h'
            simp only at h1 h2 h3
            refine ⟨by omega, by omega, ?_⟩
            have : w'.tables - w.tables = (w'.tables - (w.tables + 1)) + 1 := by omega
            rw [this, Nat.add_mul]
            omega
          simp only at h
          split at h
          · split at h
            · cases h
              refine ⟨by simp, by simp, ?_⟩
              simp only [Nat.add_sub_cancel_left]
              omega
            · exact key h
          · exact key h
        | panic => rw [hc] at h; cases h
        | ub => rw [hc] at h; cases h

/-! ### How many candidates there are -/

/-- In `L`, an element `k` places or more further on is more than `c/95` of it times larger. -/
def Sparse (k c : Nat) : List Nat → Prop
  | [] => True
  | a :: L => (∀ b ∈ L.drop (k - 1), c * a < 95 * b) ∧ Sparse k c L

theorem sparse_count {k c lo hi : Nat} (hk : 0 < k) (h : ∀ a b, lo ≤ a → b ≤ hi → 95 * b ≤ c * a)
    {L : List Nat} (hL : Sparse k c L) :
    (L.filter (fun s => decide (lo ≤ s ∧ s ≤ hi))).length ≤ k := by
  induction L with
  | nil => simp
  | cons a L ih =>
    by_cases ha : lo ≤ a ∧ a ≤ hi
    · rw [List.filter_cons_of_pos (by simpa using ha), List.length_cons]
      rw [← List.take_append_drop (k - 1) L, List.filter_append, List.length_append]
      have h2 : (L.drop (k - 1)).filter (fun s => decide (lo ≤ s ∧ s ≤ hi)) = [] := by
        rw [List.filter_eq_nil_iff]
        intro b hb
        have h3 := hL.1 b hb
        simp only [decide_eq_true_eq]
        rintro ⟨_, h4⟩
        have := h a b ha.1 h4
        omega
      rw [h2, List.length_nil]
      have h1 := List.length_filter_le (fun s => decide (lo ≤ s ∧ s ≤ hi)) (L.take (k - 1))
      have h5 := List.length_take_le (k - 1) L
      omega
    · rw [List.filter_cons_of_neg (by simpa using ha)]
      exact ih hL.2

instance Sparse.dec (k c : Nat) : (L : List Nat) → Decidable (Sparse k c L)
  | [] => isTrue trivial
  | a :: L =>
    have := Sparse.dec k c L
    inferInstanceAs (Decidable ((∀ b ∈ L.drop (k - 1), c * a < 95 * b) ∧ Sparse k c L))

theorem primeTable_sorted : primeTable.Pairwise (· ≤ ·) := by decide +kernel

theorem primeTable_sparse_large : Sparse 7 300 primeTable := by decide +kernel

theorem primeTable_sparse_middle : Sparse 13 1000 primeTable := by decide +kernel

theorem bigSizes_length {inc mx : Nat} (hi : 7 ≤ inc) (size : Nat) :
    inc * ((bigSizes inc mx hi size).length - 1) ≤ mx - size := by
  fun_induction bigSizes inc mx hi size with
  | case1 size hle s' s'' ih =>
    have hge := le_findPrime s'' ⟨by omega, by omega⟩
    rw [List.length_cons, Nat.add_sub_cancel]
    generalize findPrime s'' _ = f at ih hge ⊢
    unfold bigSizes at ih ⊢
    split
    · rename_i hf
      rw [if_pos hf] at ih
      simp only [List.length_cons, Nat.add_sub_cancel] at ih ⊢
      rw [Nat.mul_add]
      omega
    · simp
  | case2 => simp

theorem inBounds_length_le (minS maxS : Nat) (L : List Nat) :
    (inBounds minS maxS L).length ≤ L.length := by
  unfold inBounds
  exact (List.length_filter_le _ _).trans (List.takeWhile_prefix _).length_le

theorem inBounds_cons_length (minS maxS a : Nat) (L : List Nat) :
    (inBounds minS maxS (a :: L)).length ≤ 1 + (inBounds minS maxS L).length := by
  unfold inBounds
  by_cases h : a ≤ maxS
  · rw [List.takeWhile_cons_of_pos (by simpa using h)]
    by_cases h2 : minS ≤ a
    · rw [List.filter_cons_of_pos (by simpa using h2), List.length_cons]; omega
    · rw [List.filter_cons_of_neg (by simpa using h2)]; omega
  · rw [List.takeWhile_cons_of_neg (by simpa using h)]; simp

/-- The candidates actually tried. -/
theorem candidates_tried (n : Nat) :
    (inBounds (minSize n) (maxSize n) (candidateSizes n)).length
      ≤ if n < 8 then 15 * n + 2 else if n < 1000 then 16 else 8 := by
  unfold candidateSizes
  by_cases h8 : n < 8
  · rw [if_pos h8]
    have hm : maxSize n = n * 16 := by unfold maxSize; rw [if_pos (by omega)]
    have hmi : minSize n = n := by unfold minSize acceptableCollisions; rw [if_pos (by omega)]; rfl
    rw [if_pos (by omega)]
    refine (inBounds_length_le _ _ _).trans ?_
    rw [List.length_cons, List.length_range', hm, hmi]
    omega
  · rw [if_neg h8]
    rw [if_neg (by unfold maxSize; split_ifs <;> omega)]
    refine (inBounds_cons_length _ _ _ _).trans ?_
    by_cases hb : minSize n < lastPrime
    · rw [dif_pos hb, inBounds_sorted primeTable_sorted]
      by_cases h1 : n < 1000
      · rw [if_pos h1]
        by_cases h128 : n < 128
        · have : (primeTable.filter (fun s => decide (minSize n ≤ s ∧ s ≤ maxSize n))).length
              ≤ (primeTable.filter (fun s => decide (s ≤ 2032))).length := by
            apply List.Sublist.length_le
            apply List.monotone_filter_right
            intro a ha
            simp only [decide_eq_true_eq] at ha ⊢
            have : maxSize n = n * 16 := by unfold maxSize; rw [if_pos h128]
            omega
          have h15 : (primeTable.filter (fun s => decide (s ≤ 2032))).length = 15 := by
            decide +kernel
          omega
        · have := sparse_count (lo := minSize n) (hi := maxSize n) (by omega)
            (by
              intro a b h2 h3
              unfold minSize acceptableCollisions at h2
              unfold maxSize at h3
              rw [if_neg h128] at h2 h3
              rw [if_pos h1] at h3
              omega) primeTable_sparse_middle
          omega
      · rw [if_neg h1]
        have := sparse_count (lo := minSize n) (hi := maxSize n) (by omega)
            (by
              intro a b h2 h3
              unfold minSize acceptableCollisions at h2
              unfold maxSize at h3
              rw [if_neg (by omega)] at h2 h3
              rw [if_neg h1] at h3
              omega) primeTable_sparse_large
        omega
    · rw [dif_neg hb]
      have hbig : 7199369 ≤ n := by
        have := minSize_le n
        unfold lastPrime at hb
        omega
      rw [if_neg (by omega)]
      have h1 := bigSizes_length (inc := n / 3) (mx := maxSize n) (by omega) (minSize n)
      have h2 := inBounds_length_le (minSize n) (maxSize n)
        (bigSizes (n / 3) (maxSize n) (by omega) (minSize n))
      generalize (bigSizes (n / 3) (maxSize n) (by omega) (minSize n)).length = l at h1 h2
      have h3 : maxSize n - minSize n ≤ 2 * n + 5 * (n / 100) := by
        unfold maxSize minSize acceptableCollisions
        rw [if_neg (by omega), if_neg (by omega), if_neg (by omega)]
        omega
      by_contra hl
      have h4 : n / 3 * 7 ≤ n / 3 * (l - 1) := Nat.mul_le_mul_left _ (by omega)
      omega

/-! ### The search for primes -/

theorem isPrimeLoopC_fst (c limit d : Nat) : (isPrimeLoopC c limit d).1 = isPrimeLoop c limit d := by
  fun_induction isPrimeLoop c limit d with
  | case1 d h h0 => unfold isPrimeLoopC; rw [if_pos h, if_pos h0]
  | case2 d h h0 ih => unfold isPrimeLoopC; rw [if_pos h, if_neg h0]; exact ih
  | case3 d h => unfold isPrimeLoopC; rw [if_neg h]

theorem isPrimeC_fst (c : Nat) : (isPrimeC c).1 = isPrime c := by
  unfold isPrimeC isPrime
  by_cases h3 : c % 3 = 0
  · simp [h3]
  · by_cases h5 : c % 5 = 0
    · simp [h3, h5]
    · simp only [h3, h5, if_false, or_self]
      exact isPrimeLoopC_fst _ _ _

theorem isPrimeLoopC_snd (c limit d : Nat) (h : d ≤ limit + 2) :
    2 * (isPrimeLoopC c limit d).2 ≤ limit + 2 - d := by
  fun_induction isPrimeLoop c limit d with
  | case1 d hd h0 => unfold isPrimeLoopC; rw [if_pos hd, if_pos h0]; simp; omega
  | case2 d hd h0 ih =>
    have := ih (by omega)
    unfold isPrimeLoopC; rw [if_pos hd, if_neg h0]; simp only; omega
  | case3 d hd => unfold isPrimeLoopC; rw [if_neg hd]; simp

theorem isPrimeC_snd (c : Nat) (h : 1 ≤ c) : (isPrimeC c).2 ≤ 2 + Nat.sqrt c / 2 := by
  unfold isPrimeC
  split
  · simp; omega
  · split
    · simp
    · have hs : 1 ≤ Nat.sqrt c := Nat.sqrt_pos.2 h
      have := isPrimeLoopC_snd c (Nat.sqrt c) 3 (by omega)
      simp only
      omega

theorem findPrimeCost_le (size : Nat) (h : size % 2 = 1 ∧ 7 ≤ size) (B : Nat)
    (hB : findPrime size h ≤ B) :
    2 * findPrimeCost size h ≤ (findPrime size h - size + 2) * (2 + Nat.sqrt B / 2) := by
  fun_induction findPrime size h with
  | case1 s hs hp =>
    unfold findPrimeCost
    rw [if_pos hp]
    have h1 := isPrimeC_snd s (by omega)
    have h2 := Nat.sqrt_le_sqrt hB
    simp only [Nat.sub_self, Nat.zero_add]
    have : Nat.sqrt s ≤ Nat.sqrt B := h2
    omega
  | case2 s hs hp ih =>
    have ih := ih hB
    have hge := le_findPrime (s + 2) ⟨by omega, by omega⟩
    unfold findPrimeCost
    rw [if_neg hp]
    have h1 := isPrimeC_snd s (by omega)
    have h2 : Nat.sqrt s ≤ Nat.sqrt B := Nat.sqrt_le_sqrt (by omega)
    generalize findPrime (s + 2) _ = f at ih hge hB ⊢
    have h3 : f - s + 2 = (f - (s + 2) + 2) + 2 := by omega
    rw [h3, Nat.add_mul]
    omega

/-- The next prime is less than twice as far. -/
theorem findPrime_lt_two_mul (size : Nat) (h : size % 2 = 1 ∧ 7 ≤ size) :
    findPrime size h ≤ 2 * size := by
  obtain ⟨p, hp, h1, h2⟩ := Nat.exists_prime_lt_and_le_two_mul size (by omega)
  exact ((findPrime_spec size h).2.2 p hp (by omega)).trans h2

theorem bigSizesCost_le {inc mx : Nat} (hi : 7 ≤ inc) (size : Nat) :
    bigSizesCost inc mx hi size
      ≤ (bigSizes inc mx hi size).length
        * ((mx + inc + 3) * (2 + Nat.sqrt (2 * (mx + inc + 1)) / 2)) := by
  fun_induction bigSizes inc mx hi size with
  | case1 size hle s' s'' ih =>
    unfold bigSizesCost
    rw [if_pos hle, List.length_cons, Nat.add_mul, Nat.one_mul]
    have hs : s'' ≤ mx + inc + 1 := by omega
    have h1 := findPrime_lt_two_mul s'' ⟨by omega, by omega⟩
    have h2 := findPrimeCost_le s'' ⟨by omega, by omega⟩ (2 * (mx + inc + 1)) (by omega)
    simp only
    have h3 : (findPrime s'' ⟨by omega, by omega⟩ - s'' + 2) * (2 + Nat.sqrt (2 * (mx + inc + 1)) / 2)
        ≤ (mx + inc + 3) * (2 + Nat.sqrt (2 * (mx + inc + 1)) / 2) :=
      Nat.mul_le_mul_right _ (by omega)
    change findPrimeCost s'' _ + bigSizesCost inc mx hi (findPrime s'' _) ≤ _
    omega
  | case2 size hle =>
    unfold bigSizesCost
    rw [if_neg hle]
    simp

end FC
