import Verif.Spec.Divisions
import Verif.Lemmas.SizingCost

/-
The counts of the table sizing are not too small.
-/

set_option autoImplicit false

namespace FC

/-! ### Codes -/

/-- A trial table that is not given up is filled with every code. -/
theorem countLoopC_all {size best : Nat} {codes : List Nat} :
    ∀ {table : List Bool} {num steps n s : Nat},
      countLoopC size best codes table num steps = .ok (n, s) → n < best →
        s = steps + codes.length := by
  induction codes with
  | nil => intro table num steps n s h _; cases h; simp
  | cons c codes ih =>
    intro table num steps n s h hb
    unfold countLoopC at h
    rw [List.length_cons]
    cases hm : umod c size with
    | ok slot =>
      rw [hm] at h
      simp only at h
      cases ht : table[slot]? with
      | none => rw [ht] at h; cases h
      | some b =>
        rw [ht] at h
        cases b with
        | true =>
          simp only at h
          split at h
          · cases h; omega
          · have := ih h hb; omega
        | false => have := ih h hb; omega
    | panic => rw [hm] at h; cases h
    | ub => rw [hm] at h; cases h

theorem sizeLoopC_mono {codes : List Nat} {minS maxS : Nat} {sizes : List Nat} :
    ∀ {bestSize best acc : Nat} {w w' : SizingWork} {r : HashAnalysis},
      sizeLoopC codes minS maxS sizes bestSize best acc w = .ok (r, w') →
        w.tables ≤ w'.tables ∧ w.codes ≤ w'.codes ∧
        (bestSize = 0 → r.numHashSlots ≠ 0 →
          w.tables + 1 ≤ w'.tables ∧ w.codes + codes.length ≤ w'.codes) := by
  induction sizes with
  | nil =>
    intro bestSize best acc w w' r h
    cases h
    exact ⟨le_rfl, le_rfl, fun h1 h2 => (h2 h1).elim⟩
  | cons size sizes ih =>
    intro bestSize best acc w w' r h
    unfold sizeLoopC at h
    split at h
    · exact ih h
    · split at h
      · cases h
        exact ⟨le_rfl, le_rfl, fun h1 h2 => (h2 h1).elim⟩
      · cases hc : countLoopC size best codes (List.replicate maxS false) 0 0 with
        | ok q =>
          obtain ⟨num, steps⟩ := q
          rw [hc] at h
          simp only at h
          split at h
          · rename_i hlt
            have hst := countLoopC_all hc hlt
            split at h
            · cases h
              refine ⟨by simp, by simp, fun _ _ => ⟨by simp, by simp; omega⟩⟩
            · obtain ⟨h1, h2, _⟩ := ih h
              simp only at h1 h2
              exact ⟨by omega, by omega, fun _ _ => ⟨by omega, by omega⟩⟩
          · obtain ⟨h1, h2, h3⟩ := ih h
            simp only at h1 h2 h3
            refine ⟨by omega, by omega, fun h4 h5 => ?_⟩
            obtain ⟨h6, h7⟩ := h3 h4 h5
            exact ⟨by omega, by omega⟩
        | panic => rw [hc] at h; cases h
        | ub => rw [hc] at h; cases h

/-! ### Divisions -/

theorem isPrimeLoopC_exact {c : Nat} (hc : c % 2 = 1) (limit d : Nat) (hd : d % 2 = 1)
    (h2 : 2 ≤ d) (h : d ≤ c.minFac) :
    (isPrimeLoopC c limit d).2 = (min c.minFac limit + 2 - d) / 2 := by
  have hodd : c.minFac % 2 = 1 := by
    have h1 : c.minFac ∣ c := Nat.minFac_dvd c
    by_contra hne
    have : 2 ∣ c := (Nat.dvd_of_mod_eq_zero (by omega)).trans h1
    omega
  fun_induction isPrimeLoop c limit d with
  | case1 d hle h0 =>
    unfold isPrimeLoopC
    rw [if_pos hle, if_pos h0]
    have : c.minFac = d := le_antisymm (Nat.minFac_le_of_dvd h2 (Nat.dvd_of_mod_eq_zero h0)) h
    simp only
    omega
  | case2 d hle h0 ih =>
    have hne : c.minFac ≠ d := fun he => h0 (Nat.mod_eq_zero_of_dvd (he ▸ Nat.minFac_dvd c))
    have := ih (by omega) (by omega) (by omega)
    unfold isPrimeLoopC
    rw [if_pos hle, if_neg h0]
    simp only
    omega
  | case3 d hle =>
    unfold isPrimeLoopC
    rw [if_neg hle]
    simp only
    omega

theorem isPrimeC_exact {c : Nat} (hc : c % 2 = 1) (h1 : c ≠ 1) : (isPrimeC c).2 = divisions c := by
  unfold isPrimeC divisions
  by_cases h3 : c % 3 = 0
  · rw [if_pos h3, if_pos (Nat.dvd_of_mod_eq_zero h3)]
  · rw [if_neg h3, if_neg (fun h => h3 (Nat.mod_eq_zero_of_dvd h))]
    by_cases h5 : c % 5 = 0
    · rw [if_pos h5, if_pos (Nat.dvd_of_mod_eq_zero h5)]
    · rw [if_neg h5, if_neg (fun h => h5 (Nat.mod_eq_zero_of_dvd h))]
      have h2 := (Nat.minFac_prime h1).two_le
      have hne : c.minFac ≠ 2 := fun he => by
        have := Nat.minFac_dvd c
        rw [he] at this
        omega
      have := isPrimeLoopC_exact hc (Nat.sqrt c) 3 (by decide) (by decide) (by omega)
      simp only
      omega

theorem nextPrime_eq (size : Nat) (h : size % 2 = 1 ∧ 7 ≤ size) :
    nextPrime size = findPrime size h := by
  have hs := findPrime_spec size h
  unfold nextPrime
  refine le_antisymm (Nat.find_min' _ ⟨hs.2.1, hs.1⟩) ?_
  have := Nat.find_spec (Nat.exists_infinite_primes size)
  exact hs.2.2 _ this.2 this.1

theorem findPrimeCost_exact (size : Nat) (h : size % 2 = 1 ∧ 7 ≤ size) :
    findPrimeCost size h
      = ((List.range' size ((findPrime size h - size) / 2 + 1) 2).map divisions).sum := by
  fun_induction findPrime size h with
  | case1 s hs hp =>
    unfold findPrimeCost
    rw [if_pos hp, isPrimeC_exact hs.1 (by omega)]
    simp
  | case2 s hs hp ih =>
    have hge := le_findPrime (s + 2) ⟨by omega, by omega⟩
    unfold findPrimeCost
    rw [if_neg hp, isPrimeC_exact hs.1 (by omega), ih]
    have : (findPrime (s + 2) ⟨by omega, by omega⟩ - s) / 2 + 1
        = ((findPrime (s + 2) ⟨by omega, by omega⟩ - (s + 2)) / 2 + 1) + 1 := by
      generalize findPrime (s + 2) _ = f at hge ⊢
      omega
    rw [this, List.range'_succ (n := _ + 1), List.map_cons, List.sum_cons]

theorem bigSizesCost_exact {inc mx : Nat} (hi : 7 ≤ inc) (size : Nat) :
    bigSizesCost inc mx hi size
      = ((bigSizes inc mx hi size).map (fun s => searchDivisions (oddFrom (s + inc)))).sum := by
  fun_induction bigSizes inc mx hi size with
  | case1 size hle s' s'' ih =>
    unfold bigSizesCost
    rw [if_pos hle, List.map_cons, List.sum_cons, ← ih]
    have he : oddFrom (size + inc) = s'' := by
      unfold oddFrom
      split <;> omega
    have hp : s'' % 2 = 1 ∧ 7 ≤ s'' := ⟨by omega, by omega⟩
    rw [he]
    unfold searchDivisions
    rw [nextPrime_eq s'' hp, ← findPrimeCost_exact s'' hp]
  | case2 size hle =>
    unfold bigSizesCost
    rw [if_neg hle]
    simp

end FC
