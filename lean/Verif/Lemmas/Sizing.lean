import Verif.Lemmas.HashCode
import Verif.Lemmas.Primes

/-
The search over candidate sizes, exactly: which candidate is taken.
-/

set_option autoImplicit false

namespace FC
variable [Target]

/-- Collisions of the codes in a table of `s` slots. -/
def collAt (codes : List Nat) (s : Nat) : Nat := codes.length - distinctResidues codes s

/-- First size of the list whose collisions are within the (shrinking) tolerance. -/
def firstFit (codes : List Nat) : List Nat → Nat → Option Nat
  | [], _ => none
  | s :: L, acc => if collAt codes s ≤ acc then some s else firstFit codes L (reduceAcceptable acc)

/-- The candidates the main loop looks at. -/
def inBounds (minS maxS : Nat) (sizes : List Nat) : List Nat :=
  (sizes.takeWhile (fun s => decide (s ≤ maxS))).filter (fun s => decide (minS ≤ s))

omit [Target] in
theorem sizeLoop_firstFit (codes : List Nat) (minS maxS bestSize : Nat) (hmin : 0 < minS)
    (hbs : bestSize ≠ 0) (hmm : minS ≤ maxS) (sizes : List Nat) :
    ∀ (best acc : Nat), acc < best →
      sizeLoop codes minS maxS sizes bestSize best acc
        = .ok (match firstFit codes (inBounds minS maxS sizes) acc with
            | some s => ⟨s, collAt codes s⟩
            | none => ⟨bestSize, best⟩) := by
  induction sizes with
  | nil => intro best acc _; rfl
  | cons size sizes ih =>
    intro best acc hacc
    unfold sizeLoop
    split
    · rename_i hlt
      rw [ih best acc hacc]
      have : inBounds minS maxS (size :: sizes) = inBounds minS maxS sizes := by
        unfold inBounds
        rw [List.takeWhile_cons_of_pos (by simp; omega), List.filter_cons_of_neg (by simp; omega)]
      rw [this]
    · rename_i hlt
      split
      · rename_i hgt
        have : inBounds minS maxS (size :: sizes) = [] := by
          unfold inBounds
          rw [List.takeWhile_cons_of_neg (by simp; omega)]
          rfl
        rw [this]
        rfl
      · rename_i hgt
        have hib : inBounds minS maxS (size :: sizes) = size :: inBounds minS maxS sizes := by
          unfold inBounds
          rw [List.takeWhile_cons_of_pos (by simp; omega), List.filter_cons_of_pos (by simp; omega)]
        rw [hib, countLoop_fresh (by omega) (by omega) (by omega)]
        simp only
        have hr := reduceAcceptable_le acc
        unfold firstFit
        by_cases hfit : collAt codes size ≤ acc
        · rw [if_pos hfit]
          unfold collAt at hfit ⊢
          rw [if_pos (by omega), if_pos (by omega)]
          have h1 : bestSize = 0 ∨ min best (codes.length - distinctResidues codes size) ≤ acc :=
            Or.inr (by omega)
          simp only [h1, if_true]
          congr 2
          omega
        · rw [if_neg hfit]
          have hnot : ¬ min best (codes.length - distinctResidues codes size) ≤ acc := by
            unfold collAt at hfit; omega
          rw [if_neg hnot]
          have h1 : ¬ (bestSize = 0 ∨ min best (codes.length - distinctResidues codes size) ≤ acc) := by
            rintro (h | h)
            · exact hbs h
            · exact hnot h
          simp only [h1, if_false]
          split
          · exact ih best _ (by omega)
          · exact ih best _ (by omega)

omit [Target] in
/-- The whole analysis. -/
theorem analyze_firstFit (codes : List Nat) (hne : codes ≠ []) :
    analyzeHashCodes codes
      = .ok (match firstFit codes (inBounds (minSize codes.length) (maxSize codes.length)
            (candidateSizes codes.length)) (acceptableCollisions codes.length) with
          | some s => ⟨s, collAt codes s⟩
          | none => ⟨codes.length, collAt codes codes.length⟩) := by
  have hn : 0 < codes.length := List.length_pos_iff.2 hne
  have h1 := minSize_le codes.length
  have h2 := le_maxSize codes.length
  have h3 := minSize_pos hn
  have hd := distinctResidues_pos codes.length hne
  unfold analyzeHashCodes
  obtain ⟨tl, htl⟩ : ∃ tl, candidateSizes codes.length = codes.length :: tl := ⟨_, rfl⟩
  rw [htl]
  have hib : inBounds (minSize codes.length) (maxSize codes.length) (codes.length :: tl)
      = codes.length :: inBounds (minSize codes.length) (maxSize codes.length) tl := by
    unfold inBounds
    rw [List.takeWhile_cons_of_pos (by simp; omega), List.filter_cons_of_pos (by simp; omega)]
  rw [hib]
  unfold sizeLoop
  rw [if_neg (by omega), if_neg (by omega), countLoop_fresh (by omega) (by omega) (by omega)]
  simp only
  rw [if_pos (by omega)]
  have hmin : min codes.length (codes.length - distinctResidues codes codes.length)
      = collAt codes codes.length := by unfold collAt; omega
  rw [hmin]
  simp only [true_or, if_true]
  unfold firstFit
  by_cases hfit : collAt codes codes.length ≤ acceptableCollisions codes.length
  · rw [if_pos hfit, if_pos hfit]
  · rw [if_neg hfit, if_neg hfit]
    exact sizeLoop_firstFit codes _ _ _ h3 (by omega) (by omega) tl _ _
      (lt_of_le_of_lt (reduceAcceptable_le _) (by omega))

omit [Target] in
/-- `firstFit` in terms of positions. -/
theorem firstFit_some {codes : List Nat} {L : List Nat} {acc s : Nat}
    (h : firstFit codes L acc = some s) :
    ∃ i, L[i]? = some s ∧ collAt codes s ≤ reduceAcceptable^[i] acc ∧
      ∀ j < i, ∀ t, L[j]? = some t → reduceAcceptable^[j] acc < collAt codes t := by
  induction L generalizing acc with
  | nil => cases h
  | cons a L ih =>
    unfold firstFit at h
    split at h
    · rename_i hfit
      cases h
      exact ⟨0, rfl, hfit, fun j hj => absurd hj (by omega)⟩
    · rename_i hfit
      obtain ⟨i, h1, h2, h3⟩ := ih h
      refine ⟨i + 1, by simpa using h1, by simpa using h2, ?_⟩
      intro j hj t ht
      cases j with
      | zero =>
        have : a = t := by simpa using ht
        subst this
        simpa using hfit
      | succ j => exact h3 j (by omega) t (by simpa using ht)

omit [Target] in
theorem firstFit_none {codes : List Nat} {L : List Nat} {acc : Nat}
    (h : firstFit codes L acc = none) :
    ∀ (j t : Nat), L[j]? = some t → reduceAcceptable^[j] acc < collAt codes t := by
  induction L generalizing acc with
  | nil => intro j t ht; simp at ht
  | cons a L ih =>
    unfold firstFit at h
    split at h
    · cases h
    · rename_i hfit
      intro j t ht
      cases j with
      | zero =>
        have : a = t := by simpa using ht
        subst this
        simpa using hfit
      | succ j => exact ih h j t (by simpa using ht)

omit [Target] in
/-- On an ascending list, stopping at the first too large size is the same as filtering. -/
theorem inBounds_sorted {minS maxS : Nat} {L : List Nat} (h : L.Pairwise (· ≤ ·)) :
    inBounds minS maxS L = L.filter (fun s => decide (minS ≤ s ∧ s ≤ maxS)) := by
  induction L with
  | nil => rfl
  | cons a L ih =>
    rw [List.pairwise_cons] at h
    have ih := ih h.2
    by_cases ha : a ≤ maxS
    · unfold inBounds at ih ⊢
      rw [List.takeWhile_cons_of_pos (by simpa using ha)]
      by_cases hm : minS ≤ a
      · rw [List.filter_cons_of_pos (by simpa using hm), List.filter_cons_of_pos (by simp [ha, hm]), ih]
      · rw [List.filter_cons_of_neg (by simpa using hm), List.filter_cons_of_neg (by simp [hm]), ih]
    · unfold inBounds
      rw [List.takeWhile_cons_of_neg (by simpa using ha)]
      symm
      rw [List.filter_nil, List.filter_eq_nil_iff]
      intro b hb
      rcases List.mem_cons.1 hb with rfl | hb
      · simp; omega
      · have := h.1 b hb
        simp; omega

omit [Target] in
/-- Membership and order of the sizes tried for very large inputs. -/
theorem bigSizes_bounds {inc mx : Nat} (hi : 7 ≤ inc) (size : Nat) :
    ∀ s ∈ bigSizes inc mx hi size, size ≤ s ∧ s ≤ mx := by
  fun_induction bigSizes inc mx hi size with
  | case1 size hle s' s'' ih =>
    intro s hs
    rcases List.mem_cons.1 hs with rfl | hs
    · exact ⟨le_rfl, hle⟩
    · have := ih s hs
      have h2 := le_findPrime s'' ⟨by omega, by omega⟩
      exact ⟨by omega, this.2⟩
  | case2 => intro s hs; cases hs

omit [Target] in
/-- Each size after the first is the least prime that is at least the previous size plus the
increment, and the list stops only when that prime is beyond the maximum. -/
theorem bigSizes_chain {inc mx : Nat} (hi : 7 ≤ inc) (size : Nat) :
    ∀ (i s : Nat), (bigSizes inc mx hi size)[i]? = some s →
      ∃ p, p.Prime ∧ s + inc ≤ p ∧ (∀ q, q.Prime → s + inc ≤ q → p ≤ q) ∧
        (bigSizes inc mx hi size)[i + 1]? = if p ≤ mx then some p else none := by
  fun_induction bigSizes inc mx hi size with
  | case1 size hle s' s'' ih =>
    intro i s hs
    have hodd : s'' % 2 = 1 := by omega
    have h7 : 7 ≤ s'' := by omega
    obtain ⟨hp, hge, hleast⟩ := findPrime_spec s'' ⟨hodd, h7⟩
    cases i with
    | zero =>
      have hss : size = s := by simpa using hs
      subst hss
      refine ⟨_, hp, by omega, ?_, ?_⟩
      · intro q hq hsq
        apply hleast q hq
        rcases hq.eq_two_or_odd with h | h <;> omega
      · rw [List.getElem?_cons_succ]
        unfold bigSizes
        split
        · rfl
        · rfl
    | succ i => exact ih i s (by simpa using hs)
  | case2 => intro i s hs; simp at hs

end FC
