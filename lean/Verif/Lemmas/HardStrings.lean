import Verif.Examples
import Verif.Spec.StringVerdict

/-
Two lists of strings that no hasher tells apart by the parts the analysis looks at.
-/

set_option autoImplicit false

namespace FC

theorem repeats_pos {xs : List Nat} (h : ¬ xs.Nodup) : 1 ≤ repeats xs := by
  have h1 := xs.toFinset_card_le
  have h2 : xs.toFinset.card ≠ xs.length := fun hc =>
    h (Multiset.toFinset_card_eq_card_iff_nodup.1 
      (show (Multiset.toFinset (xs : Multiset Nat)).card = Multiset.card (xs : Multiset Nat) from hc))
  unfold repeats
  omega

theorem not_leftOKAt {keys : List Bytes} {i l : Nat} (hs : keys.length < 20)
    (h : ¬ (keys.map (leftPart i l)).Nodup) (bh : Hasher) : ¬ LeftOKAt bh keys i l := by
  rintro ⟨_, hu⟩
  have := repeats_pos (xs := keys.map (fun k => bh.hashOneBytes (leftPart i l k)))
    (fun hn => h (List.Nodup.of_map bh.hashOneBytes (by simpa [Function.comp_def] using hn)))
  unfold LeftUnique at hu
  omega

theorem not_rightOKAt {keys : List Bytes} {i l : Nat} (hs : keys.length < 20)
    (h : ¬ (keys.map (rightPart i l)).Nodup) (bh : Hasher) : ¬ RightOKAt bh keys i l := by
  rintro ⟨_, hu⟩
  have := repeats_pos (xs := keys.map (fun k => bh.hashOneBytes (rightPart i l k)))
    (fun hn => h (List.Nodup.of_map bh.hashOneBytes (by simpa [Function.comp_def] using hn)))
  unfold RightUnique at hu
  omega

theorem crashKeys_left (bh : Hasher) (l : Nat) (hl : l = 1 ∨ l = 2) (j : Nat) :
    ¬ LeftOKAt bh crashKeys j l := by
  by_cases hj : j + l ≤ 3
  · apply not_leftOKAt (by decide)
    have hj' : j < 3 := by omega
    rcases hl with rfl | rfl <;>
    rcases (show j = 0 ∨ j = 1 ∨ j = 2 by omega) with rfl | rfl | rfl <;>
      first | omega | decide
  · rintro ⟨h, _⟩
    exact hj (h [65, 65, 65] (by decide))

theorem crashKeys_right (bh : Hasher) (j : Nat) : ¬ RightOKAt bh crashKeys j 1 := by
  by_cases hj : j + 1 ≤ 3
  · apply not_rightOKAt (by decide)
    have hj' : j < 3 := by omega
    rcases (show j = 0 ∨ j = 1 ∨ j = 2 by omega) with rfl | rfl | rfl <;> decide
  · rintro ⟨h, _⟩
    exact hj (h [65, 65, 65] (by decide))

theorem rightKeys_left (bh : Hasher) (l : Nat) (hl : l = 1 ∨ l = 2) (j : Nat) :
    ¬ LeftOKAt bh rightKeys j l := by
  by_cases hj : j + l ≤ 3
  · apply not_leftOKAt (by decide)
    have hj' : j < 3 := by omega
    rcases hl with rfl | rfl <;>
    rcases (show j = 0 ∨ j = 1 ∨ j = 2 by omega) with rfl | rfl | rfl <;>
      first | omega | decide
  · rintro ⟨h, _⟩
    exact hj (h [88, 88, 65] (by decide))

theorem crashKeys_spread : ¬ LengthsSpread crashKeys := fun h => absurd (h.2 3) (by decide)
theorem rightKeys_spread : ¬ LengthsSpread rightKeys := fun h => absurd (h.2 3) (by decide)
theorem crashKeys_same : ¬ SameLength crashKeys := by unfold SameLength; decide
theorem rightKeys_same : ¬ SameLength rightKeys := by unfold SameLength; decide

theorem crashKeys_not_constructible (bh : Hasher) : ¬ Constructible bh crashKeys := by
  rintro (h | h | h | ⟨i, h⟩ | ⟨_, ⟨k, hk, h⟩ | ⟨i, h⟩⟩)
  · exact absurd h (by decide)
  · exact crashKeys_spread h
  · exact crashKeys_same h
  · exact crashKeys_left bh 1 (.inl rfl) i h
  · revert k; decide
  · exact crashKeys_left bh 2 (.inr rfl) i h

theorem rightKeys_not_constructible (bh : Hasher) : ¬ Constructible bh rightKeys := by
  rintro (h | h | h | ⟨i, h⟩ | ⟨_, ⟨k, hk, h⟩ | ⟨i, h⟩⟩)
  · exact absurd h (by decide)
  · exact rightKeys_spread h
  · exact rightKeys_same h
  · exact rightKeys_left bh 1 (.inl rfl) i h
  · revert k; decide
  · exact rightKeys_left bh 2 (.inr rfl) i h

/-- The last bytes work when the hasher gives them different codes. -/
theorem rightKeys_right {bh : Hasher}
    (h : ([[65], [66], [67], [68], [88], [69]].map bh.hashOneBytes).Nodup) :
    RightOKAt bh rightKeys 0 1 := by
  refine ⟨by decide, ?_⟩
  have he : rightKeys.map (fun k => bh.hashOneBytes (rightPart 0 1 k))
      = [[65], [66], [67], [68], [88], [69]].map bh.hashOneBytes := rfl
  unfold RightUnique repeats
  rw [he, List.toFinset_card_of_nodup h]
  simp

end FC
