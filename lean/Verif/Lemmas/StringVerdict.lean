import Verif.Lemmas.Slice

set_option autoImplicit false

namespace FC
variable [Target]

omit [Target] in
theorem least_eq {P : Nat → Prop} {i j : Nat} (hi : P i) (hj : P j) (mi : ∀ k, k < i → ¬ P k)
    (mj : ∀ k, k < j → ¬ P k) : i = j := by
  rcases Nat.lt_trichotomy i j with h | h | h
  · exact absurd hi (mj i h)
  · exact h
  · exact absurd hj (mi j h)

omit [Target] in
theorem not_spread_ne_nil {keys : List Bytes} (h : ¬ LengthsSpread keys) : keys ≠ [] := by
  rintro rfl
  exact h ⟨by simp, by simp⟩

omit [Target] in
theorem Outcome.unique {bh : Hasher} {keys : List Bytes} {r r' : Res SliceVerdict}
    (h : Outcome bh keys r) (h' : Outcome bh keys r') : r = r' := by
  have pick : ∀ {l : Nat}, ¬ LengthsSpread keys → (∀ k ∈ keys, l < k.length) →
      ∃ k ∈ keys, l ≠ k.length := by
    intro l hs hl
    obtain ⟨k, hk⟩ := List.exists_mem_of_ne_nil _ (not_spread_ne_nil hs)
    exact ⟨k, hk, Nat.ne_of_lt (hl k hk)⟩
  cases h with
  | length a => cases h' with
    | length => rfl
    | _ => exact absurd a (by assumption)
  | sameLeft i l a b c d e f g k => cases h' with
    | sameLeft i' l' _ _ c' _ _ f' g' k' =>
      have hl : l = l' := by
        rcases Nat.lt_trichotomy l l' with h | h | h
        · exact absurd f (k' i l c h)
        · exact h
        · exact absurd f' (k i' l' c' h)
      subst hl
      rw [least_eq (P := fun i => LeftOKAt bh keys i l) f f' g g']
    | sameNormal _ _ h => exact absurd f (h i l c d (pick a e))
    | _ => first | exact absurd (by assumption) a | exact absurd b (by assumption)
  | sameNormal a b h => cases h' with
    | sameLeft i' l' _ _ c' d' e' f' _ _ => exact absurd f' (h i' l' c' d' (pick a e'))
    | sameNormal => rfl
    | _ => first | exact absurd (by assumption) a | exact absurd b (by assumption)
  | left1 i a b c d => cases h' with
    | left1 i' _ _ c' d' => rw [least_eq (P := fun i => LeftOKAt bh keys i 1) c c' d d']
    | right1 _ _ _ h => exact absurd c (h i)
    | short _ _ h => exact absurd c (h i)
    | left2 _ _ _ h => exact absurd c (h i)
    | crash _ _ _ h => exact absurd c (h i)
    | _ => first | exact absurd (by assumption) a | exact absurd (by assumption) b
  | right1 i a b c d e => cases h' with
    | left1 i' _ _ c' d' => exact absurd c' (c i')
    | right1 i' _ _ _ d' e' => rw [least_eq (P := fun i => RightOKAt bh keys i 1) d d' e e']
    | short _ _ _ h => exact absurd d (h i)
    | left2 _ _ _ _ h => exact absurd d (h i)
    | crash _ _ _ _ h => exact absurd d (h i)
    | _ => first | exact absurd (by assumption) a | exact absurd (by assumption) b
  | short a b c d e => cases h' with
    | left1 i' _ _ c' d' => exact absurd c' (c i')
    | right1 i' _ _ _ d' e' => exact absurd d' (d i')
    | short => rfl
    | left2 i' _ _ _ _ h =>
      obtain ⟨k, hk, hk1⟩ := e
      have := h.1 k hk
      omega
    | crash _ _ h =>
      obtain ⟨k, hk, hk1⟩ := e
      have := h k hk
      omega
    | _ => first | exact absurd (by assumption) a | exact absurd (by assumption) b
  | left2 i a b c d e f => cases h' with
    | left1 i' _ _ c' d' => exact absurd c' (c i')
    | right1 i' _ _ _ d' e' => exact absurd d' (d i')
    | short _ _ _ _ h =>
      obtain ⟨k, hk, hk1⟩ := h
      have := e.1 k hk
      omega
    | left2 i' _ _ _ _ e' f' => rw [least_eq (P := fun i => LeftOKAt bh keys i 2) e e' f f']
    | crash _ _ _ _ _ h => exact absurd e (h i)
    | _ => first | exact absurd (by assumption) a | exact absurd (by assumption) b
  | crash a b c d e f => cases h' with
    | left1 i' _ _ c' d' => exact absurd c' (d i')
    | right1 i' _ _ _ d' e' => exact absurd d' (e i')
    | short _ _ _ _ h =>
      obtain ⟨k, hk, hk1⟩ := h
      have := c k hk
      omega
    | left2 i' _ _ _ _ e' f' => exact absurd e' (f i')
    | crash => rfl
    | _ => first | exact absurd (by assumption) a | exact absurd (by assumption) b

omit [Target] in
theorem repeats_perm {xs ys : List Nat} (h : xs.Perm ys) : repeats xs = repeats ys := by
  unfold repeats
  rw [h.length_eq, List.toFinset_eq_of_perm _ _ h]

omit [Target] in
theorem LengthsSpread.perm_iff {keys keys' : List Bytes} (h : keys.Perm keys') :
    LengthsSpread keys ↔ LengthsSpread keys' := by
  unfold LengthsSpread
  rw [h.length_eq]
  simp only [(h.map List.length).count_eq]

omit [Target] in
theorem SameLength.perm_iff {keys keys' : List Bytes} (h : keys.Perm keys') :
    SameLength keys ↔ SameLength keys' := by
  unfold SameLength
  simp only [h.mem_iff]

omit [Target] in
theorem LeftOKAt.perm_iff {bh : Hasher} {keys keys' : List Bytes} (h : keys.Perm keys')
    (i l : Nat) : LeftOKAt bh keys i l ↔ LeftOKAt bh keys' i l := by
  unfold LeftOKAt LeftUnique
  rw [h.length_eq, repeats_perm (h.map _)]
  simp only [h.mem_iff]

omit [Target] in
theorem RightOKAt.perm_iff {bh : Hasher} {keys keys' : List Bytes} (h : keys.Perm keys')
    (i l : Nat) : RightOKAt bh keys i l ↔ RightOKAt bh keys' i l := by
  unfold RightOKAt RightUnique
  rw [h.length_eq, repeats_perm (h.map _)]
  simp only [h.mem_iff]

omit [Target] in
theorem Constructible.perm_iff {bh : Hasher} {keys keys' : List Bytes} (h : keys.Perm keys') :
    Constructible bh keys ↔ Constructible bh keys' := by
  unfold Constructible
  simp only [LengthsSpread.perm_iff h, SameLength.perm_iff h, LeftOKAt.perm_iff h,
    RightOKAt.perm_iff h, h.mem_iff, h.length_eq]

omit [Target] in
theorem Outcome.perm {bh : Hasher} {keys keys' : List Bytes} (h : keys.Perm keys')
    {r : Res SliceVerdict} (ho : Outcome bh keys r) : Outcome bh keys' r := by
  cases ho <;> simp only [LengthsSpread.perm_iff h, SameLength.perm_iff h, LeftOKAt.perm_iff h,
    RightOKAt.perm_iff h, h.mem_iff] at *
  · exact .length (by assumption)
  · exact .sameLeft _ _ (by assumption) (by assumption) (by assumption) (by assumption)
      (by assumption) (by assumption) (by assumption) (by assumption)
  · exact .sameNormal (by assumption) (by assumption) (by assumption)
  · exact .left1 _ (by assumption) (by assumption) (by assumption) (by assumption)
  · exact .right1 _ (by assumption) (by assumption) (by assumption) (by assumption) (by assumption)
  · exact .short (by assumption) (by assumption) (by assumption) (by assumption) (by assumption)
  · exact .left2 _ (by assumption) (by assumption) (by assumption) (by assumption) (by assumption)
      (by assumption)
  · exact .crash (by assumption) (by assumption) (by assumption) (by assumption) (by assumption)
      (by assumption)

end FC
