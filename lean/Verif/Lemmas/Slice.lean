import Verif.Spec
import Verif.Spec.StringVerdict
import Verif.Lemmas.Table
import Mathlib.Data.Finset.Card

/-
Facts about the string key analyzer.
-/

set_option autoImplicit false

namespace FC
variable [Target]

/-! ### Lengths -/

omit [Target] in
theorem lengthsLoop_cases (keys : List Bytes) (f : Nat → Option Nat) :
    lengthsLoop keys f = .length ∨ lengthsLoop keys f = .normal := by
  induction keys generalizing f with
  | nil => exact Or.inl rfl
  | cons s ks ih =>
    unfold lengthsLoop
    split
    · split
      · exact Or.inr rfl
      · exact ih _
    · exact ih _

omit [Target] in
theorem lengthsLoop_iff (keys : List Bytes) (f : Nat → Option Nat)
    (hf : ∀ L, (f L).getD 0 ≤ 3) :
    lengthsLoop keys f = .length ↔
      ∀ L, (f L).getD 0 + (keys.map List.length).count L ≤ 3 := by
  induction keys generalizing f with
  | nil => simp [lengthsLoop, hf]
  | cons s ks ih =>
    unfold lengthsLoop
    cases hs : f s.length with
    | some c =>
      simp only
      have hc := hf s.length
      rw [hs] at hc
      simp at hc
      split
      · rename_i h3
        simp only [reduceCtorEq, false_iff, not_forall]
        refine ⟨s.length, ?_⟩
        simp [hs]; omega
      · rename_i h3
        rw [ih]
        · apply forall_congr'
          intro L
          by_cases hL : L = s.length
          · subst hL; simp [hs]; omega
          · have : s.length ≠ L := fun h => hL h.symm
            simp [hL, this]
        · intro L
          by_cases hL : L = s.length
          · subst hL; simp; omega
          · simp [hL]; exact hf L
    | none =>
      simp only
      rw [ih]
      · apply forall_congr'
        intro L
        by_cases hL : L = s.length
        · subst hL; simp [hs]; omega
        · have : s.length ≠ L := fun h => hL h.symm
          simp [hL, this]
      · intro L
        by_cases hL : L = s.length
        · subst hL; simp
        · simp [hL]; exact hf L

omit [Target] in
theorem analyzeLengths_iff (keys : List Bytes) :
    analyzeLengths keys = .length ↔
      keys.length ≤ 255 ∧ ∀ L, (keys.map List.length).count L ≤ 3 := by
  unfold analyzeLengths
  split
  · rename_i h; simp; intro h'; omega
  · rename_i h
    rw [lengthsLoop_iff _ _ (by simp)]
    simp
    omega

omit [Target] in
theorem analyzeLengths_cases (keys : List Bytes) :
    analyzeLengths keys = .length ∨ analyzeLengths keys = .normal := by
  unfold analyzeLengths
  split
  · exact Or.inr rfl
  · exact lengthsLoop_cases _ _

/-! ### Sub-slices -/

theorem uniqueLoop_eq {oc : Bool} {bh : Hasher} {idx len : Nat} {left : Bool} {g : Bytes → Bytes}
    (keys : List Bytes) (hg : ∀ k ∈ keys, subSlice oc k idx len left = .ok (g k)) :
    ∀ (set : List Nat) (acc : Nat),
      uniqueLoop oc bh idx len left keys set acc
        = .ok (decide (keys.length
            ≤ acc + ((keys.map (fun k => bh.hashOneBytes (g k))).toFinset \ set.toFinset).card)) := by
  induction keys with
  | nil => intro set acc; simp [uniqueLoop]
  | cons s ks ih =>
    intro set acc
    have hs := hg s List.mem_cons_self
    have ih' := ih (fun k hk => hg k (List.mem_cons_of_mem _ hk))
    have hcard : ((ks.map (fun k => bh.hashOneBytes (g k))).toFinset \ set.toFinset).card
        ≤ ks.length :=
      le_trans (Finset.card_le_card Finset.sdiff_subset)
        (le_trans (List.toFinset_card_le _) (by simp))
    unfold uniqueLoop
    rw [hs]
    simp only
    by_cases hmem : bh.hashOneBytes (g s) ∈ set
    · rw [if_pos hmem]
      have hset : ((s :: ks).map (fun k => bh.hashOneBytes (g k))).toFinset \ set.toFinset
          = (ks.map (fun k => bh.hashOneBytes (g k))).toFinset \ set.toFinset := by
        ext x
        simp only [List.map_cons, List.toFinset_cons, Finset.mem_sdiff, Finset.mem_insert,
          List.mem_toFinset]
        constructor
        · rintro ⟨h1 | h1, h2⟩
          · subst h1; exact absurd hmem h2
          · exact ⟨h1, h2⟩
        · rintro ⟨h1, h2⟩; exact ⟨Or.inr h1, h2⟩
      rw [hset]
      split
      · rename_i h0
        congr 1
        symm
        rw [decide_eq_false_iff_not]
        simp only [List.length_cons]
        omega
      · rw [ih']
        congr 1
        rw [decide_eq_decide]
        simp only [List.length_cons]
        omega
    · rw [if_neg hmem, ih']
      have hset : ((s :: ks).map (fun k => bh.hashOneBytes (g k))).toFinset \ set.toFinset
          = insert (bh.hashOneBytes (g s))
              ((ks.map (fun k => bh.hashOneBytes (g k))).toFinset
                \ (bh.hashOneBytes (g s) :: set).toFinset) := by
        ext x
        simp only [List.map_cons, List.toFinset_cons, Finset.mem_sdiff, Finset.mem_insert,
          List.mem_toFinset]
        by_cases hx : x = bh.hashOneBytes (g s)
        · subst hx; simp [hmem]
        · simp [hx]
      rw [hset, Finset.card_insert_of_notMem (by simp)]
      congr 1
      rw [decide_eq_decide]
      simp only [List.length_cons]
      omega

theorem isSufficientlyUnique_eq {oc : Bool} {bh : Hasher} {idx len : Nat} {left : Bool}
    {g : Bytes → Bytes} {keys : List Bytes}
    (hg : ∀ k ∈ keys, subSlice oc k idx len left = .ok (g k)) (acc : Nat) :
    isSufficientlyUnique oc bh keys idx len left acc
      = .ok (decide (repeats (keys.map (fun k => bh.hashOneBytes (g k))) ≤ acc)) := by
  unfold isSufficientlyUnique repeats
  rw [uniqueLoop_eq keys hg]
  congr 1
  rw [decide_eq_decide]
  simp

theorem subSlice_left {oc : Bool} {s : Bytes} {i l : Nat} (h : i + l ≤ s.length) :
    subSlice oc s i l true = .ok (leftPart i l s) := by
  unfold subSlice sliceChecked leftPart
  simp only [if_true]
  rw [if_pos ⟨by omega, h⟩]
  congr 2
  omega

theorem subSlice_right_one {oc : Bool} {s : Bytes} {i : Nat} (h : i + 1 ≤ s.length) :
    subSlice oc s i 1 false = .ok (rightPart i 1 s) := by
  unfold subSlice sliceChecked rightPart usub
  simp only [Bool.false_eq_true, if_false]
  rw [if_pos (by omega)]
  simp only [Res.ok_bind]
  rw [if_pos (by omega)]
  simp only [Res.ok_bind]
  rw [if_pos ⟨by omega, by omega⟩]
  congr 2
  omega

theorem subSlice_right_zero {oc : Bool} {s : Bytes} {l : Nat} (hs : 1 ≤ s.length) (hl : 2 ≤ l) :
    subSlice oc s 0 l false = .panic := by
  unfold subSlice sliceChecked usub
  simp only [Bool.false_eq_true, if_false]
  rw [if_pos (by omega)]
  simp only [Res.ok_bind]
  rw [if_pos (by omega)]
  simp only [Res.ok_bind]
  rw [if_neg (by omega)]

omit [Target] in
theorem findIndex_eq {p : Nat → Res Bool} {b : Nat → Bool} (count : Nat) :
    ∀ (idx : Nat), (∀ i, idx ≤ i → i < idx + count → p i = .ok (b i)) →
      ∃ o, findIndex p idx count = .ok o ∧
        (o = none → ∀ i, idx ≤ i → i < idx + count → b i = false) ∧
        (∀ i, o = some i → idx ≤ i ∧ i < idx + count ∧ b i = true ∧
          ∀ j, idx ≤ j → j < i → b j = false) := by
  induction count with
  | zero => intro idx _; exact ⟨none, rfl, by intros; omega, by simp⟩
  | succ count ih =>
    intro idx hp
    unfold findIndex
    rw [hp idx le_rfl (by omega)]
    cases hb : b idx with
    | true =>
      refine ⟨some idx, rfl, by simp, ?_⟩
      intro i hi
      simp at hi
      subst hi
      exact ⟨le_rfl, by omega, hb, by intros; omega⟩
    | false =>
      simp only
      obtain ⟨o, h1, h2, h3⟩ := ih (idx + 1) (fun i h1 h2 => hp i (by omega) (by omega))
      refine ⟨o, h1, ?_, ?_⟩
      · intro ho i hi1 hi2
        rcases Nat.lt_or_ge idx i with h | h
        · exact h2 ho i (by omega) (by omega)
        · have : i = idx := by omega
          subst this; exact hb
      · intro i hi
        obtain ⟨a, b', c, d⟩ := h3 i hi
        refine ⟨by omega, by omega, c, ?_⟩
        intro j hj1 hj2
        rcases Nat.lt_or_ge idx j with h | h
        · exact d j (by omega) hj2
        · have : j = idx := by omega
          subst this; exact hb

omit [Target] in
theorem foldl_minLen_le (keys : List Bytes) (m : Nat) :
    keys.foldl (fun m s => min m s.length) m ≤ m ∧
      ∀ k ∈ keys, keys.foldl (fun m s => min m s.length) m ≤ k.length := by
  induction keys generalizing m with
  | nil => simp
  | cons k ks ih =>
    have h := ih (min m k.length)
    simp only [List.foldl_cons, List.mem_cons, forall_eq_or_imp]
    have h1 := h.1
    exact ⟨by omega, by omega, h.2⟩

theorem minLen_le {keys : List Bytes} {k : Bytes} (h : k ∈ keys) : minLen keys ≤ k.length :=
  (foldl_minLen_le keys _).2 k h

theorem minLen_mem {keys : List Bytes} (hne : keys ≠ [])
    (hlt : ∀ k ∈ keys, k.length < usz) : ∃ k ∈ keys, k.length = minLen keys := by
  have aux : ∀ (l : List Bytes) (m : Nat),
      l.foldl (fun m s => min m s.length) m = m ∨
        ∃ k ∈ l, k.length = l.foldl (fun m s => min m s.length) m := by
    intro l
    induction l with
    | nil => intro m; exact Or.inl rfl
    | cons k ks ih =>
      intro m
      simp only [List.foldl_cons, List.mem_cons, exists_eq_or_imp]
      rcases ih (min m k.length) with h | h
      · rcases min_choice m k.length with h' | h' <;> rw [h'] at h ⊢
        · exact Or.inl h
        · exact Or.inr (Or.inl h.symm)
      · exact Or.inr (Or.inr h)
  rcases aux keys (usz - 1) with h | h
  · obtain ⟨k, hk⟩ := List.exists_mem_of_ne_nil _ hne
    refine ⟨k, hk, ?_⟩
    have h1 := hlt k hk
    have h2 := minLen_le hk
    unfold minLen at h2 ⊢
    omega
  · exact h

omit [Target] in
theorem le_maxLen {keys : List Bytes} {k : Bytes} (h : k ∈ keys) : k.length ≤ maxLen keys := by
  have aux : ∀ (l : List Bytes) (m : Nat), m ≤ l.foldl (fun m s => max m s.length) m ∧
      ∀ k ∈ l, k.length ≤ l.foldl (fun m s => max m s.length) m := by
    intro l
    induction l with
    | nil => simp
    | cons k ks ih =>
      intro m
      have h := ih (max m k.length)
      simp only [List.foldl_cons, List.mem_cons, forall_eq_or_imp]
      have h1 := h.1
      exact ⟨by omega, by omega, h.2⟩
  exact (aux keys 0).2 k h

omit [Target] in
theorem maxLen_mem {keys : List Bytes} (hne : keys ≠ []) : ∃ k ∈ keys, k.length = maxLen keys := by
  have aux : ∀ (l : List Bytes) (m : Nat),
      l.foldl (fun m s => max m s.length) m = m ∨
        ∃ k ∈ l, k.length = l.foldl (fun m s => max m s.length) m := by
    intro l
    induction l with
    | nil => intro m; exact Or.inl rfl
    | cons k ks ih =>
      intro m
      simp only [List.foldl_cons, List.mem_cons, exists_eq_or_imp]
      rcases ih (max m k.length) with h | h
      · rcases max_choice m k.length with h' | h' <;> rw [h'] at h ⊢
        · exact Or.inl h
        · exact Or.inr (Or.inl h.symm)
      · exact Or.inr (Or.inr h)
  rcases aux keys 0 with h | h
  · obtain ⟨k, hk⟩ := List.exists_mem_of_ne_nil _ hne
    refine ⟨k, hk, ?_⟩
    have h2 := le_maxLen hk
    unfold maxLen at h2 ⊢
    omega
  · exact h

/-- The search for a left sub-slice. -/
theorem leftSearch {oc : Bool} {bh : Hasher} {keys : List Bytes} {l : Nat} (_h1 : 1 ≤ l)
    (hl : l ≤ minLen keys) :
    ∃ o, findIndex (fun i => isSufficientlyUnique oc bh keys i l true (keys.length / 20))
        0 (minLen keys - l + 1) = .ok o ∧
      (o = none → ∀ i, i + l ≤ minLen keys → ¬ LeftUnique bh keys i l) ∧
      (∀ i, o = some i → i + l ≤ minLen keys ∧ LeftUnique bh keys i l ∧
        ∀ j, j < i → ¬ LeftUnique bh keys j l) := by
  obtain ⟨o, ho, hn, hs⟩ := findIndex_eq
    (p := fun i => isSufficientlyUnique oc bh keys i l true (keys.length / 20))
    (b := fun i => decide (LeftUnique bh keys i l)) (minLen keys - l + 1) 0 (by
      intro i _ hi
      exact isSufficientlyUnique_eq (fun k hk => subSlice_left (by
        have := minLen_le hk; omega)) _)
  refine ⟨o, ho, ?_, ?_⟩
  · intro h i hi
    have := hn h i (by omega) (by omega)
    simpa using this
  · intro i hi
    obtain ⟨_, a, b, c⟩ := hs i hi
    refine ⟨by omega, by simpa using b, ?_⟩
    intro j hj
    simpa using c j (by omega) hj

/-- The search for a one-byte right sub-slice. -/
theorem rightSearchOne {oc : Bool} {bh : Hasher} {keys : List Bytes} (hl : 1 ≤ minLen keys) :
    ∃ o, findIndex (fun i => isSufficientlyUnique oc bh keys i 1 false (keys.length / 20))
        0 (minLen keys - 1 + 1) = .ok o ∧
      (o = none → ∀ i, i + 1 ≤ minLen keys → ¬ RightUnique bh keys i 1) ∧
      (∀ i, o = some i → i + 1 ≤ minLen keys ∧ RightUnique bh keys i 1 ∧
        ∀ j, j < i → ¬ RightUnique bh keys j 1) := by
  obtain ⟨o, ho, hn, hs⟩ := findIndex_eq
    (p := fun i => isSufficientlyUnique oc bh keys i 1 false (keys.length / 20))
    (b := fun i => decide (RightUnique bh keys i 1)) (minLen keys - 1 + 1) 0 (by
      intro i _ hi
      exact isSufficientlyUnique_eq (fun k hk => subSlice_right_one (by
        have := minLen_le hk; omega)) _)
  refine ⟨o, ho, ?_, ?_⟩
  · intro h i hi
    have := hn h i (by omega) (by omega)
    simpa using this
  · intro i hi
    obtain ⟨_, a, b, c⟩ := hs i hi
    refine ⟨by omega, by simpa using b, ?_⟩
    intro j hj
    simpa using c j (by omega) hj

/-- A right search for two or more bytes panics at its first step. -/
theorem rightSearch_panics {oc : Bool} {bh : Hasher} {keys : List Bytes} (hne : keys ≠ [])
    {l : Nat} (h2 : 2 ≤ l) (hl : l ≤ minLen keys) :
    findIndex (fun i => isSufficientlyUnique oc bh keys i l false (keys.length / 20))
        0 (minLen keys - l + 1) = .panic := by
  unfold findIndex
  have : isSufficientlyUnique oc bh keys 0 l false (keys.length / 20) = .panic := by
    cases keys with
    | nil => exact absurd rfl hne
    | cons k ks =>
      have := minLen_le (keys := k :: ks) (k := k) List.mem_cons_self
      unfold isSufficientlyUnique uniqueLoop
      rw [subSlice_right_zero (by omega) h2]
  rw [this]

/-- What the loop over sub-slice lengths does from length `l` on, when all keys have one length. -/
theorem subsliceLoop_same {oc : Bool} {bh : Hasher} {keys : List Bytes}
    (hmm : minLen keys = maxLen keys) (count : Nat) :
    ∀ (l : Nat), 1 ≤ l → l + count ≤ minLen keys + 1 →
      ∃ v, subsliceLoop oc bh keys (minLen keys) (maxLen keys) (keys.length / 20) l count = .ok v ∧
        ((v = .normal ∧ ∀ j l'', l ≤ l'' → l'' < l + count → l'' ≠ maxLen keys →
            j + l'' ≤ minLen keys → ¬ LeftUnique bh keys j l'') ∨
          ∃ i l', v = .left i l' ∧ l ≤ l' ∧ l' < l + count ∧
          i + l' ≤ minLen keys ∧ LeftUnique bh keys i l' ∧ l' ≠ maxLen keys ∧
          (∀ j, j < i → ¬ LeftUnique bh keys j l') ∧
          (∀ j l'', l ≤ l'' → l'' < l' → j + l'' ≤ minLen keys → ¬ LeftUnique bh keys j l'')) := by
  induction count with
  | zero => intro l _ _; exact ⟨_, rfl, Or.inl ⟨rfl, by intros; omega⟩⟩
  | succ count ih =>
    intro l h1 hl
    obtain ⟨o, ho, hn, hs⟩ := leftSearch (oc := oc) (bh := bh) (keys := keys) h1 (by omega)
    unfold subsliceLoop
    rw [ho]
    cases o with
    | some i =>
      obtain ⟨a, b, c⟩ := hs i rfl
      simp only
      split
      · refine ⟨_, rfl, Or.inl ⟨rfl, ?_⟩⟩
        intros; omega
      · exact ⟨_, rfl, Or.inr ⟨i, l, rfl, le_rfl, by omega, a, b, by assumption, c, by
          intros; omega⟩⟩
    | none =>
      simp only
      rw [if_neg (by simp [hmm])]
      obtain ⟨v, hv, hcase⟩ := ih (l + 1) (by omega) (by omega)
      refine ⟨v, hv, ?_⟩
      rcases hcase with ⟨h, h'⟩ | ⟨i, l', e, a, b, c, d, f, g, g'⟩
      · refine Or.inl ⟨h, ?_⟩
        intro j l'' hl1 hl2 hne hj
        rcases Nat.lt_or_ge l l'' with h | h
        · exact h' j l'' (by omega) (by omega) hne hj
        · have : l'' = l := by omega
          subst this
          exact hn rfl j hj
      · refine Or.inr ⟨i, l', e, by omega, by omega, c, d, f, g, ?_⟩
        intro j l'' hl1 hl2 hj
        rcases Nat.lt_or_ge l l'' with h | h
        · exact g' j l'' (by omega) hl2 hj
        · have : l'' = l := by omega
          subst this
          exact hn rfl j hj

/-- Outcome of the sub-slice analysis for keys of different lengths. -/
inductive MixedOutcome (bh : Hasher) (keys : List Bytes) : Res SliceVerdict → Prop where
  | empty : minLen keys = 0 → MixedOutcome bh keys (.ok .normal)
  | left1 (i : Nat) : i + 1 ≤ minLen keys → LeftUnique bh keys i 1 →
      (∀ j, j < i → ¬ LeftUnique bh keys j 1) → MixedOutcome bh keys (.ok (.left i 1))
  | right1 (i : Nat) : i + 1 ≤ minLen keys → (∀ j, j + 1 ≤ minLen keys → ¬ LeftUnique bh keys j 1) →
      RightUnique bh keys i 1 → (∀ j, j < i → ¬ RightUnique bh keys j 1) →
      MixedOutcome bh keys (.ok (.right i 1))
  | one : minLen keys = 1 → ¬ LeftUnique bh keys 0 1 → ¬ RightUnique bh keys 0 1 →
      MixedOutcome bh keys (.ok .normal)
  | left2 (i : Nat) : i + 2 ≤ minLen keys → (∀ j, j + 1 ≤ minLen keys → ¬ LeftUnique bh keys j 1) →
      (∀ j, j + 1 ≤ minLen keys → ¬ RightUnique bh keys j 1) → LeftUnique bh keys i 2 →
      (∀ j, j < i → ¬ LeftUnique bh keys j 2) → MixedOutcome bh keys (.ok (.left i 2))
  | crash : 2 ≤ minLen keys → (∀ j, j + 1 ≤ minLen keys → ¬ LeftUnique bh keys j 1) →
      (∀ j, j + 1 ≤ minLen keys → ¬ RightUnique bh keys j 1) →
      (∀ j, j + 2 ≤ minLen keys → ¬ LeftUnique bh keys j 2) → MixedOutcome bh keys .panic

theorem analyzeSubslices_mixed {oc : Bool} {bh : Hasher} {keys : List Bytes} (hne : keys ≠ [])
    (hlt : ∀ k ∈ keys, k.length < usz) (hmm : minLen keys ≠ maxLen keys) :
    MixedOutcome bh keys (analyzeSubslices oc bh keys) := by
  have hmle : minLen keys < maxLen keys := by
    obtain ⟨k, hk, e⟩ := minLen_mem hne hlt
    have := le_maxLen hk
    omega
  unfold analyzeSubslices
  rcases Nat.eq_zero_or_pos (minLen keys) with h0 | h0
  · have : min (minLen keys) 16 = 0 := by omega
    rw [this]
    exact .empty h0
  obtain ⟨c, hc⟩ : ∃ c, min (minLen keys) 16 = c + 1 := ⟨min (minLen keys) 16 - 1, by omega⟩
  rw [hc]
  unfold subsliceLoop
  obtain ⟨o, ho, hn, hs⟩ := leftSearch (oc := oc) (bh := bh) (keys := keys) (l := 1) le_rfl (by omega)
  rw [ho]
  cases o with
  | some i =>
    obtain ⟨a, b, d⟩ := hs i rfl
    simp only
    rw [if_neg (by omega)]
    exact .left1 i a b d
  | none =>
    have hn := hn rfl
    simp only
    rw [if_pos hmm]
    obtain ⟨o, ho, hn', hs⟩ := rightSearchOne (oc := oc) (bh := bh) (keys := keys) (by omega)
    rw [ho]
    cases o with
    | some i =>
      obtain ⟨a, b, d⟩ := hs i rfl
      exact .right1 i a hn b d
    | none =>
      have hn' := hn' rfl
      simp only
      cases c with
      | zero => exact .one (by omega) (hn 0 (by omega)) (hn' 0 (by omega))
      | succ c =>
        unfold subsliceLoop
        obtain ⟨o, ho, hn2, hs⟩ :=
          leftSearch (oc := oc) (bh := bh) (keys := keys) (l := 2) (by omega) (by omega)
        rw [ho]
        cases o with
        | some i =>
          obtain ⟨a, b, d⟩ := hs i rfl
          simp only
          rw [if_neg (by omega)]
          exact .left2 i a hn hn' b d
        | none =>
          simp only
          rw [if_pos hmm, rightSearch_panics hne (by omega) (by omega)]
          exact .crash (by omega) hn hn' (hn2 rfl)

/-- Outcome of the sub-slice analysis for keys that all have the same length. -/
theorem analyzeSubslices_same {oc : Bool} {bh : Hasher} {keys : List Bytes}
    (hmm : minLen keys = maxLen keys) :
    ∃ v, analyzeSubslices oc bh keys = .ok v ∧
      ((v = .normal ∧ ∀ j l, 1 ≤ l → l ≤ 16 → l ≠ maxLen keys → j + l ≤ minLen keys →
          ¬ LeftUnique bh keys j l) ∨
        ∃ i l, v = .left i l ∧ 1 ≤ l ∧ l ≤ 16 ∧ i + l ≤ minLen keys ∧
        LeftUnique bh keys i l ∧ l ≠ maxLen keys ∧
        (∀ j, j < i → ¬ LeftUnique bh keys j l) ∧
        (∀ j l', 1 ≤ l' → l' < l → j + l' ≤ minLen keys → ¬ LeftUnique bh keys j l')) := by
  obtain ⟨v, hv, hc⟩ := subsliceLoop_same (oc := oc) (bh := bh) hmm (min (minLen keys) 16) 1 le_rfl
    (by omega)
  refine ⟨v, hv, ?_⟩
  rcases hc with ⟨h, h'⟩ | ⟨i, l', e, a, b, c, d, f, g, g'⟩
  · exact Or.inl ⟨h, fun j l h1 h2 h3 h4 => h' j l h1 (by omega) h3 h4⟩
  · exact Or.inr ⟨i, l', e, a, by omega, c, d, f, g, g'⟩

/-- A left verdict always comes with a range inside every key. -/
theorem left_verdict_in_bounds {oc : Bool} {bh : Hasher} {keys : List Bytes} (hne : keys ≠ [])
    (hlt : ∀ k ∈ keys, k.length < usz) {i l : Nat}
    (h : analyzeSliceKeys oc bh keys = .ok (.left i l)) :
    1 ≤ l ∧ l ≤ 16 ∧ ∀ k ∈ keys, i + l ≤ k.length := by
  unfold analyzeSliceKeys at h
  rcases analyzeLengths_cases keys with hl | hl
  · simp [hl] at h
  · rw [if_pos hl] at h
    by_cases hmm : minLen keys = maxLen keys
    · obtain ⟨v, hv, hc⟩ := analyzeSubslices_same (oc := oc) (bh := bh) hmm
      rw [hv] at h
      rcases hc with ⟨hc, _⟩ | ⟨i', l', e, a, b, c, _⟩
      · simp [hc] at h
      · rw [e] at h
        simp at h
        obtain ⟨rfl, rfl⟩ := h
        exact ⟨a, b, fun k hk => le_trans c (minLen_le hk)⟩
    · have hm := analyzeSubslices_mixed (oc := oc) (bh := bh) hne hlt hmm
      rw [h] at hm
      cases hm with
      | left1 _ a => exact ⟨by omega, by omega, fun k hk => le_trans a (minLen_le hk)⟩
      | left2 _ a => exact ⟨by omega, by omega, fun k hk => le_trans a (minLen_le hk)⟩

theorem minLen_iff {keys : List Bytes} (hne : keys ≠ []) (hlt : ∀ k ∈ keys, k.length < usz)
    (n : Nat) : n ≤ minLen keys ↔ ∀ k ∈ keys, n ≤ k.length := by
  constructor
  · intro h k hk; exact le_trans h (minLen_le hk)
  · intro h
    obtain ⟨k, hk, e⟩ := minLen_mem hne hlt
    rw [← e]
    exact h k hk

theorem minLen_eq_maxLen_iff {keys : List Bytes} (hne : keys ≠ [])
    (hlt : ∀ k ∈ keys, k.length < usz) : minLen keys = maxLen keys ↔ SameLength keys := by
  constructor
  · intro h a ha b hb
    have h1 := minLen_le ha
    have h2 := le_maxLen ha
    have h3 := minLen_le hb
    have h4 := le_maxLen hb
    omega
  · intro h
    obtain ⟨a, ha, e1⟩ := minLen_mem hne hlt
    obtain ⟨b, hb, e2⟩ := maxLen_mem hne
    rw [← e1, ← e2]
    exact h a ha b hb

theorem analyzeSliceKeys_outcome {oc : Bool} {bh : Hasher} {keys : List Bytes} (hne : keys ≠ [])
    (hlt : ∀ k ∈ keys, k.length < usz) : Outcome bh keys (analyzeSliceKeys oc bh keys) := by
  have hmin := minLen_iff hne hlt
  have hL : ∀ i l, LeftOKAt bh keys i l ↔ i + l ≤ minLen keys ∧ LeftUnique bh keys i l := by
    intro i l; unfold LeftOKAt; rw [hmin]
  have hR : ∀ i l, RightOKAt bh keys i l ↔ i + l ≤ minLen keys ∧ RightUnique bh keys i l := by
    intro i l; unfold RightOKAt; rw [hmin]
  have hnL : ∀ l, (∀ j, j + l ≤ minLen keys → ¬ LeftUnique bh keys j l) →
      ∀ j, ¬ LeftOKAt bh keys j l := by
    intro l h j hj
    rw [hL] at hj
    exact h j hj.1 hj.2
  have hnR : ∀ l, (∀ j, j + l ≤ minLen keys → ¬ RightUnique bh keys j l) →
      ∀ j, ¬ RightOKAt bh keys j l := by
    intro l h j hj
    rw [hR] at hj
    exact h j hj.1 hj.2
  unfold analyzeSliceKeys
  rcases analyzeLengths_cases keys with hl | hl
  · rw [if_neg (by rw [hl]; simp), hl]
    exact .length ((analyzeLengths_iff keys).1 hl)
  · have hns : ¬ LengthsSpread keys := by
      intro h
      have := (analyzeLengths_iff keys).2 h
      rw [hl] at this
      simp at this
    rw [if_pos hl]
    by_cases hmm : minLen keys = maxLen keys
    · have hsame := (minLen_eq_maxLen_iff hne hlt).1 hmm
      obtain ⟨v, hv, hc⟩ := analyzeSubslices_same (oc := oc) (bh := bh) hmm
      rw [hv]
      rcases hc with ⟨rfl, hno⟩ | ⟨i, l, rfl, h1, h2, h3, h4, h4', h5, h6⟩
      · refine .sameNormal hns hsame ?_
        rintro j l h1 h2 ⟨k, hk, hkl⟩ h
        have h3 := (hL j l).1 h
        refine hno j l h1 h2 ?_ h3.1 h3.2
        have := minLen_le hk
        have := le_maxLen hk
        omega
      · refine .sameLeft i l hns hsame h1 h2 (fun k hk => by
          have := minLen_le hk
          omega) ((hL i l).2 ⟨h3, h4⟩) ?_ ?_
        · intro j hj h; exact h5 j hj ((hL j l).1 h).2
        · intro j l' a b h; exact h6 j l' a b ((hL j l').1 h).1 ((hL j l').1 h).2
    · have hsame : ¬ SameLength keys := fun h => hmm ((minLen_eq_maxLen_iff hne hlt).2 h)
      have hm := analyzeSubslices_mixed (oc := oc) (bh := bh) hne hlt hmm
      generalize hres : analyzeSubslices oc bh keys = res at hm
      cases hm with
      | empty h0 =>
        obtain ⟨k, hk, e⟩ := minLen_mem hne hlt
        refine .short hns hsame ?_ ?_ ⟨k, hk, by omega⟩
        · intro j h; have := ((hL j 1).1 h).1; omega
        · intro j h; have := ((hR j 1).1 h).1; omega
      | left1 i a b c =>
        exact .left1 i hns hsame ((hL i 1).2 ⟨a, b⟩) (fun j hj h => c j hj ((hL j 1).1 h).2)
      | right1 i a b c d =>
        exact .right1 i hns hsame (hnL 1 b) ((hR i 1).2 ⟨a, c⟩)
          (fun j hj h => d j hj ((hR j 1).1 h).2)
      | one h1 a b =>
        obtain ⟨k, hk, e⟩ := minLen_mem hne hlt
        refine .short hns hsame ?_ ?_ ⟨k, hk, by omega⟩
        · intro j h
          have := (hL j 1).1 h
          have hj : j = 0 := by omega
          subst hj
          exact a this.2
        · intro j h
          have := (hR j 1).1 h
          have hj : j = 0 := by omega
          subst hj
          exact b this.2
      | left2 i a b c d e =>
        exact .left2 i hns hsame (hnL 1 b) (hnR 1 c) ((hL i 2).2 ⟨a, d⟩)
          (fun j hj h => e j hj ((hL j 2).1 h).2)
      | crash a b c d =>
        exact .crash hns hsame ((hmin 2).1 a) (hnL 1 b) (hnR 1 c) (hnL 2 d)

end FC
