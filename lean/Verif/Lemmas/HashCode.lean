import Verif.Model.HashCode
import Mathlib.Data.Finset.Card
import Mathlib.Data.Finset.Sort
import Mathlib.Tactic.Ring

/-
Facts about the hash code analyzer.
-/

set_option autoImplicit false

namespace FC
variable [Target]

/-- Number of different residues of the codes modulo `s`. -/
def distinctResidues (codes : List Nat) (s : Nat) : Nat := (codes.map (· % s)).toFinset.card

/-- Slots marked as used in a bit table. -/
def usedSlots (table : List Bool) : Finset Nat :=
  (Finset.range table.length).filter (fun i => table[i]? = some true)

omit [Target] in
theorem mem_usedSlots {table : List Bool} {i : Nat} :
    i ∈ usedSlots table ↔ table[i]? = some true := by
  unfold usedSlots
  simp only [Finset.mem_filter, Finset.mem_range, and_iff_right_iff_imp]
  intro h
  exact (List.getElem?_eq_some_iff.1 h).1

omit [Target] in
theorem usedSlots_replicate (n : Nat) : usedSlots (List.replicate n false) = ∅ := by
  ext i
  rw [mem_usedSlots]
  simp [List.getElem?_replicate]

omit [Target] in
theorem usedSlots_set {table : List Bool} {i : Nat} (h : i < table.length) :
    usedSlots (table.set i true) = insert i (usedSlots table) := by
  ext j
  rw [Finset.mem_insert, mem_usedSlots, mem_usedSlots, List.getElem?_set]
  by_cases hij : i = j
  · subst hij; simp [h]
  · have : j ≠ i := fun h => hij h.symm
    simp [hij, this]

omit [Target] in
theorem distinctResidues_pos {codes : List Nat} (s : Nat) (h : codes ≠ []) :
    0 < distinctResidues codes s := by
  unfold distinctResidues
  rw [Finset.card_pos]
  cases codes with
  | nil => exact absurd rfl h
  | cons c cs => exact ⟨c % s, by simp⟩

omit [Target] in
theorem distinctResidues_le (codes : List Nat) (s : Nat) :
    distinctResidues codes s ≤ codes.length := by
  unfold distinctResidues
  exact le_trans (List.toFinset_card_le _) (by simp)

omit [Target] in
/-- The counting loop counts collisions, stopping at `best`. -/
theorem countLoop_eq {size : Nat} (hs : 0 < size) (best : Nat) (codes : List Nat) :
    ∀ (table : List Bool) (num : Nat), size ≤ table.length → num < best →
      countLoop size best codes table num
        = .ok (min best (num + (codes.length
            - ((codes.map (· % size)).toFinset \ usedSlots table).card))) := by
  induction codes with
  | nil => intro table num _ hnum; simp [countLoop]; omega
  | cons c cs ih =>
    intro table num hlen hnum
    have hmod : c % size < table.length := lt_of_lt_of_le (Nat.mod_lt _ hs) hlen
    have hum : umod c size = .ok (c % size) := by
      unfold umod; rw [if_neg (by omega)]
    have hcard : ((cs.map (· % size)).toFinset \ usedSlots table).card ≤ cs.length :=
      le_trans (Finset.card_le_card Finset.sdiff_subset)
        (le_trans (List.toFinset_card_le _) (by simp))
    unfold countLoop
    rw [hum]
    simp only
    cases hb : table[c % size]? with
    | none => rw [List.getElem?_eq_none_iff] at hb; omega
    | some b =>
      cases b with
      | true =>
        simp only
        have hmem : c % size ∈ usedSlots table := mem_usedSlots.2 hb
        have hset : ((c :: cs).map (· % size)).toFinset \ usedSlots table
            = (cs.map (· % size)).toFinset \ usedSlots table := by
          ext x
          simp only [List.map_cons, List.toFinset_cons, Finset.mem_sdiff, Finset.mem_insert]
          constructor
          · rintro ⟨h1 | h1, h2⟩
            · subst h1; exact absurd hmem h2
            · exact ⟨h1, h2⟩
          · rintro ⟨h1, h2⟩; exact ⟨Or.inr h1, h2⟩
        rw [hset]
        split
        · congr 1
          simp only [List.length_cons]
          omega
        · rw [ih table (num + 1) hlen (by omega)]
          congr 2
          simp only [List.length_cons]
          omega
      | false =>
        simp only
        have hnm : c % size ∉ usedSlots table := by rw [mem_usedSlots, hb]; simp
        rw [ih _ num (by simpa using hlen) hnum, usedSlots_set hmod]
        congr 3
        have hset : ((c :: cs).map (· % size)).toFinset \ usedSlots table
            = insert (c % size) ((cs.map (· % size)).toFinset \ insert (c % size) (usedSlots table)) := by
          ext x
          simp only [List.map_cons, List.toFinset_cons, Finset.mem_sdiff, Finset.mem_insert]
          by_cases hx : x = c % size
          · subst hx; simp [hnm]
          · simp [hx]
        rw [hset, Finset.card_insert_of_notMem (by simp)]
        simp only [List.length_cons]
        omega

omit [Target] in
/-- Collisions of a whole pass over the codes. -/
theorem countLoop_fresh {size best maxS : Nat} (hs : 0 < size) (hm : size ≤ maxS) (hb : 0 < best)
    (codes : List Nat) :
    countLoop size best codes (List.replicate maxS false) 0
      = .ok (min best (codes.length - distinctResidues codes size)) := by
  rw [countLoop_eq hs best codes _ 0 (by simpa using hm) hb, usedSlots_replicate]
  simp [distinctResidues]

omit [Target] in
theorem reduceAcceptable_le (acc : Nat) : reduceAcceptable acc ≤ acc := by
  unfold reduceAcceptable; split <;> omega

omit [Target] in
/-- What the search over the remaining candidates returns once the first candidate has been taken. -/
theorem sizeLoop_spec (codes : List Nat) (minS maxS bestSize : Nat) (hmin : 0 < minS)
    (hbs : bestSize ≠ 0) (sizes : List Nat) :
    ∀ (best acc : Nat), acc < best →
      ∃ r, sizeLoop codes minS maxS sizes bestSize best acc = .ok r ∧
        (r = ⟨bestSize, best⟩ ∨
          (r.numHashSlots ∈ sizes ∧ minS ≤ r.numHashSlots ∧ r.numHashSlots ≤ maxS ∧
            r.numHashCollisions = codes.length - distinctResidues codes r.numHashSlots ∧
            r.numHashCollisions ≤ acc)) := by
  induction sizes with
  | nil => intro best acc _; exact ⟨_, rfl, Or.inl rfl⟩
  | cons size sizes ih =>
    intro best acc hacc
    unfold sizeLoop
    split
    · obtain ⟨r, h1, h2⟩ := ih best acc hacc
      refine ⟨r, h1, ?_⟩
      rcases h2 with h2 | ⟨h2, h3⟩
      · exact Or.inl h2
      · exact Or.inr ⟨List.mem_cons_of_mem _ h2, h3⟩
    · rename_i hlt
      split
      · exact ⟨_, rfl, Or.inl rfl⟩
      · rename_i hgt
        rw [countLoop_fresh (by omega) (by omega) (by omega)]
        simp only
        have key : ∀ acc', acc' ≤ acc → ∃ r, sizeLoop codes minS maxS sizes bestSize best acc' = .ok r ∧
            (r = ⟨bestSize, best⟩ ∨
              (r.numHashSlots ∈ size :: sizes ∧ minS ≤ r.numHashSlots ∧ r.numHashSlots ≤ maxS ∧
                r.numHashCollisions = codes.length - distinctResidues codes r.numHashSlots ∧
                r.numHashCollisions ≤ acc)) := by
          intro acc' hle
          obtain ⟨r, h1, h2⟩ := ih best acc' (by omega)
          refine ⟨r, h1, ?_⟩
          rcases h2 with h2 | ⟨h2, h3, h4, h5, h6⟩
          · exact Or.inl h2
          · exact Or.inr ⟨List.mem_cons_of_mem _ h2, h3, h4, h5, by omega⟩
        split
        · rename_i hnb
          by_cases hna : min best (codes.length - distinctResidues codes size) ≤ acc
          · rw [if_pos hna]
            refine ⟨_, rfl, Or.inr ?_⟩
            have hor : bestSize = 0 ∨ min best (codes.length - distinctResidues codes size) ≤ acc :=
              Or.inr hna
            simp only [hor, if_true]
            refine ⟨List.mem_cons_self, by omega, by omega, by omega, hna⟩
          · rw [if_neg hna]
            have hor : ¬ (bestSize = 0 ∨
                min best (codes.length - distinctResidues codes size) ≤ acc) := by
              rintro (h | h)
              · exact hbs h
              · exact hna h
            simp only [hor, if_false]
            exact key _ (reduceAcceptable_le acc)
        · exact key _ (reduceAcceptable_le acc)

omit [Target] in
theorem minSize_pos {n : Nat} (h : 0 < n) : 0 < minSize n := by
  unfold minSize acceptableCollisions; split <;> omega

omit [Target] in
theorem minSize_le (n : Nat) : minSize n ≤ n := by unfold minSize; omega

omit [Target] in
theorem le_maxSize (n : Nat) : n ≤ maxSize n := by
  unfold maxSize; split
  · omega
  · split <;> omega

omit [Target] in
/-- The analysis always returns; summary of what it returns. -/
theorem analyze_spec (codes : List Nat) (hne : codes ≠ []) :
    ∃ r, analyzeHashCodes codes = .ok r ∧
      r.numHashSlots ∈ candidateSizes codes.length ∧
      minSize codes.length ≤ r.numHashSlots ∧ r.numHashSlots ≤ maxSize codes.length ∧
      r.numHashCollisions = codes.length - distinctResidues codes r.numHashSlots ∧
      (r.numHashSlots = codes.length ∨
        r.numHashCollisions ≤ reduceAcceptable (acceptableCollisions codes.length)) ∧
      (distinctResidues codes codes.length = codes.length → r.numHashSlots = codes.length) := by
  have hn : 0 < codes.length := List.length_pos_iff.2 hne
  have hD := distinctResidues_pos codes.length hne
  have h1 := minSize_le codes.length
  have h2 := le_maxSize codes.length
  unfold analyzeHashCodes candidateSizes sizeLoop
  rw [if_neg (by omega), if_neg (by omega), countLoop_fresh hn h2 hn]
  have hmin : min codes.length (codes.length - distinctResidues codes codes.length)
      = codes.length - distinctResidues codes codes.length := by omega
  simp only [hmin, true_or, if_true]
  rw [if_pos (by omega)]
  split
  · rename_i hle
    exact ⟨_, rfl, by simp, h1, h2, rfl, Or.inl rfl, fun _ => rfl⟩
  · rename_i hle
    obtain ⟨r, hr, hcase⟩ := sizeLoop_spec codes (minSize codes.length) (maxSize codes.length)
      codes.length (minSize_pos hn) (by omega) _
      (codes.length - distinctResidues codes codes.length)
      (reduceAcceptable (acceptableCollisions codes.length))
      (lt_of_le_of_lt (reduceAcceptable_le _) (by omega))
    refine ⟨r, hr, ?_⟩
    rcases hcase with h | ⟨hm, ha, hb, hc, hd⟩
    · subst h
      exact ⟨by simp, h1, h2, rfl, Or.inl rfl, fun _ => rfl⟩
    · refine ⟨List.mem_cons_of_mem _ hm, ha, hb, hc,
        Or.inr hd, ?_⟩
      intro hall
      exfalso
      omega

omit [Target] in
theorem analyze_nil : analyzeHashCodes [] = .ok ⟨0, 0⟩ := by
  simp [analyzeHashCodes, candidateSizes, sizeLoop, minSize, maxSize, acceptableCollisions,
    countLoop, List.range'_succ]

omit [Target] in
/-- The analysis is total. -/
theorem analyze_total (codes : List Nat) :
    ∃ r, analyzeHashCodes codes = .ok r ∧ (codes ≠ [] → 0 < r.numHashSlots) := by
  by_cases h : codes = []
  · subst h; exact ⟨_, analyze_nil, fun h => absurd rfl h⟩
  · obtain ⟨r, hr, _, hmin, _⟩ := analyze_spec codes h
    exact ⟨r, hr, fun _ => lt_of_lt_of_le (minSize_pos (List.length_pos_iff.2 h)) hmin⟩

omit [Target] in
/-- With no collisions tolerated, the search takes the first collision-free size in bounds. -/
theorem sizeLoop_zero (codes : List Nat) (minS maxS bestSize : Nat) (hmin : 0 < minS)
    (hbs : bestSize ≠ 0) (sizes : List Nat) :
    ∀ (best : Nat), 0 < best →
      sizeLoop codes minS maxS sizes bestSize best 0
        = .ok (match (sizes.takeWhile (fun s => decide (s ≤ maxS))).find? (fun s =>
              decide (minS ≤ s ∧ distinctResidues codes s = codes.length)) with
            | some s => ⟨s, 0⟩
            | none => ⟨bestSize, best⟩) := by
  induction sizes with
  | nil => intro best _; rfl
  | cons size sizes ih =>
    intro best hbest
    have hred : reduceAcceptable 0 = 0 := rfl
    unfold sizeLoop
    by_cases hgt : size > maxS
    · rw [List.takeWhile_cons_of_neg (by simpa using hgt)]
      split
      · -- below the minimum and above the maximum: the loop goes on, but nothing is in bounds
        rename_i hlt
        rw [ih best hbest]
        have : ∀ l : List Nat, (l.takeWhile (fun s => decide (s ≤ maxS))).find? (fun s =>
            decide (minS ≤ s ∧ distinctResidues codes s = codes.length)) = none := by
          intro l
          rw [List.find?_eq_none]
          intro x hx
          have : ∀ l : List Nat, x ∈ l.takeWhile (fun s => decide (s ≤ maxS)) → x ≤ maxS := by
            intro l
            induction l with
            | nil => simp
            | cons y ys ih =>
              intro h
              rw [List.takeWhile_cons] at h
              split at h
              · rcases List.mem_cons.1 h with rfl | h
                · rename_i hy; simpa using hy
                · exact ih h
              · simp at h
          have := this l hx
          simp only [decide_eq_true_eq]
          omega
        rw [this]
        rfl
      · rfl
    · rw [List.takeWhile_cons_of_pos (by simpa using hgt)]
      by_cases hlt : size < minS
      · rw [if_pos hlt, ih best hbest, List.find?_cons_of_neg (by simp; omega)]
      · rw [if_neg hlt, if_neg hgt, countLoop_fresh (by omega) (by omega) hbest]
        have hle := distinctResidues_le codes size
        simp only
        by_cases hz : distinctResidues codes size = codes.length
        · rw [List.find?_cons_of_pos (by simp; omega)]
          have h0 : min best (codes.length - distinctResidues codes size) = 0 := by omega
          simp [h0, hbest]
        · rw [List.find?_cons_of_neg (by simp; omega)]
          have h0 : 0 < min best (codes.length - distinctResidues codes size) := by omega
          have hor : ¬ (bestSize = 0 ∨ min best (codes.length - distinctResidues codes size) ≤ 0) := by
            rintro (h | h) <;> omega
          simp only [hor, if_false, hred]
          split
          · rw [if_neg (by omega), ih best hbest]
          · rw [ih best hbest]

omit [Target] in
/-- Fewer than 128 codes: the exact size if it has no collisions, otherwise the first candidate
without collisions, otherwise the exact size. -/
theorem analyze_small (codes : List Nat) (hne : codes ≠ []) (hn : codes.length < 128) :
    ∃ r, analyzeHashCodes codes = .ok r ∧
      (match ((candidateSizes codes.length).takeWhile
            (fun s => decide (s ≤ maxSize codes.length))).find? (fun s =>
              decide (codes.length ≤ s ∧ distinctResidues codes s = codes.length)) with
        | some s => r = ⟨s, 0⟩
        | none => r = ⟨codes.length, codes.length - distinctResidues codes codes.length⟩) := by
  have hpos : 0 < codes.length := List.length_pos_iff.2 hne
  have hD := distinctResidues_pos codes.length hne
  have hDle := distinctResidues_le codes codes.length
  have h2 := le_maxSize codes.length
  have hacc : acceptableCollisions codes.length = 0 := by
    unfold acceptableCollisions; rw [if_pos hn]
  have hmn : minSize codes.length = codes.length := by unfold minSize; rw [hacc]; omega
  obtain ⟨rest, hrest⟩ : ∃ rest, candidateSizes codes.length = codes.length :: rest := ⟨_, rfl⟩
  unfold analyzeHashCodes
  rw [hmn, hacc, hrest, List.takeWhile_cons_of_pos (by simpa using h2)]
  unfold sizeLoop
  rw [if_neg (by omega), if_neg (by omega), countLoop_fresh hpos h2 hpos]
  have hmin : min codes.length (codes.length - distinctResidues codes codes.length)
      = codes.length - distinctResidues codes codes.length := by omega
  simp only [hmin, true_or, if_true]
  rw [if_pos (by omega)]
  by_cases hz : distinctResidues codes codes.length = codes.length
  · rw [if_pos (by omega), List.find?_cons_of_pos (by simp [hz])]
    exact ⟨_, rfl, by rw [hz]; simp⟩
  · rw [if_neg (by omega), List.find?_cons_of_neg (by simp [hz])]
    have := sizeLoop_zero codes codes.length (maxSize codes.length) codes.length hpos (by omega)
      rest (codes.length - distinctResidues codes codes.length) (by omega)
    rw [show reduceAcceptable 0 = 0 from rfl, this]
    refine ⟨_, rfl, ?_⟩
    split <;> rfl

end FC
