import Verif.Model.Cost
import Verif.Lemmas.Maps

/-
Counting comparisons: erasing the count, and bounding it by the size of one slot.
-/

set_option autoImplicit false

namespace FC
variable [Target]
variable {K V Q : Type}

omit [Target] in
theorem scanCounted_fst (eq : Q → Q → Bool) (borrow : K → Q) (q : Q) (es : List (K × V)) :
    ∀ i, (scanCounted eq borrow q i es).1 = scan eq borrow q i es := by
  induction es with
  | nil => intro i; rfl
  | cons e es ih =>
    intro i
    unfold scanCounted scan
    split
    · rfl
    · exact ih (i + 1)

omit [Target] in
theorem scanCounted_le (eq : Q → Q → Bool) (borrow : K → Q) (q : Q) (es : List (K × V)) :
    ∀ i, (scanCounted eq borrow q i es).2 ≤ es.length := by
  induction es with
  | nil => intro i; simp [scanCounted]
  | cons e es ih =>
    intro i
    unfold scanCounted
    split
    · simp
    · have := ih (i + 1)
      simp only [List.length_cons]
      omega

omit [Target] in
/-- One residue cannot be more frequent than one more than the number of repeated residues. -/
theorem count_le_collisions (xs : List Nat) (i : Nat) :
    xs.count i ≤ 1 + (xs.length - xs.toFinset.card) := by
  have h1 : xs.toFinset.card ≤ (xs.filter (fun x => decide (x ≠ i))).length + 1 := by
    have hsub : xs.toFinset ⊆ insert i (xs.filter (fun x => decide (x ≠ i))).toFinset := by
      intro x hx
      simp only [List.mem_toFinset, Finset.mem_insert, List.mem_filter, decide_eq_true_eq] at *
      by_cases h : x = i
      · exact Or.inl h
      · exact Or.inr ⟨hx, h⟩
    calc xs.toFinset.card ≤ _ := Finset.card_le_card hsub
      _ ≤ _ := Finset.card_insert_le _ _
      _ ≤ _ := Nat.add_le_add_right (List.toFinset_card_le _) 1
  have h2 : xs.count i + (xs.filter (fun x => decide (x ≠ i))).length = xs.length := by
    rw [List.count_eq_countP, ← List.countP_eq_length_filter]
    rw [List.length_eq_countP_add_countP (fun x => x == i) (l := xs)]
    congr 1
    apply List.countP_congr
    intro x _
    simp
  omega

omit [Target] in
/-- The entries read by a lookup, in terms of the hash codes of all entries. -/
theorem slot_size {h : K → Nat} {T : HashTable K V} (hT : TableOK h T) {code : Nat} {s : Slot}
    (hs : T.slots[code % T.numSlots]? = some s) :
    ((T.entries.drop s.minIndex).take (s.maxIndex - s.minIndex)).length
      ≤ 1 + (T.entries.length
          - ((T.entries.map (fun e => h e.1)).map (· % T.numSlots)).toFinset.card) := by
  set es := (T.entries.drop s.minIndex).take (s.maxIndex - s.minIndex) with hes
  have hb := hT.inv.bounds _ s hs
  have hall : ∀ e ∈ es, h e.1 % T.numSlots = code % T.numSlots := by
    intro e he
    obtain ⟨j, hj⟩ := List.getElem?_of_mem he
    rw [hes, List.getElem?_take] at hj
    split at hj
    · rename_i hlt
      rw [List.getElem?_drop] at hj
      exact (hT.inv.mem _ e hj _ s hs).2 ⟨by omega, by omega⟩
    · cases hj
  have hsub : (es.map (fun e => h e.1 % T.numSlots)).Sublist
      ((T.entries.map (fun e => h e.1)).map (· % T.numSlots)) := by
    rw [List.map_map]
    exact ((List.take_sublist _ _).trans (List.drop_sublist _ _)).map _
  have hcount := hsub.count_le (code % T.numSlots)
  have hfull : (es.map (fun e => h e.1 % T.numSlots)).count (code % T.numSlots) = es.length := by
    have : (es.map (fun e => h e.1 % T.numSlots)).count (code % T.numSlots)
        = (es.map (fun e => h e.1 % T.numSlots)).length := by
      rw [List.count_eq_length]
      intro x hx
      obtain ⟨e, he, rfl⟩ := List.mem_map.1 hx
      exact (hall e he).symm
    rw [this, List.length_map]
  have hbound := count_le_collisions ((T.entries.map (fun e => h e.1)).map (· % T.numSlots))
    (code % T.numSlots)
  rw [List.length_map, List.length_map] at hbound
  omega

/-- The counted lookup shared by the hash-based maps. -/
def tableCounted (eq : Q → Q → Bool) (borrow : K → Q) (T : HashTable K V) (code : Nat) (q : Q) :
    Res (Option (K × Ref V) × Nat) := do
  let r ← T.getHashInfo code
  let es ← sliceUnchecked T.entries r.1 r.2
  return scanCounted eq borrow q r.1 es

omit [Target] in
theorem tableCounted_fst (eq : Q → Q → Bool) (borrow : K → Q) (T : HashTable K V) (code : Nat)
    (q : Q) : (tableCounted eq borrow T code q).map Prod.fst = tableLookup eq borrow T code q := by
  unfold tableCounted tableLookup
  cases T.getHashInfo code with
  | ok r =>
    simp only [Res.ok_bind]
    cases sliceUnchecked T.entries r.1 r.2 with
    | ok es => simp [scanCounted_fst]
    | panic => rfl
    | ub => rfl
  | panic => rfl
  | ub => rfl

omit [Target] in
/-- How many comparisons a lookup makes at most. -/
theorem tableCounted_le {h : K → Nat} {T : HashTable K V} (hT : TableOK h T)
    (eq : Q → Q → Bool) (borrow : K → Q) (code : Nat) (q : Q) :
    ∃ o n, tableCounted eq borrow T code q = .ok (o, n) ∧
      n ≤ 1 + (T.entries.length
        - ((T.entries.map (fun e => h e.1)).map (· % T.numSlots)).toFinset.card) := by
  obtain ⟨s, hs, hb1, hb2, _⟩ := tableLookup_safe hT.slotsOK eq borrow code q
  refine ⟨(scanCounted eq borrow q s.minIndex
    ((T.entries.drop s.minIndex).take (s.maxIndex - s.minIndex))).1, _, ?_, (scanCounted_le eq borrow q
    ((T.entries.drop s.minIndex).take (s.maxIndex - s.minIndex)) s.minIndex).trans
    (slot_size hT hs)⟩
  unfold tableCounted HashTable.getHashInfo sliceUnchecked
  rw [hs]
  simp [hb1, hb2]

omit [Target] in
/-- The collisions in the table are those the analysis reported. -/
theorem collisions_analysis {h : K → Nat} {T : HashTable K V}
    {payload : List (K × V)} (hp : T.entries.Perm payload) {r : HashAnalysis}
    (hr : analyzeHashCodes (payload.map (fun e => h e.1)) = .ok r)
    (hn : payload ≠ [] → T.numSlots = r.numHashSlots) :
    1 + (T.entries.length
      - ((T.entries.map (fun e => h e.1)).map (· % T.numSlots)).toFinset.card)
      ≤ 1 + r.numHashCollisions := by
  by_cases hne : payload = []
  · subst hne
    have : T.entries = [] := List.Perm.eq_nil hp
    rw [this]
    simp
  · obtain ⟨r', hr', _, _, _, hc, _⟩ := analyze_spec (payload.map (fun e => h e.1))
      (by simpa using hne)
    rw [hr] at hr'
    cases hr'
    rw [hc, List.length_map, hp.length_eq, hn hne]
    have : ((T.entries.map (fun e => h e.1)).map (· % r.numHashSlots)).toFinset
        = ((payload.map (fun e => h e.1)).map (· % r.numHashSlots)).toFinset :=
      List.toFinset_eq_of_perm _ _ ((hp.map _).map _)
    rw [this]
    exact le_rfl

omit [Target] in
/-- The bound in terms of the analysis of the payload's hash codes. -/
theorem tableCounted_analysis {h : K → Nat} {T : HashTable K V} (hT : TableOK h T)
    {payload : List (K × V)} (hp : T.entries.Perm payload) {r : HashAnalysis}
    (hr : analyzeHashCodes (payload.map (fun e => h e.1)) = .ok r)
    (hn : payload ≠ [] → T.numSlots = r.numHashSlots)
    (eq : Q → Q → Bool) (borrow : K → Q) (code : Nat) (q : Q) :
    ∃ o n, tableCounted eq borrow T code q = .ok (o, n) ∧ n ≤ 1 + r.numHashCollisions := by
  obtain ⟨o, n, h1, h2⟩ := tableCounted_le hT eq borrow code q
  exact ⟨o, n, h1, h2.trans (collisions_analysis hp hr hn)⟩

end FC
