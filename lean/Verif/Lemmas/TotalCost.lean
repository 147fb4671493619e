import Verif.Spec.TotalCost
import Verif.Lemmas.Cost
import Verif.Lemmas.Sets
import Mathlib.Tactic.Ring

/-
The total number of comparisons made to look up all keys.
-/

set_option autoImplicit false

namespace FC
variable {K V Q : Type}

/-! ### Pairs sharing a slot -/

theorem sharing_perm {size : Nat} {l l' : List Nat} (h : l.Perm l') :
    sharing size l = sharing size l' := by
  induction h with
  | nil => rfl
  | cons x h ih => simp only [sharing, ih, (h.filter _).length_eq]
  | swap x y l =>
    simp only [sharing, List.filter_cons]
    by_cases hxy : x % size = y % size
    · simp only [hxy, decide_true, if_true, List.length_cons]
    · have h2 : ¬ y % size = x % size := fun h => hxy h.symm
      simp only [hxy, h2, decide_false, Bool.false_eq_true, if_false]
      omega
  | trans _ _ ih1 ih2 => rw [ih1, ih2]

/-- Repeated residues: the number of codes less the number of slots they use. -/
theorem sharing_le (size : Nat) (l : List Nat) :
    2 * sharing size l ≤ (l.length - (l.map (· % size)).toFinset.card)
      * (l.length - (l.map (· % size)).toFinset.card + 1) := by
  induction l with
  | nil => simp [sharing]
  | cons c cs ih =>
    have hcard : ((cs.map (· % size)).toFinset).card ≤ cs.length := by
      simpa using List.toFinset_card_le (cs.map (· % size))
    have hcnt : (cs.filter (fun d => d % size = c % size)).length
        = (cs.map (· % size)).count (c % size) := by
      rw [List.count_eq_countP, List.countP_map, List.countP_eq_length_filter]
      congr 1
    by_cases hmem : c % size ∈ (cs.map (· % size))
    · have h1 := count_le_collisions (cs.map (· % size)) (c % size)
      rw [List.length_map] at h1
      have h2 : ((c :: cs).map (· % size)).toFinset = (cs.map (· % size)).toFinset := by
        rw [List.map_cons, List.toFinset_cons]
        exact Finset.insert_eq_self.2 (List.mem_toFinset.2 hmem)
      rw [h2, List.length_cons]
      simp only [sharing]
      rw [hcnt]
      generalize (cs.map (· % size)).toFinset.card = d at *
      obtain ⟨k, hk⟩ : ∃ k, cs.length = d + k := ⟨cs.length - d, by omega⟩
      have e1 : cs.length - d = k := by omega
      have e2 : cs.length + 1 - d = k + 1 := by omega
      rw [e1] at ih h1
      rw [e2]
      generalize (cs.map (· % size)).count (c % size) = x at *
      calc 2 * (x + sharing size cs) = 2 * x + 2 * sharing size cs := by ring
        _ ≤ 2 * (1 + k) + k * (k + 1) := Nat.add_le_add (Nat.mul_le_mul_left 2 h1) ih
        _ = (k + 1) * (k + 1 + 1) := by ring
    · have h0 : (cs.map (· % size)).count (c % size) = 0 := List.count_eq_zero.2 hmem
      have h2 : ((c :: cs).map (· % size)).toFinset.card = (cs.map (· % size)).toFinset.card + 1 := by
        rw [List.map_cons, List.toFinset_cons]
        exact Finset.card_insert_of_notMem (fun h => hmem (List.mem_toFinset.1 h))
      rw [h2, List.length_cons]
      simp only [sharing]
      rw [hcnt, h0, Nat.zero_add]
      have e : cs.length + 1 - ((cs.map (· % size)).toFinset.card + 1)
          = cs.length - (cs.map (· % size)).toFinset.card := by omega
      rw [e]
      exact ih

/-! ### Slots -/

/-- The entries a lookup goes through are those whose code belongs to the same slot. -/
theorem TableOK.slice_eq {h : K → Nat} {T : HashTable K V} (hT : TableOK h T) {code : Nat} {s : Slot}
    (hs : T.slots[code % T.numSlots]? = some s) :
    (T.entries.drop s.minIndex).take (s.maxIndex - s.minIndex)
      = T.entries.filter (fun e => h e.1 % T.numSlots = code % T.numSlots) := by
  have hb := hT.inv.bounds _ s hs
  have hget : ∀ (j : Nat) (e : K × V), T.entries[j]? = some e →
      (h e.1 % T.numSlots = code % T.numSlots ↔ s.minIndex ≤ j ∧ j < s.maxIndex) :=
    fun j e he => hT.inv.mem j e he _ s hs
  have hz : T.entries = T.entries.take s.minIndex ++
      ((T.entries.drop s.minIndex).take (s.maxIndex - s.minIndex)
        ++ (T.entries.drop s.minIndex).drop (s.maxIndex - s.minIndex)) := by
    rw [List.take_append_drop, List.take_append_drop]
  have ha : (T.entries.take s.minIndex).filter
      (fun e => h e.1 % T.numSlots = code % T.numSlots) = [] := by
    rw [List.filter_eq_nil_iff]
    intro x hx
    obtain ⟨j, hj⟩ := List.mem_iff_getElem?.1 hx
    rw [List.getElem?_take] at hj
    split at hj
    · have := hget j x hj
      simp; omega
    · cases hj
  have hd : ((T.entries.drop s.minIndex).drop (s.maxIndex - s.minIndex)).filter
      (fun e => h e.1 % T.numSlots = code % T.numSlots) = [] := by
    rw [List.filter_eq_nil_iff]
    intro x hx
    obtain ⟨j, hj⟩ := List.mem_iff_getElem?.1 hx
    rw [List.getElem?_drop, List.getElem?_drop] at hj
    have := hget _ x hj
    simp; omega
  have hc : ((T.entries.drop s.minIndex).take (s.maxIndex - s.minIndex)).filter
      (fun e => h e.1 % T.numSlots = code % T.numSlots)
      = (T.entries.drop s.minIndex).take (s.maxIndex - s.minIndex) := by
    rw [List.filter_eq_self]
    intro x hx
    obtain ⟨j, hj⟩ := List.mem_iff_getElem?.1 hx
    rw [List.getElem?_take] at hj
    split at hj
    · rw [List.getElem?_drop] at hj
      have := hget _ x hj
      simp; omega
    · cases hj
  conv_rhs => rw [hz, List.filter_append, List.filter_append, ha, hd, hc]
  simp

theorem tableCounted_eq {h : K → Nat} {T : HashTable K V} (hT : TableOK h T)
    (eq : Q → Q → Bool) (borrow : K → Q) (code : Nat) (q : Q) :
    ∃ i, tableCounted eq borrow T code q = .ok (scanCounted eq borrow q i
      (T.entries.filter (fun e => h e.1 % T.numSlots = code % T.numSlots))) := by
  obtain ⟨s, hs, hb1, hb2, _⟩ := tableLookup_safe hT.slotsOK eq borrow code q
  refine ⟨s.minIndex, ?_⟩
  rw [← hT.slice_eq hs]
  unfold tableCounted HashTable.getHashInfo sliceUnchecked
  rw [hs]
  simp [hb1, hb2]

/-! ### Scans -/

/-- A scan past entries that do not match, up to the one that does. -/
theorem scanCounted_hit (eq : Q → Q → Bool) (borrow : K → Q) (q : Q) (pre : List (K × V))
    (e : K × V) (post : List (K × V)) (hpre : ∀ x ∈ pre, eq q (borrow x.1) = false)
    (he : eq q (borrow e.1) = true) : ∀ i,
    scanCounted eq borrow q i (pre ++ e :: post)
      = (some (e.1, ⟨i + pre.length, e.2⟩), pre.length + 1) := by
  induction pre with
  | nil => intro i; simp [scanCounted, he]
  | cons x pre ih =>
    intro i
    have hx := hpre x (by simp)
    have := ih (fun y hy => hpre y (by simp [hy])) (i + 1)
    simp only [List.cons_append, scanCounted, hx, Bool.false_eq_true, if_false, this,
      List.length_cons]
    rw [show i + 1 + pre.length = i + (pre.length + 1) by omega]

/-- A scan that finds nothing goes through all entries. -/
theorem scanCounted_miss (eq : Q → Q → Bool) (borrow : K → Q) (q : Q) (es : List (K × V))
    (h : ∀ x ∈ es, eq q (borrow x.1) = false) : ∀ i,
    scanCounted eq borrow q i es = (none, es.length) := by
  induction es with
  | nil => intro i; rfl
  | cons x es ih =>
    intro i
    have hx := h x (by simp)
    simp [scanCounted, hx, ih (fun y hy => h y (by simp [hy])) (i + 1)]

/-! ### All keys -/

/-- Looking up the entries from some place on: each costs one comparison more than there are earlier
entries in its slot. -/
theorem costs_from {code : K × V → Nat} {size : Nat} {lookup : K → Res (Option (K × Ref V) × Nat)}
    {all : List (K × V)}
    (hit : ∀ pre e post, all = pre ++ e :: post → ∃ i, lookup e.1 = .ok (some (e.1, ⟨i, e.2⟩),
      (pre.filter (fun x => code x % size = code e % size)).length + 1)) :
    ∀ (post pre : List (K × V)), all = pre ++ post →
      ∃ counts : List Nat, List.Forall₂ (fun e n => ∃ i, lookup e.1 = .ok (some (e.1, ⟨i, e.2⟩), n))
        post counts ∧ counts.sum + sharing size (pre.map code)
          = post.length + sharing size (all.map code) := by
  intro post
  induction post with
  | nil =>
    intro pre hall
    rw [List.append_nil] at hall
    subst hall
    exact ⟨[], .nil, by simp⟩
  | cons e post ih =>
    intro pre hall
    obtain ⟨counts, h1, h2⟩ := ih (pre ++ [e]) (by simp [hall])
    refine ⟨_ :: counts, .cons (hit pre e post hall) h1, ?_⟩
    have h3 : sharing size ((pre ++ [e]).map code)
        = (pre.filter (fun x => code x % size = code e % size)).length
          + sharing size (pre.map code) := by
      rw [sharing_perm (l' := code e :: pre.map code)]
      · simp only [sharing]
        rw [List.filter_map, List.length_map]
        rfl
      · rw [List.map_append]
        exact List.perm_append_comm
    rw [h3] at h2
    simp only [List.sum_cons, List.length_cons]
    omega

/-- A relation between the entries of a list and numbers, carried over to a permutation. -/
theorem forall₂_perm {α : Type} {R : α → Nat → Prop} {l l' : List α} (hp : l.Perm l') :
    ∀ {counts : List Nat}, List.Forall₂ R l counts →
      ∃ counts' : List Nat, List.Forall₂ R l' counts' ∧ counts'.sum = counts.sum := by
  induction hp with
  | nil => intro c h; exact ⟨c, h, rfl⟩
  | cons x _ ih =>
    intro c h
    cases h with
    | cons h1 h2 =>
      obtain ⟨c', h3, h4⟩ := ih h2
      exact ⟨_ :: c', .cons h1 h3, by simp [h4]⟩
  | swap x y l =>
    intro c h
    cases h with
    | cons h1 h2 =>
      cases h2 with
      | cons h3 h4 => exact ⟨_ :: _ :: _, .cons h3 (.cons h1 h4), by simp only [List.sum_cons]; omega⟩
  | trans _ _ ih1 ih2 =>
    intro c h
    obtain ⟨c1, h1, e1⟩ := ih1 h
    obtain ⟨c2, h2, e2⟩ := ih2 h1
    exact ⟨c2, h2, e2.trans e1⟩

/-- All keys of a table with pairwise different keys. -/
theorem table_finds_all {h : K → Nat} {T : HashTable K V} (hT : TableOK h T) {eq : Q → Q → Bool}
    {borrow : K → Q} (heq : LawfulEq eq) {payload : List (K × V)} (hp : T.entries.Perm payload)
    (hd : DistinctKeys (fun a b => eq (borrow a) (borrow b)) payload) :
    FindsAll (fun k => tableCounted eq borrow T (h k) (borrow k)) payload
      (payload.length + sharing T.numSlots (payload.map (fun e => h e.1))) := by
  have hsymm : ∀ a b : K × V, eq (borrow a.1) (borrow b.1) = false →
      eq (borrow b.1) (borrow a.1) = false := by
    intro a b h1
    cases h2 : eq (borrow b.1) (borrow a.1) with
    | false => rfl
    | true => rw [heq.symm _ _ h2] at h1; cases h1
  have hd' : T.entries.Pairwise (fun a b => eq (borrow a.1) (borrow b.1) = false) :=
    hp.symm.pairwise hd (fun {a b} => hsymm a b)
  obtain ⟨counts, h1, h2⟩ := costs_from (code := fun e => h e.1) (size := T.numSlots)
    (lookup := fun k => tableCounted eq borrow T (h k) (borrow k)) (all := T.entries) (by
      intro pre e post hall
      obtain ⟨i, hi⟩ := tableCounted_eq hT eq borrow (h e.1) (borrow e.1)
      rw [hall, List.filter_append, List.filter_cons_of_pos (by simp)] at hi
      refine ⟨_, hi.trans (congrArg Res.ok (scanCounted_hit eq borrow (borrow e.1) _ e _ ?_
        (heq.refl _) i))⟩
      intro x hx
      rw [hall] at hd'
      exact hsymm _ _ ((List.pairwise_append.1 hd').2.2 x (List.mem_filter.1 hx).1 e (by simp)))
    T.entries [] rfl
  obtain ⟨counts', h3, h4⟩ := forall₂_perm hp h1
  refine ⟨counts', ?_, h3⟩
  rw [h4, ← hp.length_eq, ← sharing_perm ((hp.map _) : (T.entries.map (fun e => h e.1)).Perm _)]
  simpa [sharing] using h2

/-- A value that no stored key matches. -/
theorem table_miss {h : K → Nat} {T : HashTable K V} (hT : TableOK h T) {eq : Q → Q → Bool}
    {borrow : K → Q} {payload : List (K × V)} (hp : T.entries.Perm payload) {q : Q}
    (hq : ∀ e ∈ payload, eq q (borrow e.1) = false) (code : Nat) :
    tableCounted eq borrow T code q = .ok (none, ((payload.map (fun e => h e.1)).filter
      (fun d => d % T.numSlots = code % T.numSlots)).length) := by
  obtain ⟨i, hi⟩ := tableCounted_eq hT eq borrow code q
  rw [hi, scanCounted_miss _ _ _ _ (fun x hx => hq x (hp.mem_iff.1 (List.mem_filter.1 hx).1)),
    List.filter_map, List.length_map, (hp.filter _).length_eq]
  rfl

/-! ### Maps -/

theorem FindsAll.congr {l l' : K → Res (Option (K × Ref V) × Nat)} {payload : List (K × V)}
    {total : Nat} (h : FindsAll l payload total) (hl : ∀ e ∈ payload, l' e.1 = l e.1) :
    FindsAll l' payload total := by
  obtain ⟨counts, h1, h2⟩ := h
  refine ⟨counts, h1, ?_⟩
  clear h1
  induction h2 with
  | nil => exact .nil
  | cons h _ ih =>
    refine .cons ?_ (ih (fun e he => hl e (by simp [he])))
    rw [hl _ (by simp)]
    exact h

/-- A map over the images of the keys. -/
theorem FindsAll.map {K' : Type} {f : K → K'} {l' : K' → Res (Option (K' × Ref V) × Nat)}
    {l : K → Res (Option (K × Ref V) × Nat)} {payload : List (K × V)} {total : Nat}
    (h : FindsAll l' (payload.map (fun e => (f e.1, e.2))) total)
    (hl : ∀ k v i n, l' (f k) = .ok (some (f k, ⟨i, v⟩), n) → l k = .ok (some (k, ⟨i, v⟩), n)) :
    FindsAll l payload total := by
  obtain ⟨counts, h1, h2⟩ := h
  refine ⟨counts, h1, ?_⟩
  rw [List.forall₂_map_left_iff] at h2
  exact h2.imp (fun e n ⟨i, hi⟩ => ⟨i, hl _ _ _ _ hi⟩)

variable [Target]

/-- From the hash codes of the payload to the finished table. -/
theorem new_finds_all {env : Env} {S : IdxTy} {payload : List (K × V)} {hash : K → Res Nat}
    {t : HashTable K V} {r : HashAnalysis}
    (ht : HashTable.new env S payload r.numHashSlots hash = .ok t) (h32 : payload.length < 2 ^ 32)
    {code : K → Nat} (hcode : ∀ e ∈ payload, hash e.1 = .ok (code e.1)) {eq : Q → Q → Bool}
    {borrow : K → Q} (heq : LawfulEq eq)
    (hd : DistinctKeys (fun a b => eq (borrow a) (borrow b)) payload) :
    FindsAll (fun k => tableCounted eq borrow t (code k) (borrow k)) payload
      (payload.length + sharing r.numHashSlots (payload.map (fun e => code e.1))) := by
  obtain ⟨hp, g, hg, hT, hn⟩ := HashTable.new_inv ht h32
  have hT' : TableOK code t := hT.congr (fun e he => by
    have he' := hp.mem_iff.1 he
    have := hg e he'
    rw [hcode e he'] at this
    exact (Res.ok.inj this).symm)
  have := table_finds_all hT' heq hp hd
  by_cases hne : payload = []
  · subst hne
    exact ⟨[], by simp [sharing], .nil⟩
  · rwa [(hn hne).1] at this

theorem new_miss {env : Env} {S : IdxTy} {payload : List (K × V)} {hash : K → Res Nat}
    {t : HashTable K V} {r : HashAnalysis}
    (ht : HashTable.new env S payload r.numHashSlots hash = .ok t) (h32 : payload.length < 2 ^ 32)
    {code : K → Nat} (hcode : ∀ e ∈ payload, hash e.1 = .ok (code e.1)) {eq : Q → Q → Bool}
    {borrow : K → Q} {q : Q} (hq : ∀ e ∈ payload, eq q (borrow e.1) = false) (c : Nat) :
    tableCounted eq borrow t c q = .ok (none, ((payload.map (fun e => code e.1)).filter
      (fun d => d % r.numHashSlots = c % r.numHashSlots)).length) := by
  obtain ⟨hp, g, hg, hT, hn⟩ := HashTable.new_inv ht h32
  have hT' : TableOK code t := hT.congr (fun e he => by
    have he' := hp.mem_iff.1 he
    have := hg e he'
    rw [hcode e he'] at this
    exact (Res.ok.inj this).symm)
  have := table_miss hT' hp hq c
  by_cases hne : payload = []
  · subst hne
    simpa using this
  · rwa [(hn hne).1] at this

/-- A table is completed only if every key could be hashed. -/
theorem HashTable.new_hashed {env : Env} {S : IdxTy} {payload : List (K × V)} {n : Nat}
    {hash : K → Res Nat} {t : HashTable K V} (h : HashTable.new env S payload n hash = .ok t) :
    ∀ e ∈ payload, ∃ c, hash e.1 = .ok c := by
  intro e he
  have hne : payload ≠ [] := List.ne_nil_of_mem he
  unfold HashTable.new at h
  rw [if_neg (by simpa using hne)] at h
  rw [Res.bind_eq_ok] at h
  obtain ⟨cap, _, h⟩ := h
  split at h
  · cases h
  · rw [Res.bind_eq_ok] at h
    obtain ⟨prep, hprep, _⟩ := h
    obtain ⟨b, hb⟩ := Res.mapList_eq_ok hprep e he
    unfold prepItem at hb
    cases hx : hash e.1 with
    | ok c => exact ⟨c, rfl⟩
    | panic => rw [hx] at hb; cases hb
    | ub => rw [hx] at hb; cases hb

/-- A left-slice map is built only from keys that reach the end of the range. -/
theorem LeftSliceMap.built_ordered {env : Env} {S : IdxTy} {payload : List (Bytes × V)}
    {a b : Nat} {bh : Hasher} {m : LeftSliceMap V} (hne : payload = [] → a ≤ b)
    (hm : LeftSliceMap.fromVecWithHasher env S payload a b bh = .ok m) : a ≤ b := by
  unfold LeftSliceMap.fromVecWithHasher at hm
  simp only [Res.bind_eq_ok, Res.pure_eq, Res.ok.injEq] at hm
  obtain ⟨_, _, _, _, t, ht, rfl⟩ := hm
  by_cases h : payload = []
  · exact hne h
  · obtain ⟨e, he⟩ := List.exists_mem_of_ne_nil _ h
    obtain ⟨c, hc⟩ := HashTable.new_hashed ht e he
    by_contra hn
    rw [sliceHash_ub (fun h => hn h.1)] at hc
    cases hc

theorem LeftSliceMap.built_long {env : Env} {S : IdxTy} {payload : List (Bytes × V)}
    {a b : Nat} {bh : Hasher} {m : LeftSliceMap V}
    (hm : LeftSliceMap.fromVecWithHasher env S payload a b bh = .ok m) :
    ∀ e ∈ payload, b ≤ e.1.length := by
  unfold LeftSliceMap.fromVecWithHasher at hm
  simp only [Res.bind_eq_ok, Res.pure_eq, Res.ok.injEq] at hm
  obtain ⟨_, _, _, _, t, ht, rfl⟩ := hm
  intro e he
  obtain ⟨c, hc⟩ := HashTable.new_hashed ht e he
  by_contra hb
  rw [sliceHash_ub (fun h => hb h.2)] at hc
  cases hc

end FC
