import Verif.Model.IntKey
import Verif.Spec.Integers
import Verif.Lemmas.Table
import Mathlib.Data.Int.Interval
import Mathlib.Data.Finset.Card
import Mathlib.Tactic.Ring
import Mathlib.Tactic.Positivity

/-
Facts about the integer key analyzer and the range map.
-/

set_option autoImplicit false

namespace FC
variable [Target]
variable {K V Q : Type}

omit [Target] in
theorem IntTy.arith_ok {t : IntTy} {oc : Bool} {x : Int} (h : t.InRange x) :
    t.arith oc x = .ok x := by simp [IntTy.arith, h]

omit [Target] in
theorem IntTy.lo_le_zero (t : IntTy) : t.lo ≤ 0 := by
  unfold IntTy.lo
  split
  · have : (0 : Int) ≤ 2 ^ (t.bits - 1) := by positivity
    omega
  · omega

omit [Target] in
theorem IntTy.zero_le_hi (t : IntTy) : 0 ≤ t.hi := by
  unfold IntTy.hi
  split
  · have : (0 : Int) < 2 ^ (t.bits - 1) := by positivity
    omega
  · have : (0 : Int) < 2 ^ t.bits := by positivity
    omega

omit [Target] in
/-- Width of the type's value range. -/
theorem IntTy.hi_sub_lo {t : IntTy} (hb : 0 < t.bits) : t.hi - t.lo = 2 ^ t.bits - 1 := by
  unfold IntTy.hi IntTy.lo
  split
  · obtain ⟨b, hb'⟩ : ∃ b, t.bits = b + 1 := ⟨t.bits - 1, by omega⟩
    rw [hb']
    have : (2 : Int) ^ (b + 1) = 2 ^ b + 2 ^ b := by rw [pow_succ]; ring
    simp only [Nat.add_sub_cancel]
    omega
  · omega

omit [Target] in
theorem intKeyLoop_ok {t : IntTy} {oc : Bool} (keys : List Int) :
    ∀ (mn mx c : Int), t.lo ≤ c → c + keys.length ≤ t.hi →
      intKeyLoop t oc keys mn mx c
        = .ok (keys.foldl min mn, keys.foldl max mx, c + keys.length) := by
  induction keys with
  | nil => intro mn mx c _ _; simp [intKeyLoop]
  | cons k ks ih =>
    intro mn mx c h1 h2
    simp only [List.length_cons, Nat.cast_add, Nat.cast_one] at h2
    unfold intKeyLoop
    rw [IntTy.arith_ok ⟨by omega, by omega⟩]
    simp only
    rw [ih _ _ _ (by omega) (by omega)]
    simp only [List.foldl_cons, List.length_cons, Nat.cast_add, Nat.cast_one]
    congr 3
    omega

omit [Target] in
theorem foldl_min_le (keys : List Int) (m : Int) :
    keys.foldl min m ≤ m ∧ ∀ k ∈ keys, keys.foldl min m ≤ k := by
  induction keys generalizing m with
  | nil => simp
  | cons k ks ih =>
    have h := ih (min m k)
    simp only [List.foldl_cons, List.mem_cons, forall_eq_or_imp]
    have h1 := h.1
    exact ⟨by omega, by omega, h.2⟩

omit [Target] in
theorem foldl_min_mem (keys : List Int) (m : Int) :
    keys.foldl min m = m ∨ keys.foldl min m ∈ keys := by
  induction keys generalizing m with
  | nil => simp
  | cons k ks ih =>
    simp only [List.foldl_cons, List.mem_cons]
    rcases ih (min m k) with h | h
    · rcases min_choice m k with h' | h' <;> rw [h'] at h ⊢
      · exact Or.inl h
      · exact Or.inr (Or.inl h)
    · exact Or.inr (Or.inr h)

omit [Target] in
theorem foldl_max_le (keys : List Int) (m : Int) :
    m ≤ keys.foldl max m ∧ ∀ k ∈ keys, k ≤ keys.foldl max m := by
  induction keys generalizing m with
  | nil => simp
  | cons k ks ih =>
    have h := ih (max m k)
    simp only [List.foldl_cons, List.mem_cons, forall_eq_or_imp]
    have h1 := h.1
    exact ⟨by omega, by omega, h.2⟩

omit [Target] in
theorem foldl_max_mem (keys : List Int) (m : Int) :
    keys.foldl max m = m ∨ keys.foldl max m ∈ keys := by
  induction keys generalizing m with
  | nil => simp
  | cons k ks ih =>
    simp only [List.foldl_cons, List.mem_cons]
    rcases ih (max m k) with h | h
    · rcases max_choice m k with h' | h' <;> rw [h'] at h ⊢
      · exact Or.inl h
      · exact Or.inr (Or.inl h)
    · exact Or.inr (Or.inr h)

omit [Target] in
theorem isMin_unique {keys : List Int} {a b : Int} (ha : IsMin keys a) (hb : IsMin keys b) :
    a = b := le_antisymm (ha.2 b hb.1) (hb.2 a ha.1)

omit [Target] in
theorem isMax_unique {keys : List Int} {a b : Int} (ha : IsMax keys a) (hb : IsMax keys b) :
    a = b := le_antisymm (hb.2 a ha.1) (ha.2 b hb.1)

omit [Target] in
theorem foldl_min_isMin {t : IntTy} {keys : List Int} (hne : keys ≠ [])
    (hr : ∀ k ∈ keys, t.InRange k) : IsMin keys (keys.foldl min t.hi) := by
  refine ⟨?_, (foldl_min_le keys t.hi).2⟩
  rcases foldl_min_mem keys t.hi with h | h
  · obtain ⟨k, hk⟩ := List.exists_mem_of_ne_nil _ hne
    have h1 := (foldl_min_le keys t.hi).2 k hk
    have h2 := (hr k hk).2
    rw [h] at h1 ⊢
    rwa [le_antisymm h1 h2]
  · exact h

omit [Target] in
theorem foldl_max_isMax {t : IntTy} {keys : List Int} (hne : keys ≠ [])
    (hr : ∀ k ∈ keys, t.InRange k) : IsMax keys (keys.foldl max t.lo) := by
  refine ⟨?_, (foldl_max_le keys t.lo).2⟩
  rcases foldl_max_mem keys t.lo with h | h
  · obtain ⟨k, hk⟩ := List.exists_mem_of_ne_nil _ hne
    have h1 := (foldl_max_le keys t.lo).2 k hk
    have h2 := (hr k hk).1
    rw [h] at h1 ⊢
    rwa [le_antisymm h2 h1]
  · exact h

omit [Target] in
/-- The analyzer's answer when nothing overflows. -/
theorem analyzeIntKeys_ok {t : IntTy} {oc : Bool} {keys : List Int} {mn mx : Int}
    (hr : ∀ k ∈ keys, t.InRange k) (hmn : IsMin keys mn) (hmx : IsMax keys mx)
    (hcount : (keys.length : Int) ≤ t.hi) (hspan : mx - mn ≤ t.hi) :
    analyzeIntKeys t oc keys
      = .ok (if mx - mn = (keys.length : Int) - 1 then .range else .normal) := by
  have hne : keys ≠ [] := List.ne_nil_of_mem hmn.1
  have hlen : 0 < keys.length := List.length_pos_iff.2 hne
  unfold analyzeIntKeys
  rw [intKeyLoop_ok keys t.hi t.lo 0 t.lo_le_zero (by omega)]
  have e1 := isMin_unique hmn (foldl_min_isMin hne hr)
  have e2 := isMax_unique hmx (foldl_max_isMax hne hr)
  simp only [Res.ok_bind, ← e1, ← e2, Int.zero_add]
  rw [if_neg (by omega)]
  have h0 := t.lo_le_zero
  have hle := hmn.2 mx hmx.1
  rw [IntTy.arith_ok ⟨by omega, hspan⟩]
  simp only [Res.ok_bind]
  rw [IntTy.arith_ok ⟨by omega, by omega⟩]
  simp only [Res.ok_bind, Res.pure_eq]
  split <;> rfl

omit [Target] in
theorem exists_isMin {keys : List Int} (hne : keys ≠ []) : ∃ m, IsMin keys m := by
  cases keys with
  | nil => exact absurd rfl hne
  | cons k ks =>
    refine ⟨ks.foldl min k, ?_, ?_⟩
    · rcases foldl_min_mem ks k with h | h
      · rw [h]; exact List.mem_cons_self
      · exact List.mem_cons_of_mem _ h
    · intro x hx
      rcases List.mem_cons.1 hx with rfl | hx
      · exact (foldl_min_le ks x).1
      · exact (foldl_min_le ks k).2 x hx

omit [Target] in
theorem exists_isMax {keys : List Int} (hne : keys ≠ []) : ∃ m, IsMax keys m := by
  cases keys with
  | nil => exact absurd rfl hne
  | cons k ks =>
    refine ⟨ks.foldl max k, ?_, ?_⟩
    · rcases foldl_max_mem ks k with h | h
      · rw [h]; exact List.mem_cons_self
      · exact List.mem_cons_of_mem _ h
    · intro x hx
      rcases List.mem_cons.1 hx with rfl | hx
      · exact (foldl_max_le ks x).1
      · exact (foldl_max_le ks k).2 x hx

omit [Target] in
/-- For distinct integers, spanning exactly their number means being an interval. -/
theorem contiguous_iff {keys : List Int} (hd : keys.Nodup) {mn mx : Int} (hmn : IsMin keys mn)
    (hmx : IsMax keys mx) :
    mx - mn = (keys.length : Int) - 1 ↔ ∀ x, mn ≤ x → x ≤ mx → x ∈ keys := by
  have hsub : keys.toFinset ⊆ Finset.Icc mn mx := by
    intro x hx
    rw [List.mem_toFinset] at hx
    exact Finset.mem_Icc.2 ⟨hmn.2 x hx, hmx.2 x hx⟩
  have hcard : keys.toFinset.card = keys.length := List.toFinset_card_of_nodup hd
  have hicc : (Finset.Icc mn mx).card = (mx + 1 - mn).toNat := Int.card_Icc mn mx
  have hle := hmn.2 mx hmx.1
  constructor
  · intro h x h1 h2
    have : keys.toFinset = Finset.Icc mn mx :=
      Finset.eq_of_subset_of_card_le hsub (by rw [hcard, hicc]; omega)
    rw [← List.mem_toFinset, this]
    exact Finset.mem_Icc.2 ⟨h1, h2⟩
  · intro h
    have : keys.toFinset = Finset.Icc mn mx := by
      apply Finset.Subset.antisymm hsub
      intro x hx
      rw [Finset.mem_Icc] at hx
      exact List.mem_toFinset.2 (h x hx.1 hx.2)
    rw [this, hicc] at hcard
    omega

omit [Target] in
/-- In a strictly increasing integer list, values grow at least as fast as positions. -/
theorem strict_gap {l : List Int} (hs : l.Pairwise (· < ·)) {i j : Nat} {x y : Int} (hij : i ≤ j)
    (hi : l[i]? = some x) (hj : l[j]? = some y) : x + ((j : Int) - i) ≤ y := by
  induction j generalizing y with
  | zero =>
    have : i = 0 := by omega
    subst this
    rw [hi] at hj; simp at hj; omega
  | succ j ih =>
    rcases Nat.lt_or_ge i (j + 1) with h | h
    · have hjl : j + 1 < l.length := (List.getElem?_eq_some_iff.1 hj).1
      have hz : l[j]? = some l[j] := List.getElem?_eq_getElem (by omega)
      have := ih (by omega) hz
      have hlt : l[j] < l[j + 1] := List.pairwise_iff_getElem.1 hs j (j + 1) (by omega) hjl (by omega)
      have : l[j + 1] = y := by
        rw [List.getElem?_eq_getElem hjl] at hj; simpa using hj
      push_cast
      omega
    · have : i = j + 1 := by omega
      subst this
      rw [hi] at hj; simp at hj; omega

omit [Target] in
/-- A strictly increasing list whose ends are `length - 1` apart is consecutive. -/
theorem consecutive {l : List Int} (hs : l.Pairwise (· < ·)) {a b : Int} (h0 : l[0]? = some a)
    (hlast : l[l.length - 1]? = some b) (hspan : b - a = (l.length : Int) - 1) {j : Nat} {x : Int}
    (hj : l[j]? = some x) : x = a + j := by
  have hjl : j < l.length := (List.getElem?_eq_some_iff.1 hj).1
  have h1 := strict_gap hs (Nat.zero_le j) h0 hj
  have h2 := strict_gap hs (show j ≤ l.length - 1 by omega) hj hlast
  push_cast at h1 h2
  omega

omit [Target] in
theorem stableSort_perm {α : Type} (key : α → Int) (l : List α) : (stableSortByKey key l).Perm l :=
  List.perm_insertionSort _ l

omit [Target] in
theorem stableSort_sorted {α : Type} (key : α → Int) (l : List α) :
    (stableSortByKey key l).Pairwise (fun a b => key a ≤ key b) :=
  haveI : Std.Total (fun a b : α => key a ≤ key b) := ⟨fun _ _ => le_total _ _⟩
  haveI : IsTrans _ (fun a b : α => key a ≤ key b) := ⟨fun _ _ _ => le_trans⟩
  List.pairwise_insertionSort _ l

/-- A range map whose entries are the consecutive keys from `min` to `max`. -/
structure RangeOK (t : IntTy) (m : IntegerRangeMap V) : Prop where
  keys : ∀ (j : Nat) (e : Int × V), m.entries[j]? = some e → e.1 = m.min + j
  max : m.max = m.min + (m.entries.length : Int) - 1
  ne : m.entries ≠ []
  fits : m.max - m.min ≤ t.hi
  usize : m.max - m.min < usz

omit [Target] in
/-- First and last keys of the sorted payload are its minimum and maximum. -/
theorem sorted_ends {l : List (Int × V)} (hs : l.Pairwise (fun a b => a.1 ≤ b.1))
    {first : Int × V} {rest : List (Int × V)} (hl : l = first :: rest) :
    IsMin (l.map (·.1)) first.1 ∧ IsMax (l.map (·.1)) ((l.getLast (by simp [hl])).1) := by
  constructor
  · constructor
    · simp [hl]
    · intro k hk
      obtain ⟨e, he, rfl⟩ := List.mem_map.1 hk
      rw [hl] at he hs
      rcases List.mem_cons.1 he with rfl | he
      · exact le_rfl
      · exact (List.pairwise_cons.1 hs).1 e he
  · constructor
    · exact List.mem_map_of_mem (List.getLast_mem _)
    · intro k hk
      obtain ⟨e, he, rfl⟩ := List.mem_map.1 hk
      obtain ⟨i, hi, hie⟩ := List.getElem_of_mem he
      rw [List.getLast_eq_getElem]
      rw [← hie]
      rcases Nat.lt_or_ge i (l.length - 1) with h | h
      · exact List.pairwise_iff_getElem.1 hs i (l.length - 1) hi (by omega) h
      · have : i = l.length - 1 := by omega
        subst this; exact le_rfl

omit [Target] in
/-- The wrapped span of an ordered pair of values is either the true span or negative. -/
theorem arith_span {t : IntTy} (hb : 0 < t.bits) {oc : Bool} {a b d : Int} (ha : t.InRange a)
    (hb' : t.InRange b) (hab : a ≤ b) (h : t.arith oc (b - a) = .ok d) :
    (d = b - a ∧ b - a ≤ t.hi) ∨ d < 0 := by
  unfold IntTy.arith at h
  have h1 := ha.1
  have h2 := hb'.2
  have hw := IntTy.hi_sub_lo hb
  have h3 := t.zero_le_hi
  have h4 := ha.2
  have h5 := hb'.1
  have h0 := t.lo_le_zero
  split at h
  · rename_i hr
    simp at h
    exact Or.inl ⟨h.symm, hr.2⟩
  · rename_i hr
    split at h
    · simp at h
    · simp at h
      right
      have hgt : t.hi < b - a := by
        by_contra hc
        exact hr ⟨by omega, by omega⟩
      unfold IntTy.wrap at h
      have hsg : t.signed = true := by
        by_contra hns
        have hl : t.lo = 0 := by unfold IntTy.lo; simp [hns]
        omega
      have hmod : (b - a - t.lo) % 2 ^ t.bits = b - a - t.lo - 2 ^ t.bits := by
        rw [← Int.sub_emod_right, Int.emod_eq_of_lt (by omega) (by omega)]
      rw [hmod] at h
      omega

/-- When construction returns, the keys span exactly their number. -/
theorem rangeFromVec_ok {t : IntTy} (hb : 0 < t.bits) {oc : Bool} {payload : List (Int × V)}
    {m : IntegerRangeMap V} (hne : payload ≠ []) (hr : ∀ e ∈ payload, t.InRange e.1)
    (h : IntegerRangeMap.fromVec oc t payload = .ok m) :
    IsMin (payload.map (·.1)) m.min ∧ IsMax (payload.map (·.1)) m.max ∧
      m.max - m.min = (payload.length : Int) - 1 ∧ m.max - m.min ≤ t.hi ∧
      m.max - m.min < usz ∧ m.entries = stableSortByKey (·.1) payload := by
  unfold IntegerRangeMap.fromVec at h
  have hperm := stableSort_perm (fun e : Int × V => e.1) payload
  have hsort := stableSort_sorted (fun e : Int × V => e.1) payload
  simp only at h
  split at h
  · rename_i hnil
    rw [hnil] at hperm
    exact absurd hperm.nil_eq.symm hne
  · rename_i first rest hcons
    have hends := sorted_ends hsort hcons
    have hpm : ((stableSortByKey (·.1) payload).map (·.1)).Perm (payload.map (·.1)) := hperm.map _
    have hmin : IsMin (payload.map (·.1)) first.1 :=
      ⟨hpm.mem_iff.1 hends.1.1, fun k hk => hends.1.2 k (hpm.mem_iff.2 hk)⟩
    have hlast : ((first :: rest).getLast (by simp)).1
        = ((stableSortByKey (·.1) payload).getLast (by simp [hcons])).1 := by
      congr 2; exact hcons.symm
    have hmax : IsMax (payload.map (·.1)) ((first :: rest).getLast (by simp)).1 := by
      rw [hlast]
      exact ⟨hpm.mem_iff.1 hends.2.1, fun k hk => hends.2.2 k (hpm.mem_iff.2 hk)⟩
    obtain ⟨d, hd, h⟩ := Res.bind_eq_ok.1 h
    obtain ⟨span, hspan, h⟩ := Res.bind_eq_ok.1 h
    obtain ⟨_, hass, h⟩ := Res.bind_eq_ok.1 h
    simp only [Res.pure_eq, Res.ok.injEq] at h
    subst h
    simp only
    have hir : ∀ k ∈ payload.map (·.1), t.InRange k := by
      intro k hk
      obtain ⟨e, he, rfl⟩ := List.mem_map.1 hk
      exact hr e he
    have hcase := arith_span hb (hir _ hmin.1) (hir _ hmax.1) (hmin.2 _ hmax.1) hd
    have hsp : 0 ≤ d ∧ d < usz ∧ span = d.toNat := by
      unfold toUsize Res.unwrap at hspan
      split at hspan
      · rename_i heq
        split at heq
        · rename_i hc; simp at heq hspan; exact ⟨hc.1, hc.2, by omega⟩
        · simp at heq
      · simp at hspan
    have hlen : (stableSortByKey (·.1) payload).length = payload.length := hperm.length_eq
    have hpos : 0 < payload.length := List.length_pos_iff.2 hne
    have heq : span = payload.length - 1 := by
      unfold Res.assert at hass
      split at hass
      · rename_i hdec; rw [hlen] at hdec; simpa using hdec
      · simp at hass
    rcases hcase with ⟨hc, hfit⟩ | hc
    · exact ⟨hmin, hmax, by omega, hfit, by omega, trivial⟩
    · omega

/-- Distinct keys: the constructed range map is consecutive. -/
theorem rangeFromVec_rangeOK {t : IntTy} (hb : 0 < t.bits) {oc : Bool} {payload : List (Int × V)}
    {m : IntegerRangeMap V} (hne : payload ≠ []) (hr : ∀ e ∈ payload, t.InRange e.1)
    (hd : (payload.map (·.1)).Nodup) (h : IntegerRangeMap.fromVec oc t payload = .ok m) :
    RangeOK t m ∧ m.entries.Perm payload := by
  obtain ⟨hmin, hmax, hspan, hfit, hus, hent⟩ := rangeFromVec_ok hb hne hr h
  have hperm : m.entries.Perm payload := hent ▸ stableSort_perm _ _
  have hsort : m.entries.Pairwise (fun a b => a.1 ≤ b.1) := hent ▸ stableSort_sorted _ _
  have hlen := hperm.length_eq
  have hmapperm : (m.entries.map (·.1)).Perm (payload.map (·.1)) := hperm.map _
  have hnd : (m.entries.map (·.1)).Nodup := hmapperm.nodup_iff.2 hd
  have hstrict : (m.entries.map (·.1)).Pairwise (· < ·) := by
    rw [List.pairwise_map]
    have hnd' : m.entries.Pairwise (fun a b => a.1 ≠ b.1) := List.pairwise_map.1 hnd
    exact (hsort.and hnd').imp (fun h => lt_of_le_of_ne h.1 h.2)
  have hpos : 0 < m.entries.length := by rw [hlen]; exact List.length_pos_iff.2 hne
  have hcons : ∃ first rest, m.entries = first :: rest := by
    cases hm : m.entries with
    | nil => simp [hm] at hpos
    | cons a l => exact ⟨a, l, rfl⟩
  obtain ⟨first, rest, hc⟩ := hcons
  have hends := sorted_ends hsort hc
  have tr : ∀ {k}, k ∈ m.entries.map (·.1) ↔ k ∈ payload.map (·.1) := hmapperm.mem_iff
  have h1 : first.1 = m.min := isMin_unique hends.1 ⟨tr.2 hmin.1, fun k hk => hmin.2 k (tr.1 hk)⟩
  have h2 : (m.entries.getLast (by simp [hc])).1 = m.max :=
    isMax_unique hends.2 ⟨tr.2 hmax.1, fun k hk => hmax.2 k (tr.1 hk)⟩
  refine ⟨⟨?_, by omega, by simp [hc], hfit, hus⟩, hperm⟩
  intro j e hj
  apply consecutive hstrict (a := m.min) (b := m.max)
  · simp [hc, h1]
  · rw [List.getElem?_map, List.length_map, ← h2, List.getLast_eq_getElem,
      List.getElem?_eq_getElem (by omega)]
    rfl
  · simp only [List.length_map]; omega
  · rw [List.getElem?_map, hj]; rfl

/-- Position of a probe in a consecutive range map. -/
theorem position_ok {t : IntTy} {oc : Bool} {m : IntegerRangeMap V} (hm : RangeOK t m) (q : Int) :
    m.position oc t q
      = .ok (if m.min ≤ q ∧ q ≤ m.max then some (q - m.min).toNat else none) := by
  unfold IntegerRangeMap.position
  split
  · rename_i h
    have h0 := t.lo_le_zero
    have hf := hm.fits
    have hu := hm.usize
    rw [IntTy.arith_ok ⟨by omega, by omega⟩]
    simp only [toUsize]
    rw [if_pos ⟨by omega, by omega⟩]
  · rfl

theorem rangeKV_eq {t : IntTy} {oc : Bool} {m : IntegerRangeMap V} (hm : RangeOK t m) (q : Int) :
    m.getKeyValue oc t q = .ok (scan IntegerMap.ieq id q 0 m.entries) := by
  unfold IntegerRangeMap.getKeyValue
  rw [position_ok hm]
  simp only [Res.ok_bind]
  split
  · rename_i h
    split at h
    · simp at h
    · rename_i hout
      have : scan IntegerMap.ieq id q 0 m.entries = none := by
        rw [scan_none]
        intro e he
        obtain ⟨j, hj⟩ := List.getElem?_of_mem he
        have hk := hm.keys j e hj
        have hjl : j < m.entries.length := (List.getElem?_eq_some_iff.1 hj).1
        have hx := hm.max
        simp only [IntegerMap.ieq, id, decide_eq_false_iff_not]
        intro hq
        apply hout
        constructor <;> omega
      rw [this]; rfl
  · rename_i i h
    split at h
    · rename_i hin
      simp at h
      have hx := hm.max
      have hil : i < m.entries.length := by omega
      have hi : m.entries[i]? = some m.entries[i] := List.getElem?_eq_getElem hil
      have hk := hm.keys i _ hi
      have hs : scan IntegerMap.ieq id q 0 m.entries
          = some (m.entries[i].1, ⟨0 + i, m.entries[i].2⟩) := by
        apply scan_eq_of_unique hi
        · simp only [IntegerMap.ieq, id, decide_eq_true_eq]; omega
        · intro j' e' hj' he'
          have := hm.keys j' e' he'
          simp only [IntegerMap.ieq, id, decide_eq_false_iff_not]
          omega
      rw [hs]
      simp only [IntegerRangeMap.entryAt, hi, Res.ok_bind, Res.pure_eq, Nat.zero_add]
    · simp at h

theorem rangeGet_eq_kv {t : IntTy} {oc : Bool} (m : IntegerRangeMap V) (q : Int) :
    m.get oc t q = (m.getKeyValue oc t q).map (fun o => o.map (·.2)) := by
  unfold IntegerRangeMap.get IntegerRangeMap.getKeyValue
  cases m.position oc t q with
  | ok o =>
    cases o with
    | none => rfl
    | some i => simp only [Res.ok_bind]; cases m.entryAt i <;> rfl
  | panic => rfl
  | ub => rfl

theorem RangeOK.write {t : IntTy} {m : IntegerRangeMap V} (hm : RangeOK t m) (i : Nat) (v : V) :
    RangeOK t (m.write i v) := by
  refine ⟨?_, ?_, ?_, hm.fits, hm.usize⟩
  · intro j e hj
    simp only [IntegerRangeMap.write, setVal_getElem?, Option.map_eq_some_iff] at hj
    obtain ⟨e0, he0, rfl⟩ := hj
    have := hm.keys j e0 he0
    simp only [IntegerRangeMap.write]
    by_cases hij : i = j <;> simpa [hij] using this
  · simp only [IntegerRangeMap.write, setVal_length]; exact hm.max
  · intro h
    apply hm.ne
    have := setVal_length m.entries i v
    simp only [IntegerRangeMap.write] at h
    rw [h] at this
    exact List.length_eq_zero_iff.1 this.symm

end FC
