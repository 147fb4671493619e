import Verif.Spec.Integers
import Verif.Examples
import Verif.Lemmas.Lookup
import Verif.Lemmas.Maps
import Verif.Lemmas.Sets
import Verif.Props.SpecializedMaps

/-
C21-C25: integer key analysis, range maps and empty collections.
-/

set_option autoImplicit false

namespace FC
variable {K V Q : Type}

theorem contiguous_span {keys : List Int} (hd : keys.Nodup) {mn mx : Int} (hmn : IsMin keys mn)
    (hmx : IsMax keys mx) :
    mx - mn = (keys.length : Int) - 1 ↔ Contiguous keys := by
  rw [contiguous_iff hd hmn hmx]
  constructor
  · intro h a ha b hb x hax hxb
    exact h x (le_trans (hmn.2 a ha) hax) (le_trans hxb (hmx.2 b hb))
  · intro h x h1 h2
    exact h mn hmn.1 mx hmx.1 x h1 h2

/-! ### C21 -/

/-- Exactly the contiguous, non-empty key lists are judged a range. -/
theorem C21_range_iff (t : IntTy) (oc : Bool) (keys : List Int) (hr : ∀ k ∈ keys, t.InRange k)
    (hd : keys.Nodup) (hfit : FitsType t keys) :
    ∃ v, analyzeIntKeys t oc keys = .ok v ∧
      (v = .range ↔ keys ≠ [] ∧ Contiguous keys) ∧
      (v = .normal ↔ keys = [] ∨ ¬ Contiguous keys) := by
  by_cases hne : keys = []
  · subst hne
    refine ⟨.normal, ?_, ?_, ?_⟩
    · unfold analyzeIntKeys intKeyLoop
      simp
    · simp
    · simp
  · obtain ⟨mn, hmn⟩ := exists_isMin hne
    obtain ⟨mx, hmx⟩ := exists_isMax hne
    refine ⟨_, analyzeIntKeys_ok hr hmn hmx hfit.1 (hfit.2 mn hmn.1 mx hmx.1), ?_, ?_⟩
    · rw [← contiguous_span hd hmn hmx]
      split <;> simp_all
    · rw [← contiguous_span hd hmn hmx]
      split <;> simp_all

example := C21_range_iff IntTy.i8 true [3, -1, 0, 2, 1] (by decide) (by decide) ⟨by decide, by decide⟩

/-- Unsigned keys always fit, unless they are all the values of their type. -/
theorem C21_unsigned (bits : Nat) (oc : Bool) (keys : List Int)
    (hr : ∀ k ∈ keys, (⟨bits, false⟩ : IntTy).InRange k) (hd : keys.Nodup)
    (hlt : keys.length < 2 ^ bits) :
    ∃ v, analyzeIntKeys ⟨bits, false⟩ oc keys = .ok v ∧
      (v = .range ↔ keys ≠ [] ∧ Contiguous keys) := by
  have hhi : (⟨bits, false⟩ : IntTy).hi = 2 ^ bits - 1 := rfl
  have hlo : (⟨bits, false⟩ : IntTy).lo = 0 := rfl
  obtain ⟨v, h1, h2, _⟩ := C21_range_iff ⟨bits, false⟩ oc keys hr hd
    ⟨by
      rw [hhi]
      have : (keys.length : Int) < 2 ^ bits := by exact_mod_cast hlt
      omega, by
      intro a ha b hb
      have h1 := hr a ha
      have h2 := hr b hb
      unfold IntTy.InRange at h1 h2
      rw [hlo] at h1
      rw [hhi] at h2 ⊢
      omega⟩
  exact ⟨v, h1, h2⟩

example := C21_unsigned 8 false [3, 7, 4, 6, 5] (by decide) (by decide) (by decide)

example : (∀ k ∈ [(3 : Int), -1, 0, 2, 1], IntTy.i8.InRange k) ∧ [(3 : Int), -1, 0, 2, 1].Nodup ∧
    FitsType IntTy.i8 [3, -1, 0, 2, 1] ∧
    analyzeIntKeys IntTy.i8 true [3, -1, 0, 2, 1] = .ok .range ∧
    analyzeIntKeys IntTy.i8 true [3, -1, 0, 2, 5] = .ok .normal := by
  refine ⟨by decide, by decide, ⟨by decide, by decide⟩, by decide, by decide⟩

/-! ### C22 -/

/-- C22 is false: two `i8` keys too far apart make the analysis overflow. -/
theorem C22_counterexample : analyzeIntKeys IntTy.i8 true [-100, 100] = .panic := by decide

theorem intKeyLoop_panics {t : IntTy} (keys : List Int) :
    ∀ (mn mx c : Int), t.lo ≤ c → c ≤ t.hi → t.hi < c + keys.length →
      intKeyLoop t true keys mn mx c = .panic := by
  induction keys with
  | nil => intro mn mx c h1 h2 h3; simp at h3; omega
  | cons k ks ih =>
    intro mn mx c h1 h2 h3
    unfold intKeyLoop
    by_cases hc : c + 1 ≤ t.hi
    · rw [IntTy.arith_ok ⟨by omega, hc⟩]
      simp only
      refine ih _ _ _ (by omega) hc ?_
      rw [List.length_cons] at h3
      push_cast at h3
      omega
    · have : t.arith true (c + 1) = .panic := by
        unfold IntTy.arith
        rw [if_neg (fun h => hc h.2), if_pos rfl]
      rw [this]

/-- Exactly when the analysis overflows (in a build with overflow checks): too many keys or too wide
a span for the key type. Missing from C22: these inputs. -/
theorem C22_overflow_iff_partial (t : IntTy) (keys : List Int) (hr : ∀ k ∈ keys, t.InRange k) :
    (FitsType t keys → ∃ v, analyzeIntKeys t true keys = .ok v) ∧
    (¬ FitsType t keys → analyzeIntKeys t true keys = .panic) := by
  by_cases hne : keys = []
  · subst hne
    refine ⟨fun _ => ⟨.normal, by unfold analyzeIntKeys intKeyLoop; simp⟩, fun h => absurd ?_ h⟩
    exact ⟨by simpa using t.zero_le_hi, by simp⟩
  · obtain ⟨mn, hmn⟩ := exists_isMin hne
    obtain ⟨mx, hmx⟩ := exists_isMax hne
    refine ⟨fun hfit => ⟨_, analyzeIntKeys_ok hr hmn hmx hfit.1 (hfit.2 mn hmn.1 mx hmx.1)⟩,
      fun hfit => ?_⟩
    unfold analyzeIntKeys
    by_cases hc : (keys.length : Int) ≤ t.hi
    · have hspan : ¬ (mx - mn ≤ t.hi) := by
        intro h
        refine hfit ⟨hc, fun a ha b hb => ?_⟩
        have := hmn.2 a ha
        have := hmx.2 b hb
        omega
      rw [intKeyLoop_ok keys t.hi t.lo 0 t.lo_le_zero (by omega)]
      have h1 := isMin_unique (foldl_min_isMin hne hr) hmn
      have h2 := isMax_unique (foldl_max_isMax hne hr) hmx
      simp only [h1, h2, Res.ok_bind]
      have hpos : (0 : Int) < keys.length := by
        exact_mod_cast List.length_pos_iff.2 hne
      rw [if_neg (by omega)]
      have : t.arith true (mx - mn) = .panic := by
        unfold IntTy.arith
        rw [if_neg (fun h => hspan h.2), if_pos rfl]
      rw [this]
      rfl
    · rw [intKeyLoop_panics keys t.hi t.lo 0 t.lo_le_zero t.zero_le_hi (by omega)]
      rfl

example := C22_overflow_iff_partial IntTy.i8 [-100, 100] (by decide)

theorem intKeyLoop_unchecked {t : IntTy} (keys : List Int) :
    ∀ (mn mx c : Int), ∃ r, intKeyLoop t false keys mn mx c = .ok r := by
  induction keys with
  | nil => intro mn mx c; exact ⟨_, rfl⟩
  | cons k ks ih =>
    intro mn mx c
    unfold intKeyLoop
    have : ∃ c', t.arith false (c + 1) = .ok c' := by
      unfold IntTy.arith
      split
      · exact ⟨_, rfl⟩
      · exact ⟨_, rfl⟩
    obtain ⟨c', hc⟩ := this
    rw [hc]
    exact ih _ _ _

/-- Without overflow checks the analysis always returns. -/
theorem C22_unchecked_partial (t : IntTy) (keys : List Int) :
    ∃ v, analyzeIntKeys t false keys = .ok v := by
  have har : ∀ x, ∃ c', t.arith false x = .ok c' := by
    intro x
    unfold IntTy.arith
    split
    · exact ⟨_, rfl⟩
    · exact ⟨_, rfl⟩
  unfold analyzeIntKeys
  obtain ⟨⟨mn, mx, c⟩, h⟩ := intKeyLoop_unchecked (t := t) keys t.hi t.lo 0
  rw [h]
  simp only [Res.ok_bind]
  split
  · exact ⟨_, rfl⟩
  · obtain ⟨s, hs⟩ := har (mx - mn)
    obtain ⟨l, hl⟩ := har (c - 1)
    rw [hs, hl]
    simp only [Res.ok_bind]
    split <;> exact ⟨_, rfl⟩

/-- What wrapping does to the verdict: all 256 values of `u8` are contiguous, but the count wraps to
zero and the verdict is `Normal`. -/
theorem C21_full_domain_counterexample :
    analyzeIntKeys IntTy.u8 false ((List.range 256).map (fun n => (n : Int))) = .ok .normal := by
  decide +kernel

example : FitsType IntTy.u32 [5, 4000000000] ∧ ¬ FitsType IntTy.i8 [-100, 100] := by
  unfold FitsType; decide

/-! ### C23 -/

/-- Contiguous, distinct keys in any order: construction returns and every probe of the type (indeed
every integer) is answered correctly. -/
theorem C23_lookup [Target] (t : IntTy) (hb : 0 < t.bits) (oc : Bool) (payload : List (Int × V))
    (hne : payload ≠ []) (hr : ∀ e ∈ payload, t.InRange e.1)
    (hd : (payload.map (·.1)).Nodup) (hc : Contiguous (payload.map (·.1)))
    (hspan : ∀ a ∈ payload, ∀ b ∈ payload, b.1 - a.1 ≤ t.hi) (hlen : payload.length < usz) :
    ∃ m, IntegerRangeMap.fromVec oc t payload = .ok m ∧ m.len = payload.length ∧
      ∀ oc' q, AnswersProbe (fun k => decide (q = k)) payload (m.getKeyValue oc' t q)
        (m.get oc' t q) (m.getMut oc' t q) (m.containsKey oc' t q) := by
  have hne' : payload.map (·.1) ≠ [] := by simpa using hne
  obtain ⟨mn, hmn⟩ := exists_isMin hne'
  obtain ⟨mx, hmx⟩ := exists_isMax hne'
  have hs := (contiguous_span hd hmn hmx).2 hc
  rw [List.length_map] at hs
  obtain ⟨ea, hea, hea'⟩ := List.mem_map.1 hmn.1
  obtain ⟨eb, heb, heb'⟩ := List.mem_map.1 hmx.1
  have hfit : mx - mn ≤ t.hi := by
    have := hspan ea hea eb heb
    rw [hea', heb'] at this
    exact this
  have hus : mx - mn < usz := by
    have : (payload.length : Int) < usz := by exact_mod_cast hlen
    omega
  have hm := rangeFromVec_total (oc := oc) hmn hmx hs hfit hus
  refine ⟨_, hm, (stableSort_perm _ _).length_eq, fun oc' q => ?_⟩
  have hOK := (rangeFromVec_rangeOK hb hne hr hd hm).1
  have hkv := rangeKV_eq (oc := oc') hOK q
  have hget := rangeGet_eq_kv (t := t) (oc := oc') (⟨mn, mx, stableSortByKey (·.1) payload⟩) q
  rw [hkv] at hget
  refine ⟨_, hkv, hget, hget, ?_, exact_scan (eq := IntegerMap.ieq) (stableSort_perm _ _)⟩
  rw [IntegerRangeMap.containsKey, hget]
  simp

example := C23_lookup IntTy.i8 (by decide) true exInts (by decide) exInts_inRange exInts_nodup (by
    intro a ha b hb x hax hxb
    simp only [exInts, List.map_cons, List.map_nil, List.mem_cons, List.not_mem_nil, or_false] at *
    omega) (by decide) (by decide)

/-- Four contiguous `i8` keys in some order; probes at the ends of the type are answered. -/
example : (∀ e ∈ [((2 : Int), 1), (0, 2), (1, 3), (-1, 4)], IntTy.i8.InRange e.1) ∧
    Contiguous ([((2 : Int), 1), (0, 2), (1, 3), (-1, 4)].map (·.1)) ∧
    (do let m ← IntegerRangeMap.fromVec true IntTy.i8 [((2 : Int), 1), (0, 2), (1, 3), (-1, 4)]
        let a ← m.get true IntTy.i8 127; let b ← m.get true IntTy.i8 (-128)
        let c ← m.get true IntTy.i8 (-1)
        return (a.isNone, b.isNone, c.map Ref.val)) = .ok (true, true, some 4) := by
  refine ⟨by decide, ?_, by decide +kernel⟩
  intro a ha b hb x hax hxb
  simp only [List.map_cons, List.map_nil, List.mem_cons, List.not_mem_nil, or_false] at *
  omega

/-! ### C24 -/

/-- C24 is false, first: with repeated keys a gap can go unnoticed. -/
theorem C24_counterexample : ¬ Contiguous ([((0 : Int), 1), (0, 2), (3, 3), (3, 4)].map (·.1)) ∧
    ∃ m, IntegerRangeMap.fromVec true IntTy.u32 [((0 : Int), 1), (0, 2), (3, 3), (3, 4)] = .ok m := by
  refine ⟨fun h => ?_, Res.of_isOk (by decide +kernel)⟩
  have := h 0 (by simp) 3 (by simp) 1 (by decide) (by decide)
  simp at this

/-- C24 is false, second: contiguous keys of a signed type can span more than the type's maximum, and
construction panics, with or without overflow checks. -/
theorem C24_wide_counterexample (oc : Bool) :
    IntegerRangeMap.fromVec oc IntTy.i8
      ((List.range 256).map (fun n : Nat => ((n : Int) - 128, ()))) = .panic := by
  have h : (match IntegerRangeMap.fromVec oc IntTy.i8
      ((List.range 256).map (fun n : Nat => ((n : Int) - 128, ()))) with
      | .panic => true | _ => false) = true := by cases oc <;> decide +kernel
  revert h
  generalize IntegerRangeMap.fromVec oc IntTy.i8 _ = r
  cases r <;> simp

theorem rangeFromVec_ne_ub [Target] (oc : Bool) (t : IntTy) (payload : List (Int × V)) :
    IntegerRangeMap.fromVec oc t payload ≠ .ub := by
  unfold IntegerRangeMap.fromVec
  simp only
  split
  · simp
  · rename_i first rest _
    have h1 : ∀ x, t.arith oc x ≠ .ub := by
      intro x; unfold IntTy.arith; split_ifs <;> simp
    cases h : t.arith oc (((first :: rest).getLast (by simp)).1 - first.1) with
    | ub => exact absurd h (h1 _)
    | panic => simp
    | ok d =>
      simp only [Res.ok_bind]
      cases hu : toUsize d with
      | none => simp [Res.unwrap]
      | some u =>
        simp only [Res.unwrap, Res.ok_bind, Res.assert]
        split <;> simp

/-- Exactly when construction panics, for every payload: the span is not the number of entries minus
one, or it is not representable in the key type or in `usize`. -/
theorem C24_panics_iff [Target] (t : IntTy) (hb : 0 < t.bits) (oc : Bool) (payload : List (Int × V))
    (hne : payload ≠ []) (hr : ∀ e ∈ payload, t.InRange e.1) (mn mx : Int)
    (hmn : IsMin (payload.map (·.1)) mn) (hmx : IsMax (payload.map (·.1)) mx) :
    IntegerRangeMap.fromVec oc t payload = .panic ↔
      ¬ (mx - mn = (payload.length : Int) - 1 ∧ mx - mn ≤ t.hi ∧ mx - mn < usz) := by
  constructor
  · rintro h ⟨h1, h2, h3⟩
    rw [rangeFromVec_total hmn hmx h1 h2 h3] at h
    cases h
  · intro h
    cases hr' : IntegerRangeMap.fromVec oc t payload with
    | panic => rfl
    | ok m =>
      obtain ⟨h1, h2, h3, h4, h5, _⟩ := rangeFromVec_ok hb hne hr hr'
      rw [isMin_unique h1 hmn, isMax_unique h2 hmx] at h3 h4 h5
      exact absurd ⟨h3, h4, h5⟩ h
    | ub => exact absurd hr' (rangeFromVec_ne_ub _ _ _)

example := C24_panics_iff IntTy.i8 (by decide) true exInts (by decide) exInts_inRange (-1) 2
  ⟨by decide, by decide⟩ ⟨by decide, by decide⟩

/-- Distinct keys whose span fits: construction panics exactly when they are not contiguous. Missing
from C24: repeated keys and spans wider than the type's maximum, where it is false. -/
theorem C24_distinct_partial [Target] (t : IntTy) (hb : 0 < t.bits) (oc : Bool) (payload : List (Int × V))
    (hr : ∀ e ∈ payload, t.InRange e.1) (hd : (payload.map (·.1)).Nodup)
    (hspan : ∀ a ∈ payload, ∀ b ∈ payload, b.1 - a.1 ≤ t.hi) (hlen : payload.length < usz) :
    IntegerRangeMap.fromVec oc t payload = .panic ↔ ¬ Contiguous (payload.map (·.1)) := by
  by_cases hne : payload = []
  · subst hne
    have : IntegerRangeMap.fromVec oc t ([] : List (Int × V)) = .ok ⟨0, 0, []⟩ := rfl
    rw [this]
    simp [Contiguous]
  · have hne' : payload.map (·.1) ≠ [] := by simpa using hne
    obtain ⟨mn, hmn⟩ := exists_isMin hne'
    obtain ⟨mx, hmx⟩ := exists_isMax hne'
    rw [C24_panics_iff t hb oc payload hne hr mn mx hmn hmx, ← contiguous_span hd hmn hmx,
      List.length_map]
    obtain ⟨ea, hea, hea'⟩ := List.mem_map.1 hmn.1
    obtain ⟨eb, heb, heb'⟩ := List.mem_map.1 hmx.1
    have hfit := hspan ea hea eb heb
    rw [hea', heb'] at hfit
    have : (payload.length : Int) < usz := by exact_mod_cast hlen
    constructor
    · intro h h1
      exact h ⟨h1, hfit, by omega⟩
    · intro h h1
      exact h h1.1

example := C24_distinct_partial IntTy.u8 (by decide) true [(5, 1), (7, 2)] (by decide) (by decide) (by decide)
  (by decide)

example : (∀ e ∈ [((5 : Int), 1), (7, 2)], IntTy.u8.InRange e.1) ∧
    ([((5 : Int), 1), (7, 2)].map (·.1)).Nodup ∧
    (∀ a ∈ [((5 : Int), 1), (7, 2)], ∀ b ∈ [((5 : Int), 1), (7, 2)], b.1 - a.1 ≤ IntTy.u8.hi) := by
  decide

/-! ### C25 -/

theorem AnswersProbe.nothing {matching : K → Bool} {kv : Res (Option (K × Ref V))}
    {g gm : Res (Option (Ref V))} {c : Res Bool} (h : AnswersProbe matching [] kv g gm c) :
    FindsNothing kv g gm c := by
  obtain ⟨o, h1, h2, h3, h4, h5⟩ := h
  cases o with
  | none => exact ⟨h1, h2, h3, h4⟩
  | some r => exact absurd h5.1 (by simp)

/-- C25 is false: an empty range map panics when probed for zero, and so does an empty range set. -/
theorem C25_counterexample (oc : Bool) :
    (∃ m : IntegerRangeMap Nat, IntegerRangeMap.fromVec oc IntTy.i32 [] = .ok m ∧ m.len = 0 ∧
      m.get oc IntTy.i32 0 = .panic ∧ m.getMut oc IntTy.i32 0 = .panic ∧
      m.getKeyValue oc IntTy.i32 0 = .panic ∧ m.containsKey oc IntTy.i32 0 = .panic) ∧
    ∃ s, IntegerRangeSet.fromVec oc IntTy.i32 [] = .ok s ∧ s.contains oc IntTy.i32 0 = .panic := by
  cases oc <;> exact ⟨⟨_, rfl, rfl, rfl, rfl, rfl, rfl⟩, ⟨_, rfl, rfl⟩⟩

/-- Also, an empty right-slice map over an ascending range reads out of bounds for every probe that
reaches the end of the range. -/
theorem C25_right_slice_counterexample [Target] (env : Env) (S : IdxTy) (bh : Hasher) (a b : Nat)
    (hab : a < b) (q : Bytes) (hq : b ≤ q.length) :
    ∃ m : RightSliceMap V, RightSliceMap.fromVecWithHasher env S [] a b bh = .ok m ∧ m.len = 0 ∧
      ∀ oc, m.get oc q = .ub := by
  refine ⟨⟨⟨1, [⟨0, 0⟩], []⟩, bh, a, b⟩, ?_, rfl, fun oc => ?_⟩
  · unfold RightSliceMap.fromVecWithHasher
    simp only [Res.mapList, Res.ok_bind, analyze_nil]
    rfl
  · unfold RightSliceMap.get RightSliceMap.getHashInfo
    simp only
    rw [if_pos (by omega), rightHash_bad hab hq]
    rfl

/-- Every probe but 0. Missing from C25: the probe 0, where it is false. -/
theorem C25_range_partial [Target] (t : IntTy) (oc oc' : Bool) (q : Int) (hq : q ≠ 0) :
    ∃ m : IntegerRangeMap V, IntegerRangeMap.fromVec oc t [] = .ok m ∧ m.len = 0 ∧
      FindsNothing (m.getKeyValue oc' t q) (m.get oc' t q) (m.getMut oc' t q)
        (m.containsKey oc' t q) := by
  refine ⟨⟨0, 0, []⟩, rfl, rfl, ?_⟩
  have hp : (⟨0, 0, []⟩ : IntegerRangeMap V).position oc' t q = .ok none := by
    unfold IntegerRangeMap.position
    rw [if_neg]
    simp only
    omega
  refine ⟨?_, ?_, ?_, ?_⟩ <;>
    simp [IntegerRangeMap.getKeyValue, IntegerRangeMap.get, IntegerRangeMap.getMut,
      IntegerRangeMap.containsKey, hp]

example := C25_range_partial (V := Nat) IntTy.i32 true false 5 (by decide)

theorem C25_range_set_partial [Target] (t : IntTy) (oc oc' : Bool) (q : Int) (hq : q ≠ 0) :
    ∃ s, IntegerRangeSet.fromVec oc t [] = .ok s ∧ s.len = 0 ∧
      s.contains oc' t q = .ok false ∧ s.get oc' t q = .ok none := by
  obtain ⟨m, h1, h2, h3, _⟩ := C25_range_partial (V := Unit) t oc oc' q hq
  refine ⟨⟨m⟩, ?_, h2, ?_, ?_⟩
  · unfold IntegerRangeSet.fromVec
    rw [show unitPayload ([] : List Int) = [] from rfl, h1]
    rfl
  · simp [IntegerRangeSet.contains, IntegerRangeSet.get, keyOf, h3]
  · simp [IntegerRangeSet.get, keyOf, h3]

example := C25_range_set_partial IntTy.i32 true false 5 (by decide)

theorem C25_scanning (P : Probe K Q) (q : Q) :
    (ScanningMap.fromVec ([] : List (K × V))).len = 0 ∧
    FindsNothing ((ScanningMap.fromVec ([] : List (K × V))).getKeyValue P q)
      ((ScanningMap.fromVec ([] : List (K × V))).get P q)
      ((ScanningMap.fromVec ([] : List (K × V))).getMut P q)
      ((ScanningMap.fromVec ([] : List (K × V))).containsKey P q) :=
  ⟨rfl, rfl, rfl, rfl, rfl⟩

/-- For every index type, even `u128`, and every pair of `Hash` implementations. -/
theorem C25_common [Target] (env : Env) (S : IdxTy) (P : Probe K Q) (enc : K → List HCall) (bh : Hasher)
    (q : Q) :
    ∃ m : CommonMap K V, CommonMap.fromVecWithHasher env S enc [] bh = .ok m ∧ m.len = 0 ∧
      FindsNothing (m.getKeyValue P q) (m.get P q) (m.getMut P q) (m.containsKey P q) := by
  refine ⟨⟨⟨1, [⟨0, 0⟩], []⟩, bh⟩, ?_, rfl, ?_⟩
  · unfold CommonMap.fromVecWithHasher
    rw [List.map_nil, analyze_nil]
    rfl
  · refine ⟨?_, ?_, ?_, ?_⟩ <;>
      simp [CommonMap.getKeyValue, CommonMap.get, CommonMap.getMut, CommonMap.containsKey,
        CommonMap.getHashInfo, HashTable.getHashInfo, Nat.mod_one, sliceUnchecked, scan]

theorem C25_integer [Target] (env : Env) (S : IdxTy) (q : Int) :
    ∃ m : IntegerMap V, IntegerMap.fromVec env S [] = .ok m ∧ m.len = 0 ∧
      FindsNothing (m.getKeyValue q) (m.get q) (m.getMut q) (m.containsKey q) := by
  refine ⟨⟨⟨1, [⟨0, 0⟩], []⟩⟩, ?_, rfl, ?_⟩
  · unfold IntegerMap.fromVec
    rw [List.map_nil, analyze_nil]
    rfl
  · refine ⟨?_, ?_, ?_, ?_⟩ <;>
      simp [IntegerMap.getKeyValue, IntegerMap.get, IntegerMap.getMut, IntegerMap.containsKey,
        IntegerMap.getHashInfo, HashTable.getHashInfo, Nat.mod_one, sliceUnchecked, scan]

theorem C25_length [Target] (env : Env) (S : IdxTy) (borrow : K → Q) (eq : Q → Q → Bool) (lenK : K → Nat)
    (lenQ : Q → Nat) (q : Q) :
    ∃ m : LengthMap K V, LengthMap.fromVec env S lenK [] = .ok m ∧ m.len = 0 ∧
      FindsNothing (m.getKeyValue borrow eq lenQ q) (m.get borrow eq lenQ q)
        (m.getMut borrow eq lenQ q) (m.containsKey borrow eq lenQ q) := by
  refine ⟨⟨⟨1, [⟨0, 0⟩], []⟩⟩, ?_, rfl, ?_⟩
  · unfold LengthMap.fromVec
    rw [List.map_nil, analyze_nil]
    rfl
  · refine ⟨?_, ?_, ?_, ?_⟩ <;>
      simp [LengthMap.getKeyValue, LengthMap.get, LengthMap.getMut, LengthMap.containsKey,
        LengthMap.getHashInfo, HashTable.getHashInfo, Nat.mod_one, sliceUnchecked, scan]

/-- An empty left-slice map over an inverted range reads out of bounds for every probe that reaches the
end of the range. -/
theorem C25_left_slice_counterexample [Target] (env : Env) (S : IdxTy) (bh : Hasher) (a b : Nat)
    (hab : b < a) (q : Bytes) (hq : b ≤ q.length) :
    ∃ m : LeftSliceMap V, LeftSliceMap.fromVecWithHasher env S [] a b bh = .ok m ∧ m.len = 0 ∧
      m.get q = .ub := by
  refine ⟨⟨⟨1, [⟨0, 0⟩], []⟩, bh, a, b⟩, ?_, rfl, ?_⟩
  · unfold LeftSliceMap.fromVecWithHasher
    simp only [Res.mapList, Res.ok_bind, analyze_nil]
    rfl
  · unfold LeftSliceMap.get LeftSliceMap.getHashInfo
    simp only
    rw [if_pos hq, sliceHash_ub (by omega)]
    rfl

example := C25_left_slice_counterexample (V := Nat) checkedEnv IdxTy.u8 demoHasher 3 1 (by decide)
  [120] (by decide)

/-- A range in order, or a probe shorter than its end. Missing from C25: other probes of inverted
ranges, where it is false. -/
theorem C25_left_slice_partial [Target] (env : Env) (S : IdxTy) (a b : Nat) (bh : Hasher) (q : Bytes)
    (hab : a ≤ b ∨ q.length < b) :
    ∃ m : LeftSliceMap V, LeftSliceMap.fromVecWithHasher env S [] a b bh = .ok m ∧ m.len = 0 ∧
      FindsNothing (m.getKeyValue q) (m.get q) (m.getMut q) (m.containsKey q) := by
  refine ⟨⟨⟨1, [⟨0, 0⟩], []⟩, bh, a, b⟩, ?_, rfl, ?_⟩
  · unfold LeftSliceMap.fromVecWithHasher
    simp only [Res.mapList, Res.ok_bind, analyze_nil]
    rfl
  · have hi : (⟨⟨1, [⟨0, 0⟩], []⟩, bh, a, b⟩ : LeftSliceMap V).getHashInfo q = .ok (0, 0) := by
      unfold LeftSliceMap.getHashInfo
      by_cases h : q.length ≥ b
      · rw [if_pos h, sliceHash_ok (hab.resolve_right (Nat.not_lt.mpr h)) h]
        simp [HashTable.getHashInfo, Nat.mod_one]
      · rw [if_neg h]
        simp [HashTable.getHashInfo]
    refine ⟨?_, ?_, ?_, ?_⟩ <;>
      simp [LeftSliceMap.getKeyValue, LeftSliceMap.get, LeftSliceMap.getMut,
        LeftSliceMap.containsKey, hi, sliceUnchecked, scan]

example := C25_left_slice_partial (V := Nat) checkedEnv IdxTy.u8 1 3 demoHasher [120] (by decide)

/-- A range written downwards, or a probe shorter than its first number. Missing from C25: other probes
of ascending ranges, where it is false. -/
theorem C25_right_slice_partial [Target] (env : Env) (S : IdxTy) (a b : Nat) (bh : Hasher) (q : Bytes)
    (hab : b ≤ a ∨ q.length < a) :
    ∃ m : RightSliceMap V, RightSliceMap.fromVecWithHasher env S [] a b bh = .ok m ∧ m.len = 0 ∧
      ∀ oc, FindsNothing (m.getKeyValue oc q) (m.get oc q) (m.getMut oc q) (m.containsKey oc q) := by
  refine ⟨⟨⟨1, [⟨0, 0⟩], []⟩, bh, a, b⟩, ?_, rfl, fun oc => ?_⟩
  · unfold RightSliceMap.fromVecWithHasher
    simp only [Res.mapList, Res.ok_bind, analyze_nil]
    rfl
  · have hi : (⟨⟨1, [⟨0, 0⟩], []⟩, bh, a, b⟩ : RightSliceMap V).getHashInfo oc q = .ok (0, 0) := by
      unfold RightSliceMap.getHashInfo
      by_cases h : q.length ≥ a
      · rw [if_pos h, rightHash_ok (hab.resolve_right (Nat.not_lt.mpr h)) h]
        simp [HashTable.getHashInfo, Nat.mod_one]
      · rw [if_neg h]
        simp [HashTable.getHashInfo]
    refine ⟨?_, ?_, ?_, ?_⟩ <;>
      simp [RightSliceMap.getKeyValue, RightSliceMap.get, RightSliceMap.getMut,
        RightSliceMap.containsKey, hi, sliceUnchecked, scan]

example := C25_right_slice_partial (V := Nat) checkedEnv IdxTy.u8 3 1 demoHasher [120, 121, 122]
  (by decide)

/-- Nothing is found in a set. -/
private theorem keyOf_none {T : Type} {r : Res (Option (T × Ref Unit))} (h : r = .ok none) :
    keyOf r = .ok none ∧ (keyOf r).map Option.isSome = .ok false := by
  subst h
  exact ⟨rfl, rfl⟩

theorem C25_scanning_set (P : Probe K Q) (q : Q) :
    (ScanningSet.fromVec ([] : List K)).len = 0 ∧
      (ScanningSet.fromVec ([] : List K)).get P q = .ok none ∧
      (ScanningSet.fromVec ([] : List K)).contains P q = .ok false := ⟨rfl, rfl, rfl⟩

theorem C25_common_set [Target] (env : Env) (S : IdxTy) (P : Probe K Q) (enc : K → List HCall) (bh : Hasher)
    (q : Q) :
    ∃ s : CommonSet K, CommonSet.fromVecWithHasher env S enc [] bh = .ok s ∧ s.len = 0 ∧
      s.get P q = .ok none ∧ s.contains P q = .ok false := by
  obtain ⟨m, hm, hl, hf, _⟩ := C25_common (V := Unit) env S P enc bh q
  exact ⟨⟨m⟩, by simp [CommonSet.fromVecWithHasher, unitPayload, hm], hl, keyOf_none hf⟩

theorem C25_integer_set [Target] (env : Env) (S : IdxTy) (q : Int) :
    ∃ s : IntegerSet, IntegerSet.fromVec env S [] = .ok s ∧ s.len = 0 ∧
      s.get q = .ok none ∧ s.contains q = .ok false := by
  obtain ⟨m, hm, hl, hf, _⟩ := C25_integer (V := Unit) env S q
  exact ⟨⟨m⟩, by simp [IntegerSet.fromVec, unitPayload, hm], hl, keyOf_none hf⟩

theorem C25_length_set [Target] (env : Env) (S : IdxTy) (borrow : K → Q) (eq : Q → Q → Bool) (lenK : K → Nat)
    (lenQ : Q → Nat) (q : Q) :
    ∃ s : LengthSet K, LengthSet.fromVec env S lenK [] = .ok s ∧ s.len = 0 ∧
      s.get borrow eq lenQ q = .ok none ∧ s.contains borrow eq lenQ q = .ok false := by
  obtain ⟨m, hm, hl, hf, _⟩ := C25_length (V := Unit) env S borrow eq lenK lenQ q
  exact ⟨⟨m⟩, by simp [LengthSet.fromVec, unitPayload, hm], hl, keyOf_none hf⟩

theorem C25_left_slice_set_partial [Target] (env : Env) (S : IdxTy) (a b : Nat) (bh : Hasher)
    (q : Bytes) (hab : a ≤ b ∨ q.length < b) :
    ∃ s : LeftSliceSet, LeftSliceSet.fromVecWithHasher env S [] a b bh = .ok s ∧ s.len = 0 ∧
      s.get q = .ok none ∧ s.contains q = .ok false := by
  obtain ⟨m, hm, hl, hf, _⟩ := C25_left_slice_partial (V := Unit) env S a b bh q hab
  exact ⟨⟨m⟩, by simp [LeftSliceSet.fromVecWithHasher, unitPayload, hm], hl, keyOf_none hf⟩

example := C25_left_slice_set_partial checkedEnv IdxTy.u8 1 3 demoHasher [120, 121, 122] (by decide)

theorem C25_right_slice_set_partial [Target] (env : Env) (S : IdxTy) (a b : Nat) (bh : Hasher)
    (q : Bytes) (hab : b ≤ a ∨ q.length < a) :
    ∃ s : RightSliceSet, RightSliceSet.fromVecWithHasher env S [] a b bh = .ok s ∧ s.len = 0 ∧
      ∀ oc, s.get oc q = .ok none ∧ s.contains oc q = .ok false := by
  obtain ⟨m, hm, hl, hf⟩ := C25_right_slice_partial (V := Unit) env S a b bh q hab
  exact ⟨⟨m⟩, by simp [RightSliceSet.fromVecWithHasher, unitPayload, hm], hl,
    fun oc => keyOf_none (hf oc).1⟩

example := C25_right_slice_set_partial checkedEnv IdxTy.u8 3 1 demoHasher [120, 121, 122] (by decide)

/-- Facades: `new` of the empty payload for every key type, and `default`. -/
theorem C25_frozen_map [Target] (env : Env) (ty : KeyTy K) (bh : Hasher) :
    FrozenMap.new env ty ([] : List (K × V)) bh = .ok .default ∧
    (FrozenMap.default : FrozenMap K V).len = 0 ∧
    ∀ k, FindsNothing ((FrozenMap.default : FrozenMap K V).getKeyValue env ty k)
      ((FrozenMap.default : FrozenMap K V).get env ty k)
      ((FrozenMap.default : FrozenMap K V).getMut env ty k)
      ((FrozenMap.default : FrozenMap K V).containsKey env ty k) :=
  ⟨rfl, rfl, fun _ => ⟨rfl, rfl, rfl, rfl⟩⟩

theorem C25_frozen_set [Target] (env : Env) (ty : KeyTy K) (bh : Hasher) :
    FrozenSet.new env ty ([] : List K) bh = .ok .default ∧
    (FrozenSet.default : FrozenSet K).len = 0 ∧
    ∀ k, (FrozenSet.default : FrozenSet K).contains env ty k = .ok false ∧
      (FrozenSet.default : FrozenSet K).get env ty k = .ok none :=
  ⟨rfl, rfl, fun _ => ⟨rfl, rfl⟩⟩

end FC
