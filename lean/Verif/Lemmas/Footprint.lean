import Verif.Spec.Footprint
import Verif.Lemmas.Built
import Verif.Lemmas.Machine
import Verif.Lemmas.Sets
import Verif.Props.HashAnalysis
import Mathlib.Tactic.Ring

/-
The size of a built table.
-/

set_option autoImplicit false

namespace FC
variable [Target]
variable {K V T : Type}

omit [Target] in
theorem analyze_proportionate {codes : List Nat} {r : HashAnalysis}
    (hr : analyzeHashCodes codes = .ok r) :
    Proportionate codes.length (if codes.length = 0 then 1 else r.numHashSlots) := by
  obtain ⟨r', hr', h⟩ := C18_bounds codes
  rw [hr] at hr'
  cases hr'
  by_cases h0 : codes = []
  · subst h0
    exact ⟨by simp, by simp, by simp, by simp, by simp⟩
  · obtain ⟨h1, h2, h3, h4, h5⟩ := h h0
    have : codes.length ≠ 0 := by simpa using h0
    rw [if_neg this]
    exact ⟨fun h => absurd h this, fun _ => ⟨h1, h2⟩, fun _ => h3, h4, h5⟩

theorem HashTable.new_compact {env : Env} {S : IdxTy} {payload : List (K × V)} {codes : List Nat}
    {r : HashAnalysis} {hash : K → Res Nat} {t : HashTable K V}
    (hl : codes.length = payload.length) (hr : analyzeHashCodes codes = .ok r)
    (h : HashTable.new env S payload r.numHashSlots hash = .ok t) : Compact t payload.length := by
  obtain ⟨hp, hs, _, hn⟩ := HashTable.new_result h
  refine ⟨hp.length_eq, ?_, ?_⟩
  · have := analyze_proportionate hr
    rw [hl] at this
    rw [hn]
    simpa using this
  · intro s hs'
    obtain ⟨i, hi⟩ := List.mem_iff_getElem?.1 hs'
    have := hs.bounds i s hi
    rwa [hp.length_eq] at this

theorem CommonMap.compact {env : Env} {S : IdxTy} {enc : K → List HCall} {payload : List (K × V)}
    {bh : Hasher} {m : CommonMap K V}
    (hm : CommonMap.fromVecWithHasher env S enc payload bh = .ok m) :
    Compact m.table payload.length := by
  unfold CommonMap.fromVecWithHasher at hm
  simp only [Res.bind_eq_ok, Res.pure_eq, Res.ok.injEq] at hm
  obtain ⟨r, hr, t, ht, rfl⟩ := hm
  exact HashTable.new_compact (by simp) hr ht

theorem IntegerMap.compact {env : Env} {S : IdxTy} {payload : List (Int × V)} {m : IntegerMap V}
    (hm : IntegerMap.fromVec env S payload = .ok m) : Compact m.table payload.length := by
  unfold IntegerMap.fromVec at hm
  simp only [Res.bind_eq_ok, Res.pure_eq, Res.ok.injEq] at hm
  obtain ⟨r, hr, t, ht, rfl⟩ := hm
  exact HashTable.new_compact (by simp) hr ht

theorem LengthMap.compact {env : Env} {S : IdxTy} {lenK : K → Nat} {payload : List (K × V)}
    {m : LengthMap K V} (hm : LengthMap.fromVec env S lenK payload = .ok m) :
    Compact m.table payload.length := by
  unfold LengthMap.fromVec at hm
  simp only [Res.bind_eq_ok, Res.pure_eq, Res.ok.injEq] at hm
  obtain ⟨r, hr, t, ht, rfl⟩ := hm
  exact HashTable.new_compact (by simp) hr ht

theorem LeftSliceMap.compact {env : Env} {S : IdxTy} {payload : List (Bytes × V)} {a b : Nat}
    {bh : Hasher} {m : LeftSliceMap V}
    (hm : LeftSliceMap.fromVecWithHasher env S payload a b bh = .ok m) :
    Compact m.table payload.length := by
  unfold LeftSliceMap.fromVecWithHasher at hm
  simp only [Res.bind_eq_ok, Res.pure_eq, Res.ok.injEq] at hm
  obtain ⟨codes, hc, r, hr, t, ht, rfl⟩ := hm
  exact HashTable.new_compact (Res.mapList_length hc) hr ht

theorem RightSliceMap.compact {env : Env} {S : IdxTy} {payload : List (Bytes × V)} {a b : Nat}
    {bh : Hasher} {m : RightSliceMap V}
    (hm : RightSliceMap.fromVecWithHasher env S payload a b bh = .ok m) :
    Compact m.table payload.length := by
  unfold RightSliceMap.fromVecWithHasher at hm
  simp only [Res.bind_eq_ok, Res.pure_eq, Res.ok.injEq] at hm
  obtain ⟨codes, hc, r, hr, t, ht, rfl⟩ := hm
  exact HashTable.new_compact (Res.mapList_length hc) hr ht

theorem TableFits.mk {t : HashTable K V} {n : Nat} {S : IdxTy} (h4 : 4 ≤ n)
    (hS : S = if n ≤ 255 then IdxTy.u8 else IdxTy.usize) (h : Compact t n) :
    TableFits n (some (S, t.slots)) :=
  Or.inr ⟨t.slots, by rw [hS], h4, h.slots, h.indices⟩

theorem FrozenMap.table_fits {env : Env} {ty : KeyTy K} {payload : List (K × V)} {bh : Hasher}
    {m : FrozenMap K V} (hm : FrozenMap.new env ty payload bh = .ok m) :
    TableFits payload.length m.slotTable := by
  unfold FrozenMap.new at hm
  by_cases hlen : payload.length < 4
  · rw [if_pos hlen] at hm
    cases hm
    exact Or.inl rfl
  · rw [if_neg hlen] at hm
    have h4 : 4 ≤ payload.length := by omega
    cases hk : ty.kind with
    | u32 f g =>
      rw [hk] at hm
      simp only [FrozenMap.newU32Map, Res.bind_eq_ok, List.length_map] at hm
      obtain ⟨d, _, hm⟩ := hm
      cases d with
      | range =>
        simp only [Res.bind_eq_ok, Res.pure_eq, Res.ok.injEq] at hm
        obtain ⟨r, _, rfl⟩ := hm
        exact Or.inl rfl
      | normal =>
        dsimp only at hm
        split at hm <;> rename_i h255 <;>
          simp only [Res.bind_eq_ok, Res.pure_eq, Res.ok.injEq] at hm <;>
          obtain ⟨r, hr, rfl⟩ := hm <;> have := IntegerMap.compact hr <;>
          rw [List.length_map] at this
        · exact .mk h4 (by rw [if_pos h255]) this
        · exact .mk h4 (by rw [if_neg h255]) this
    | string f g =>
      rw [hk] at hm
      simp only [FrozenMap.newStringMap, Res.bind_eq_ok, List.length_map] at hm
      obtain ⟨d, _, hm⟩ := hm
      split at hm <;> rename_i h255 <;> cases d <;>
        simp only [Res.bind_eq_ok, Res.pure_eq, Res.ok.injEq] at hm <;>
        obtain ⟨r, hr, rfl⟩ := hm
      · have := CommonMap.compact hr
        simp only [List.length_map] at this
        exact .mk h4 (by rw [if_pos h255]) this
      · have := LeftSliceMap.compact hr
        simp only [List.length_map] at this
        exact .mk h4 (by rw [if_pos h255]) this
      · have := RightSliceMap.compact hr
        simp only [List.length_map] at this
        exact .mk h4 (by rw [if_pos h255]) this
      · have := LengthMap.compact hr
        simp only [List.length_map] at this
        exact .mk h4 (by rw [if_pos h255]) this
      · have := CommonMap.compact hr
        simp only [List.length_map] at this
        exact .mk h4 (by rw [if_neg h255]) this
      · have := LeftSliceMap.compact hr
        simp only [List.length_map] at this
        exact .mk h4 (by rw [if_neg h255]) this
      · have := RightSliceMap.compact hr
        simp only [List.length_map] at this
        exact .mk h4 (by rw [if_neg h255]) this
      · have := CommonMap.compact hr
        simp only [List.length_map] at this
        exact .mk h4 (by rw [if_neg h255]) this
    | other =>
      rw [hk] at hm
      simp only [FrozenMap.newCommonMap] at hm
      split at hm <;> rename_i h255 <;>
        simp only [Res.bind_eq_ok, Res.pure_eq, Res.ok.injEq] at hm <;>
        obtain ⟨r, hr, rfl⟩ := hm
      · exact .mk h4 (by rw [if_pos h255]) (CommonMap.compact hr)
      · exact .mk h4 (by rw [if_neg h255]) (CommonMap.compact hr)

theorem FrozenSet.slotTable_toMap (s : FrozenSet T) : s.slotTable = s.toMap.slotTable := by
  cases s <;> rfl

/-- Bits from slots. -/
theorem TableFits.bits {n : Nat} {tab : Option (IdxTy × List Slot)} (h : TableFits n tab) :
    (n < 4 → tableBits tab = 0) ∧ (n < 128 → tableBits tab ≤ 32 * 8 * n) ∧
      (n ≤ 255 → 128 ≤ n → tableBits tab ≤ 20 * 8 * n) ∧
      (256 ≤ n → tableBits tab ≤ 20 * Target.bits * n) ∧
      (1000 ≤ n → tableBits tab ≤ 6 * Target.bits * n) := by
  rcases h with rfl | ⟨slots, rfl, h4, hp, _⟩
  · simp [tableBits]
  · refine ⟨by omega, fun h => ?_, fun h h' => ?_, fun h => ?_, fun h => ?_⟩
    · have := (hp.below128 (by omega) h).2
      simp only [tableBits, if_pos (show n ≤ 255 by omega), IdxTy.u8]
      omega
    · have := hp.from128 h'
      simp only [tableBits, if_pos h, IdxTy.u8]
      omega
    · have := hp.from128 (by omega)
      simp only [tableBits, if_neg (show ¬ n ≤ 255 by omega), IdxTy.usize]
      calc slots.length * (2 * Target.bits) ≤ 10 * n * (2 * Target.bits) :=
            Nat.mul_le_mul_right _ this
        _ = 20 * Target.bits * n := by ring
    · have := hp.from1000 h
      simp only [tableBits, if_neg (show ¬ n ≤ 255 by omega), IdxTy.usize]
      calc slots.length * (2 * Target.bits) ≤ 3 * n * (2 * Target.bits) :=
            Nat.mul_le_mul_right _ this
        _ = 6 * Target.bits * n := by ring

end FC
