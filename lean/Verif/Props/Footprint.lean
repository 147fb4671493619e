import Verif.Examples
import Verif.Lemmas.Footprint

/-
C82: how much room a map takes.
-/

set_option autoImplicit false

namespace FC
variable {K V T : Type}

/-! ### C82 -/

theorem C82_common_map [Target] (env : Env) (S : IdxTy) (enc : K → List HCall)
    (payload : List (K × V)) (bh : Hasher) (m : CommonMap K V)
    (hm : CommonMap.fromVecWithHasher env S enc payload bh = .ok m) :
    Compact m.table payload.length := CommonMap.compact hm

example := C82_common_map checkedEnv IdxTy.u8 otherTy.enc exOther demoHasher exCommon exCommon_ok

theorem C82_integer_map [Target] (env : Env) (S : IdxTy) (payload : List (Int × V))
    (m : IntegerMap V) (hm : IntegerMap.fromVec env S payload = .ok m) :
    Compact m.table payload.length := IntegerMap.compact hm

example := C82_integer_map checkedEnv IdxTy.u8 exOther exInteger exInteger_ok

theorem C82_length_map [Target] (env : Env) (S : IdxTy) (lenK : K → Nat) (payload : List (K × V))
    (m : LengthMap K V) (hm : LengthMap.fromVec env S lenK payload = .ok m) :
    Compact m.table payload.length := LengthMap.compact hm

example := C82_length_map checkedEnv IdxTy.u8 List.length exBytes exLengths exLengths_ok

theorem C82_left_slice_map [Target] (env : Env) (S : IdxTy) (payload : List (Bytes × V)) (a b : Nat)
    (bh : Hasher) (m : LeftSliceMap V)
    (hm : LeftSliceMap.fromVecWithHasher env S payload a b bh = .ok m) :
    Compact m.table payload.length := LeftSliceMap.compact hm

example := C82_left_slice_map checkedEnv IdxTy.u8 exBytes 1 2 demoHasher exLeftSlice exLeftSlice_ok

theorem C82_right_slice_map [Target] (env : Env) (S : IdxTy) (payload : List (Bytes × V)) (a b : Nat)
    (bh : Hasher) (m : RightSliceMap V)
    (hm : RightSliceMap.fromVecWithHasher env S payload a b bh = .ok m) :
    Compact m.table payload.length := RightSliceMap.compact hm

example := C82_right_slice_map checkedEnv IdxTy.u8 exBytes 2 1 demoHasher exRightSlice exRightSlice_ok

/-! The sets hold such a map. -/

theorem C82_common_set [Target] (env : Env) (S : IdxTy) (enc : T → List HCall) (payload : List T)
    (bh : Hasher) (s : CommonSet T)
    (hs : CommonSet.fromVecWithHasher env S enc payload bh = .ok s) : Compact s.map.table payload.length := by
  unfold CommonSet.fromVecWithHasher at hs
  simp only [Res.bind_eq_ok, Res.pure_eq, Res.ok.injEq] at hs
  obtain ⟨m, hm, rfl⟩ := hs
  have := CommonMap.compact hm
  rwa [unitPayload_length] at this

example := C82_common_set checkedEnv IdxTy.u8 otherTy.enc exElems demoHasher _
  (Res.built (r := CommonSet.fromVecWithHasher checkedEnv IdxTy.u8 otherTy.enc exElems demoHasher)
    (by decide +kernel))

theorem C82_integer_set [Target] (env : Env) (S : IdxTy) (payload : List Int) (s : IntegerSet)
    (hs : IntegerSet.fromVec env S payload = .ok s) : Compact s.map.table payload.length := by
  unfold IntegerSet.fromVec at hs
  simp only [Res.bind_eq_ok, Res.pure_eq, Res.ok.injEq] at hs
  obtain ⟨m, hm, rfl⟩ := hs
  have := IntegerMap.compact hm
  rwa [unitPayload_length] at this

example := C82_integer_set checkedEnv IdxTy.u8 exElems _
  (Res.built (r := IntegerSet.fromVec checkedEnv IdxTy.u8 exElems)
    (by decide +kernel))

theorem C82_length_set [Target] (env : Env) (S : IdxTy) (lenT : T → Nat) (payload : List T)
    (s : LengthSet T)
    (hs : LengthSet.fromVec env S lenT payload = .ok s) : Compact s.map.table payload.length := by
  unfold LengthSet.fromVec at hs
  simp only [Res.bind_eq_ok, Res.pure_eq, Res.ok.injEq] at hs
  obtain ⟨m, hm, rfl⟩ := hs
  have := LengthMap.compact hm
  rwa [unitPayload_length] at this

example := C82_length_set checkedEnv IdxTy.u8 List.length exStrings _
  (Res.built (r := LengthSet.fromVec checkedEnv IdxTy.u8 List.length exStrings)
    (by decide +kernel))

theorem C82_left_slice_set [Target] (env : Env) (S : IdxTy) (payload : List Bytes)
    (a b : Nat) (bh : Hasher) (s : LeftSliceSet)
    (hs : LeftSliceSet.fromVecWithHasher env S payload a b bh = .ok s) : Compact s.map.table payload.length := by
  unfold LeftSliceSet.fromVecWithHasher at hs
  simp only [Res.bind_eq_ok, Res.pure_eq, Res.ok.injEq] at hs
  obtain ⟨m, hm, rfl⟩ := hs
  have := LeftSliceMap.compact hm
  rwa [unitPayload_length] at this

example := C82_left_slice_set checkedEnv IdxTy.u8 exStrings 1 2 demoHasher _
  (Res.built (r := LeftSliceSet.fromVecWithHasher checkedEnv IdxTy.u8 exStrings 1 2 demoHasher)
    (by decide +kernel))

theorem C82_right_slice_set [Target] (env : Env) (S : IdxTy) (payload : List Bytes)
    (a b : Nat) (bh : Hasher) (s : RightSliceSet)
    (hs : RightSliceSet.fromVecWithHasher env S payload a b bh = .ok s) : Compact s.map.table payload.length := by
  unfold RightSliceSet.fromVecWithHasher at hs
  simp only [Res.bind_eq_ok, Res.pure_eq, Res.ok.injEq] at hs
  obtain ⟨m, hm, rfl⟩ := hs
  have := RightSliceMap.compact hm
  rwa [unitPayload_length] at this

example := C82_right_slice_set checkedEnv IdxTy.u8 exStrings 2 1 demoHasher _
  (Res.built (r := RightSliceSet.fromVecWithHasher checkedEnv IdxTy.u8 exStrings 2 1 demoHasher)
    (by decide +kernel))

/-- `FrozenMap`: no table, or a proportionate one; its slots hold bytes up to 255 pairs. -/
theorem C82_frozen_map [Target] (env : Env) (ty : KeyTy K) (payload : List (K × V)) (bh : Hasher)
    (m : FrozenMap K V) (hm : FrozenMap.new env ty payload bh = .ok m) :
    TableFits payload.length m.slotTable := FrozenMap.table_fits hm

example := C82_frozen_map checkedEnv u32Ty exU32 demoHasher exMapU32 exMapU32_ok

/-- So the slots of a `FrozenMap` take no room below four pairs, at most 32 bytes per pair below 128
pairs, 20 bytes up to 255, 20 machine words from there and 6 from 1000 pairs on. -/
theorem C82_frozen_map_bits [Target] (env : Env) (ty : KeyTy K) (payload : List (K × V)) (bh : Hasher)
    (m : FrozenMap K V) (hm : FrozenMap.new env ty payload bh = .ok m) :
    (payload.length < 4 → tableBits m.slotTable = 0) ∧
      (payload.length < 128 → tableBits m.slotTable ≤ 32 * 8 * payload.length) ∧
      (payload.length ≤ 255 → 128 ≤ payload.length →
        tableBits m.slotTable ≤ 20 * 8 * payload.length) ∧
      (256 ≤ payload.length → tableBits m.slotTable ≤ 20 * Target.bits * payload.length) ∧
      (1000 ≤ payload.length → tableBits m.slotTable ≤ 6 * Target.bits * payload.length) :=
  (FrozenMap.table_fits hm).bits

example := C82_frozen_map_bits checkedEnv u32Ty exU32 demoHasher exMapU32 exMapU32_ok
example : tableBits exMapU32.slotTable = 6 * 16 := by decide +kernel

theorem C82_frozen_set [Target] (env : Env) (ty : KeyTy T) (payload : List T) (bh : Hasher)
    (s : FrozenSet T) (hs : FrozenSet.new env ty payload bh = .ok s) :
    TableFits payload.length s.slotTable := by
  have := FrozenMap.table_fits (FrozenSet.new_ok hs)
  rwa [unitPayload_length, ← FrozenSet.slotTable_toMap] at this

example := C82_frozen_set checkedEnv u32Ty exSetKeys demoHasher exFrozenSet exFrozenSet_ok

theorem C82_frozen_set_bits [Target] (env : Env) (ty : KeyTy T) (payload : List T) (bh : Hasher)
    (s : FrozenSet T) (hs : FrozenSet.new env ty payload bh = .ok s) :
    (payload.length < 4 → tableBits s.slotTable = 0) ∧
      (payload.length < 128 → tableBits s.slotTable ≤ 32 * 8 * payload.length) ∧
      (payload.length ≤ 255 → 128 ≤ payload.length →
        tableBits s.slotTable ≤ 20 * 8 * payload.length) ∧
      (256 ≤ payload.length → tableBits s.slotTable ≤ 20 * Target.bits * payload.length) ∧
      (1000 ≤ payload.length → tableBits s.slotTable ≤ 6 * Target.bits * payload.length) :=
  (C82_frozen_set env ty payload bh s hs).bits

example := C82_frozen_set_bits checkedEnv u32Ty exSetKeys demoHasher exFrozenSet exFrozenSet_ok

end FC
