import Verif.Spec.Construct
import Verif.Props.History
import Verif.Props.Sets
import Verif.Props.SpecializedMaps

/-
C63: it does not matter how the payload is handed over.
-/

set_option autoImplicit false

namespace FC

variable {K V T : Type}

/-- Whatever is handed over either gives some items or panics. -/
theorem Supply.gives_or_panics {α : Type} (sup : Supply α) : (∃ l, sup.Gives l) ∨ sup.Panics := by
  match sup with
  | .vec l => exact .inl ⟨l, rfl⟩
  | .array l => exact .inl ⟨l, rfl⟩
  | .iter (.ends l) => exact .inl ⟨l, rfl⟩
  | .iter (.panics l) => exact .inr ⟨l, rfl⟩

/-- The third part of the theorems below from the first two. -/
theorem Supply.hasher_of {α β : Type} {sup : Supply α} {r : Res β} {vec : List α → Res β}
    {P : β → Prop} (h : (∀ l, sup.Gives l → r = vec l) ∧ (sup.Panics → r = .panic))
    (hv : ∀ l m, vec l = .ok m → P m) :
    (∀ l, sup.Gives l → r = vec l) ∧ (sup.Panics → r = .panic) ∧ ∀ m, r = .ok m → P m := by
  refine ⟨h.1, h.2, fun m hm => ?_⟩
  rcases sup.gives_or_panics with ⟨l, hl⟩ | hp
  · exact hv l m (h.1 l hl ▸ hm)
  · rw [h.2 hp] at hm
    cases hm

theorem C63_scanning_map (sup : Supply (K × V)) (r : Res (ScanningMap K V))
    (h : ScanningMap.Built sup r) :
    (∀ l, sup.Gives l → r = .ok (ScanningMap.fromVec l)) ∧ (sup.Panics → r = .panic) := by
  cases h <;> constructor
  all_goals first
    | (rintro l ⟨⟩; rfl)
    | (rintro ⟨⟩; done)
    | (rintro ⟨_, rfl⟩; rfl)

example := C63_scanning_map (.iter (.ends exOther)) _ (.iter _)

theorem C63_common_map [Target] (env : Env) (S : IdxTy) (enc : K → List HCall) (bh : Hasher)
    (sup : Supply (K × V)) (r : Res (CommonMap K V))
    (h : CommonMap.Built env S enc bh sup r) :
    (∀ l, sup.Gives l → r = CommonMap.fromVecWithHasher env S enc l bh) ∧
      (sup.Panics → r = .panic) ∧
      ∀ m, r = .ok m → m.hasher = bh := by
  refine Supply.hasher_of ?_ (fun l m hm => ?_)
  · cases h <;> constructor
    all_goals first
      | (rintro l ⟨⟩; rfl)
      | (rintro ⟨⟩; done)
      | (rintro ⟨_, rfl⟩; rfl)
  · unfold CommonMap.fromVecWithHasher at hm
    simp only [Res.bind_eq_ok, Res.pure_eq, Res.ok.injEq] at hm
    obtain ⟨_, _, _, _, rfl⟩ := hm
    rfl

example := C63_common_map checkedEnv IdxTy.u8 otherTy.enc demoHasher (.array exOther) _ (.array _)

theorem C63_integer_map [Target] (env : Env) (S : IdxTy)
    (sup : Supply (Int × V)) (r : Res (IntegerMap V))
    (h : IntegerMap.Built env S sup r) :
    (∀ l, sup.Gives l → r = IntegerMap.fromVec env S l) ∧ (sup.Panics → r = .panic) := by
  cases h <;> constructor
  all_goals first
    | (rintro l ⟨⟩; rfl)
    | (rintro ⟨⟩; done)
    | (rintro ⟨_, rfl⟩; rfl)

example := C63_integer_map checkedEnv IdxTy.u8 (.array exOther) _ (.array _)

theorem C63_length_map [Target] (env : Env) (lenK : K → Nat) (S : IdxTy)
    (sup : Supply (K × V)) (r : Res (LengthMap K V))
    (h : LengthMap.Built env lenK S sup r) :
    (∀ l, sup.Gives l → r = LengthMap.fromVec env S lenK l) ∧ (sup.Panics → r = .panic) := by
  cases h <;> constructor
  all_goals first
    | (rintro l ⟨⟩; rfl)
    | (rintro ⟨⟩; done)
    | (rintro ⟨_, rfl⟩; rfl)

example := C63_length_map checkedEnv List.length IdxTy.u8 (.iter (.ends exBytes)) _ (.iter _)

theorem C63_left_slice_map [Target] (env : Env) (S : IdxTy) (a b : Nat) (bh : Hasher)
    (sup : Supply (Bytes × V)) (r : Res (LeftSliceMap V))
    (h : LeftSliceMap.Built env S a b bh sup r) :
    (∀ l, sup.Gives l → r = LeftSliceMap.fromVecWithHasher env S l a b bh) ∧
      (sup.Panics → r = .panic) ∧
      ∀ m, r = .ok m → m.hasher = bh := by
  refine Supply.hasher_of ?_ (fun l m hm => ?_)
  · cases h <;> constructor
    all_goals first
      | (rintro l ⟨⟩; rfl)
      | (rintro ⟨⟩; done)
      | (rintro ⟨_, rfl⟩; rfl)
  · unfold LeftSliceMap.fromVecWithHasher at hm
    simp only [Res.bind_eq_ok, Res.pure_eq, Res.ok.injEq] at hm
    obtain ⟨_, _, _, _, _, _, rfl⟩ := hm
    rfl

example := C63_left_slice_map checkedEnv IdxTy.u8 1 2 demoHasher (.iter (.ends exBytes)) _ (.iterWithHasher _)

theorem C63_right_slice_map [Target] (env : Env) (S : IdxTy) (a b : Nat) (bh : Hasher)
    (sup : Supply (Bytes × V)) (r : Res (RightSliceMap V))
    (h : RightSliceMap.Built env S a b bh sup r) :
    (∀ l, sup.Gives l → r = RightSliceMap.fromVecWithHasher env S l a b bh) ∧
      (sup.Panics → r = .panic) ∧
      ∀ m, r = .ok m → m.hasher = bh := by
  refine Supply.hasher_of ?_ (fun l m hm => ?_)
  · cases h <;> constructor
    all_goals first
      | (rintro l ⟨⟩; rfl)
      | (rintro ⟨⟩; done)
      | (rintro ⟨_, rfl⟩; rfl)
  · unfold RightSliceMap.fromVecWithHasher at hm
    simp only [Res.bind_eq_ok, Res.pure_eq, Res.ok.injEq] at hm
    obtain ⟨_, _, _, _, _, _, rfl⟩ := hm
    rfl

example := C63_right_slice_map checkedEnv IdxTy.u8 2 1 demoHasher (.array exBytes) _ (.arrayWithHasher _)

theorem C63_range_map [Target] (oc : Bool) (t : IntTy)
    (sup : Supply (Int × V)) (r : Res (IntegerRangeMap V))
    (h : IntegerRangeMap.Built oc t sup r) :
    (∀ l, sup.Gives l → r = IntegerRangeMap.fromVec oc t l) ∧ (sup.Panics → r = .panic) := by
  cases h <;> constructor
  all_goals first
    | (rintro l ⟨⟩; rfl)
    | (rintro ⟨⟩; done)
    | (rintro ⟨_, rfl⟩; rfl)

example := C63_range_map true IntTy.i8 (.array exInts) _ (.array _)

theorem C63_scanning_set (sup : Supply T) (r : Res (ScanningSet T))
    (h : ScanningSet.Built sup r) :
    (∀ l, sup.Gives l → r = .ok (ScanningSet.fromVec l)) ∧ (sup.Panics → r = .panic) := by
  cases h <;> constructor
  all_goals first
    | (rintro l ⟨⟩; rfl)
    | (rintro ⟨⟩; done)
    | (rintro ⟨_, rfl⟩; rfl)

example := C63_scanning_set (.array (exOther.map (·.1))) _ (.array _)

theorem C63_common_set [Target] (env : Env) (S : IdxTy) (enc : T → List HCall) (bh : Hasher)
    (sup : Supply T) (r : Res (CommonSet T))
    (h : CommonSet.Built env S enc bh sup r) :
    (∀ l, sup.Gives l → r = CommonSet.fromVecWithHasher env S enc l bh) ∧
      (sup.Panics → r = .panic) ∧
      ∀ m, r = .ok m → m.hasher = bh := by
  refine Supply.hasher_of ?_ (fun l m hm => ?_)
  · cases h <;> constructor
    all_goals first
      | (rintro l ⟨⟩; rfl)
      | (rintro ⟨⟩; done)
      | (rintro ⟨_, rfl⟩; rfl)
  · unfold CommonSet.fromVecWithHasher CommonMap.fromVecWithHasher at hm
    simp only [Res.bind_eq_ok, Res.pure_eq, Res.ok.injEq] at hm
    obtain ⟨_, ⟨_, _, _, _, rfl⟩, rfl⟩ := hm
    rfl

theorem C63_integer_set [Target] (env : Env) (S : IdxTy)
    (sup : Supply Int) (r : Res IntegerSet)
    (h : IntegerSet.Built env S sup r) :
    (∀ l, sup.Gives l → r = IntegerSet.fromVec env S l) ∧ (sup.Panics → r = .panic) := by
  cases h <;> constructor
  all_goals first
    | (rintro l ⟨⟩; rfl)
    | (rintro ⟨⟩; done)
    | (rintro ⟨_, rfl⟩; rfl)

example := C63_integer_set checkedEnv IdxTy.u8 (.iter (.ends (exOther.map (·.1)))) _ (.iter _)

theorem C63_length_set [Target] (env : Env) (S : IdxTy) (lenT : T → Nat)
    (sup : Supply T) (r : Res (LengthSet T))
    (h : LengthSet.Built env S lenT sup r) :
    (∀ l, sup.Gives l → r = LengthSet.fromVec env S lenT l) ∧ (sup.Panics → r = .panic) := by
  cases h <;> constructor
  all_goals first
    | (rintro l ⟨⟩; rfl)
    | (rintro ⟨⟩; done)
    | (rintro ⟨_, rfl⟩; rfl)

example := C63_length_set checkedEnv IdxTy.u8 List.length (.vec (exBytes.map (·.1))) _ (.fromVec _)

theorem C63_left_slice_set [Target] (env : Env) (S : IdxTy) (a b : Nat) (bh : Hasher)
    (sup : Supply Bytes) (r : Res LeftSliceSet)
    (h : LeftSliceSet.Built env S a b bh sup r) :
    (∀ l, sup.Gives l → r = LeftSliceSet.fromVecWithHasher env S l a b bh) ∧
      (sup.Panics → r = .panic) ∧
      ∀ m, r = .ok m → m.hasher = bh := by
  refine Supply.hasher_of ?_ (fun l m hm => ?_)
  · cases h <;> constructor
    all_goals first
      | (rintro l ⟨⟩; rfl)
      | (rintro ⟨⟩; done)
      | (rintro ⟨_, rfl⟩; rfl)
  · unfold LeftSliceSet.fromVecWithHasher LeftSliceMap.fromVecWithHasher at hm
    simp only [Res.bind_eq_ok, Res.pure_eq, Res.ok.injEq] at hm
    obtain ⟨_, ⟨_, _, _, _, _, _, rfl⟩, rfl⟩ := hm
    rfl

example := C63_left_slice_set checkedEnv IdxTy.u8 1 2 demoHasher (.array (exBytes.map (·.1))) _ (.array _)

theorem C63_right_slice_set [Target] (env : Env) (S : IdxTy) (a b : Nat) (bh : Hasher)
    (sup : Supply Bytes) (r : Res RightSliceSet)
    (h : RightSliceSet.Built env S a b bh sup r) :
    (∀ l, sup.Gives l → r = RightSliceSet.fromVecWithHasher env S l a b bh) ∧
      (sup.Panics → r = .panic) ∧
      ∀ m, r = .ok m → m.hasher = bh := by
  refine Supply.hasher_of ?_ (fun l m hm => ?_)
  · cases h <;> constructor
    all_goals first
      | (rintro l ⟨⟩; rfl)
      | (rintro ⟨⟩; done)
      | (rintro ⟨_, rfl⟩; rfl)
  · unfold RightSliceSet.fromVecWithHasher RightSliceMap.fromVecWithHasher at hm
    simp only [Res.bind_eq_ok, Res.pure_eq, Res.ok.injEq] at hm
    obtain ⟨_, ⟨_, _, _, _, _, _, rfl⟩, rfl⟩ := hm
    rfl

example := C63_right_slice_set checkedEnv IdxTy.u8 2 1 demoHasher (.vec (exBytes.map (·.1))) _ (.vec _)

theorem C63_range_set [Target] (oc : Bool) (t : IntTy)
    (sup : Supply Int) (r : Res IntegerRangeSet)
    (h : IntegerRangeSet.Built oc t sup r) :
    (∀ l, sup.Gives l → r = IntegerRangeSet.fromVec oc t l) ∧ (sup.Panics → r = .panic) := by
  cases h <;> constructor
  all_goals first
    | (rintro l ⟨⟩; rfl)
    | (rintro ⟨⟩; done)
    | (rintro ⟨_, rfl⟩; rfl)

example := C63_range_set true IntTy.i8 (.iter (.ends (exInts.map (·.1)))) _ (.iter _)

theorem C63_frozen_map_same [Target] (env : Env) (ty : KeyTy K) (bh : Hasher)
    (sup : Supply (K × V)) (r : Res (FrozenMap K V))
    (h : FrozenMap.Built env ty bh sup r) :
    (∀ l, sup.Gives l → r = FrozenMap.fromVecWithHasher env ty l bh) ∧
      (sup.Panics → r = .panic) := by
  cases h <;> constructor
  all_goals first
    | (rintro l ⟨⟩; rfl)
    | (rintro ⟨⟩; done)
    | (rintro ⟨_, rfl⟩; rfl)

example := C63_frozen_map_same checkedEnv u32Ty demoHasher (.array exRange) _ (.array _)

theorem C63_frozen_set_same [Target] (env : Env) (ty : KeyTy T) (bh : Hasher)
    (sup : Supply T) (r : Res (FrozenSet T))
    (h : FrozenSet.Built env ty bh sup r) :
    (∀ l, sup.Gives l → r = FrozenSet.fromVecWithHasher env ty l bh) ∧
      (sup.Panics → r = .panic) := by
  cases h <;> constructor
  all_goals first
    | (rintro l ⟨⟩; rfl)
    | (rintro ⟨⟩; done)
    | (rintro ⟨_, rfl⟩; rfl)

example := C63_frozen_set_same checkedEnv u32Ty demoHasher (.array (exRange.map (·.1))) _ (.array _)

/-- So a `FrozenMap` is a dictionary of what was handed over, in every history, whichever constructor
made it. -/
theorem C63_frozen_map [Target] (env env' : Env) (ty : KeyTy K) (hty : LawfulKey ty) (bh : Hasher)
    (sup : Supply (K × V)) (payload : List (K × V)) (hs : sup.Gives payload)
    (hcap : payload.length < 2 ^ 32) (hd : DistinctKeys ty.eq payload) (m : FrozenMap K V)
    (h : FrozenMap.Built env ty bh sup (.ok m)) :
    Refines (frozenApi env' ty) ty.eq id m payload :=
  C50_frozen_map env env' ty hty payload hcap hd bh m
    ((C63_frozen_map_same env ty bh sup _ h).1 payload hs).symm

/-- And a `FrozenSet` is the set of what was handed over. -/
theorem C63_frozen_set [Target] (env env' : Env) (ty : KeyTy T) (hty : LawfulKey ty) (bh : Hasher)
    (sup : Supply T) (payload : List T) (hs : sup.Gives payload) (hcap : payload.length < 2 ^ 32)
    (hd : Distinct ty.eq payload) (s : FrozenSet T) (h : FrozenSet.Built env ty bh sup (.ok s)) :
    Presents ty.eq (s.toSetI env' ty) payload :=
  C47_frozen_set env' ty hty payload hcap hd env bh s
    ((C63_frozen_set_same env ty bh sup _ h).1 payload hs).symm

/-- A map collected from an iterator. -/
example : ∃ m, FrozenMap.Built checkedEnv u32Ty demoHasher (.iter (.ends exRange)) (.ok m) ∧
    Refines (frozenApi releaseEnv u32Ty) u32Ty.eq id m exRange := by
  obtain ⟨m, hm⟩ := exRange_ok
  have h : FrozenMap.Built checkedEnv u32Ty demoHasher (.iter (.ends exRange)) (.ok m) := by
    rw [← hm]
    exact .iter _
  exact ⟨m, h, C63_frozen_map checkedEnv releaseEnv u32Ty u32Ty_lawful demoHasher
    (.iter (.ends exRange)) exRange rfl
    (by decide) exRange_distinct m h⟩

/-- A set given as an array, one collected by an iterator that panics, and a `hasher` call. -/
example : (∃ s, CommonSet.withHasher checkedEnv IdxTy.u8 (fun _ => []) [5, 7, 9] demoHasher = .ok s ∧
      s.hasher = demoHasher) ∧
    CommonSet.fromIter checkedEnv IdxTy.u8 (fun _ => []) (.panics [5, 7]) demoHasher = .panic := by
  constructor
  · obtain ⟨s, hs⟩ := Res.of_isOk
      (r := CommonSet.withHasher checkedEnv IdxTy.u8 (fun _ => []) [5, 7, 9] demoHasher)
      (by decide +kernel)
    exact ⟨s, hs, (C63_common_set checkedEnv IdxTy.u8 (fun _ => []) demoHasher (.array [5, 7, 9]) _
      (.arrayWithHasher _)).2.2 s hs⟩
  · exact (C63_common_set checkedEnv IdxTy.u8 (fun _ => []) demoHasher (.iter (.panics [5, 7])) _
      (.iter _)).2.1 ⟨_, rfl⟩

/-- A set collected from an iterator. -/
example := C63_frozen_set checkedEnv releaseEnv u32Ty u32Ty_lawful demoHasher (.iter (.ends exSetKeys)) exSetKeys rfl
  (by decide) (by unfold Distinct; decide +kernel) exFrozenSet (exFrozenSet_ok ▸ .iter _)

end FC
