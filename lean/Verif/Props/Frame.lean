import Verif.Examples
import Verif.Lemmas.Frame

/-
C81: using a map changes nothing but values.
-/

set_option autoImplicit false

namespace FC
variable {K V Q : Type}

/-! ### C81 -/

/-- A history that overwrites values in each of the three ways. -/
private def writes (q₁ q₂ q₃ : Q) : List (MapOp Nat Q) :=
  [.getMut q₁ 70, .indexMut q₂ 80, .getManyMut [(q₃, 90), (q₁, 95)], .get q₁]

theorem C81_scanning_map [Target] (P : Probe K Q) :
    OnlyValuesChange (V := V) (scanningApi P) (ScanningMap.getKeyValueCounted P) :=
  onlyValuesChange (fun m i v => m.write_unmoved P i v)

example := C81_scanning_map otherTy.probe ⟨exOther⟩ (writes 5 70 (-8)) _ _
  (Res.built (r := (scanningApi otherTy.probe).run ⟨exOther⟩ (writes 5 70 (-8))) (by decide +kernel))

theorem C81_common_map [Target] (P : Probe K Q) :
    OnlyValuesChange (V := V) (commonApi P) (CommonMap.getKeyValueCounted P) :=
  onlyValuesChange (fun m i v => m.write_unmoved P i v)

example := C81_common_map otherTy.probe exCommon (writes 5 70 (-8)) _ _
  (Res.built (r := (commonApi otherTy.probe).run exCommon (writes 5 70 (-8))) (by decide +kernel))

theorem C81_integer_map [Target] :
    OnlyValuesChange (V := V) integerApi IntegerMap.getKeyValueCounted :=
  onlyValuesChange (fun m i v => m.write_unmoved i v)

example := C81_integer_map exInteger (writes 5 70 (-8)) _ _
  (Res.built (r := integerApi.run exInteger (writes 5 70 (-8))) (by decide +kernel))

theorem C81_integer_range_map [Target] (oc : Bool) (t : IntTy) :
    OnlyValuesChange (V := V) (rangeApi oc t) (IntegerRangeMap.getKeyValueCounted oc t) :=
  onlyValuesChange (fun m i v => m.write_unmoved oc t i v)

example := C81_integer_range_map true IntTy.i8 exIntRange (writes 2 (-1) 1) _ _
  (Res.built (r := (rangeApi true IntTy.i8).run exIntRange (writes 2 (-1) 1)) (by decide +kernel))

theorem C81_length_map [Target] (borrow : K → Q) (eq : Q → Q → Bool) (lenQ : Q → Nat) :
    OnlyValuesChange (V := V) (lengthApi borrow eq lenQ)
      (LengthMap.getKeyValueCounted borrow eq lenQ) :=
  onlyValuesChange (fun m i v => m.write_unmoved borrow eq lenQ i v)

example := C81_length_map id beq List.length exLengths (writes [120, 98] [121, 100] [120, 97, 120]) _ _
  (Res.built (r := (lengthApi id beq List.length).run exLengths
    (writes [120, 98] [121, 100] [120, 97, 120])) (by decide +kernel))

theorem C81_left_slice_map [Target] :
    OnlyValuesChange (V := V) leftApi LeftSliceMap.getKeyValueCounted :=
  onlyValuesChange (fun m i v => m.write_unmoved i v)

example := C81_left_slice_map exLeftSlice (writes [120, 98] [121, 100] [120, 97, 120]) _ _
  (Res.built (r := leftApi.run exLeftSlice (writes [120, 98] [121, 100] [120, 97, 120]))
    (by decide +kernel))

theorem C81_right_slice_map [Target] (oc : Bool) :
    OnlyValuesChange (V := V) (rightApi oc) (RightSliceMap.getKeyValueCounted oc) :=
  onlyValuesChange (fun m i v => m.write_unmoved oc i v)

example := C81_right_slice_map true exRightSlice (writes [120, 98] [121, 100] [120, 97, 120]) _ _
  (Res.built (r := (rightApi true).run exRightSlice (writes [120, 98] [121, 100] [120, 97, 120]))
    (by decide +kernel))

/-- `FrozenMap`, whatever map it holds and whatever its keys are. -/
theorem C81_frozen_map [Target] (env : Env) (ty : KeyTy K) :
    OnlyValuesChange (V := V) (frozenApi env ty) (FrozenMap.getKeyValueCounted env ty) :=
  onlyValuesChange (fun m i v => m.write_unmoved env ty i v)

example := C81_frozen_map checkedEnv u32Ty exMapU32 (writes 10 9000 3) _ _
  (Res.built (r := (frozenApi checkedEnv u32Ty).run exMapU32 (writes 10 9000 3)) (by decide +kernel))
example : ((frozenApi checkedEnv u32Ty).run exMapU32 (writes 10 9000 3)).map (·.1)
    = .ok [.value (some 1), .value (some 4), .many (some [5, 70]), .value (some 95)] := by
  decide +kernel

end FC
