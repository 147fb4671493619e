import Verif.Spec

/-
Concrete payloads used to show that hypotheses of the property theorems are met, one per internal
representation of the facade.
-/

set_option autoImplicit false

namespace FC

/-- The concrete cases are computed for a 64-bit machine. -/
instance x64 : Target := ⟨64, by decide, by decide⟩

/-- Short payload: linear scan. -/
def exScan : List (UInt32 × Nat) := [(10, 1), (500, 2)]
/-- Spread `u32` keys: hash table. -/
def exU32 : List (UInt32 × Nat) := [(10, 1), (500, 2), (7, 3), (9000, 4), (3, 5)]
/-- Contiguous `u32` keys in some order: range map. -/
def exRange : List (UInt32 × Nat) := [(12, 1), (10, 2), (13, 3), (11, 4), (14, 5)]
/-- Keys of some other type: general hash table. -/
def exOther : List (Int × Nat) := [(-3, 1), (5, 2), (70, 3), (-8, 4), (1000, 5)]
/-- Strings of different lengths: length table. -/
def exLen : List (RString × Nat) :=
  [(⟨[97], by decide⟩, 1), (⟨[98, 98], by decide⟩, 2), (⟨[99, 99, 99], by decide⟩, 3),
    (⟨[], by decide⟩, 4)]
/-- Strings of one length told apart by their second byte: left slice table. -/
def exLeft : List (RString × Nat) :=
  [(⟨[120, 97, 120], by decide⟩, 1), (⟨[120, 98, 120], by decide⟩, 2),
    (⟨[120, 99, 120], by decide⟩, 3), (⟨[120, 100, 120], by decide⟩, 4)]
/-- Strings (XXA, XXB, XXC, XXD, XXX, XXXE) told apart only by their last byte: the analysis
recommends a right slice. -/
def exRight : List (RString × Nat) :=
  [(⟨[88, 88, 65], by decide⟩, 1), (⟨[88, 88, 66], by decide⟩, 2), (⟨[88, 88, 67], by decide⟩, 3),
    (⟨[88, 88, 68], by decide⟩, 4), (⟨[88, 88, 88], by decide⟩, 5),
    (⟨[88, 88, 88, 69], by decide⟩, 6)]
/-- Strings that no two-byte left slice or one-byte slice tells apart: the analysis panics. -/
def exCrash : List (RString × Nat) :=
  [(⟨[65, 65, 65], by decide⟩, 1), (⟨[65, 65, 66], by decide⟩, 2), (⟨[65, 66, 65], by decide⟩, 3),
    (⟨[66, 65, 65], by decide⟩, 4), (⟨[65, 65, 65, 66], by decide⟩, 5)]
/-- The bytes of the keys of `exRight`. -/
def rightKeys : List Bytes :=
  [[88, 88, 65], [88, 88, 66], [88, 88, 67], [88, 88, 68], [88, 88, 88], [88, 88, 88, 69]]
/-- The bytes of the keys of `exCrash`. -/
def crashKeys : List Bytes :=
  [[65, 65, 65], [65, 65, 66], [65, 66, 65], [66, 65, 65], [65, 65, 65, 66]]
/-- `u32` keys with repetitions whose count hides a gap: judged a contiguous range. -/
def exDup : List (UInt32 × Nat) := [(0, 1), (0, 2), (3, 3), (3, 4)]

/-- The computation returned normally. -/
def Res.isOk {α : Type} : Res α → Bool
  | .ok _ => true
  | _ => false

theorem Res.of_isOk {α : Type} {r : Res α} (h : r.isOk = true) : ∃ a, r = .ok a := by
  cases r <;> simp_all [Res.isOk]

/-- The value returned. -/
def Res.get {α : Type} : (r : Res α) → r.isOk = true → α
  | .ok a, _ => a

theorem Res.built {α : Type} {r : Res α} (h : r.isOk = true) : r = .ok (r.get h) := by
  cases r with
  | ok a => rfl
  | panic => cases h
  | ub => cases h

/-- Each payload exercises the representation it was made for. -/
example : (match FrozenMap.new checkedEnv u32Ty exScan demoHasher with
    | .ok (.scanning _) => true | _ => false) = true := by decide +kernel
example : (match FrozenMap.new checkedEnv u32Ty exU32 demoHasher with
    | .ok (.u32Small _) => true | _ => false) = true := by decide +kernel
example : (match FrozenMap.new checkedEnv u32Ty exRange demoHasher with
    | .ok (.u32Range _) => true | _ => false) = true := by decide +kernel
example : (match FrozenMap.new checkedEnv otherTy exOther demoHasher with
    | .ok (.commonSmall _) => true | _ => false) = true := by decide +kernel
example : (match FrozenMap.new checkedEnv stringTy exLen demoHasher with
    | .ok (.lengthSmall _) => true | _ => false) = true := by decide +kernel
example : (match FrozenMap.new checkedEnv stringTy exLeft demoHasher with
    | .ok (.leftSmall _) => true | _ => false) = true := by decide +kernel
example : (match FrozenMap.new checkedEnv stringTy exRight demoHasher with
    | .ub => true | _ => false) = true := by decide +kernel
example : (match FrozenMap.new checkedEnv stringTy exCrash demoHasher with
    | .panic => true | _ => false) = true := by decide +kernel
example : (match FrozenMap.new checkedEnv u32Ty exDup demoHasher with
    | .ok (.u32Range _) => true | _ => false) = true := by decide +kernel

/-! The maps built from these payloads exist, their keys are distinct (except in `exDup`). -/

theorem exScan_ok (env : Env) : ∃ m, FrozenMap.new env u32Ty exScan demoHasher = .ok m := ⟨_, rfl⟩
theorem exU32_ok : ∃ m, FrozenMap.new checkedEnv u32Ty exU32 demoHasher = .ok m :=
  Res.of_isOk (by decide +kernel)
theorem exU32_rev_ok : ∃ m,
    FrozenMap.new ⟨false, reverseUnstable⟩ u32Ty exU32.reverse (fun _ => 0) = .ok m :=
  Res.of_isOk (by decide +kernel)
theorem exRange_ok : ∃ m, FrozenMap.new checkedEnv u32Ty exRange demoHasher = .ok m :=
  Res.of_isOk (by decide +kernel)
theorem exOther_ok : ∃ m, FrozenMap.new checkedEnv otherTy exOther demoHasher = .ok m :=
  Res.of_isOk (by decide +kernel)
theorem exLen_ok : ∃ m, FrozenMap.new checkedEnv stringTy exLen demoHasher = .ok m :=
  Res.of_isOk (by decide +kernel)
theorem exLeft_ok : ∃ m, FrozenMap.new checkedEnv stringTy exLeft demoHasher = .ok m :=
  Res.of_isOk (by decide +kernel)
theorem exDup_ok : FrozenMap.new checkedEnv u32Ty exDup demoHasher
    = .ok (.u32Range ⟨0, 3, [(0, 1), (0, 2), (3, 3), (3, 4)]⟩) := rfl

theorem exScan_distinct : DistinctKeys u32Ty.eq exScan := by unfold DistinctKeys; decide +kernel
theorem exU32_distinct : DistinctKeys u32Ty.eq exU32 := by unfold DistinctKeys; decide +kernel
theorem exRange_distinct : DistinctKeys u32Ty.eq exRange := by unfold DistinctKeys; decide +kernel
theorem exOther_distinct : DistinctKeys otherTy.eq exOther := by unfold DistinctKeys; decide +kernel
theorem exLen_distinct : DistinctKeys stringTy.eq exLen := by unfold DistinctKeys; decide +kernel
theorem exLeft_distinct : DistinctKeys stringTy.eq exLeft := by unfold DistinctKeys; decide +kernel

/-! Payloads of the specialized maps over integers and byte strings. -/

theorem exOther_nodup : (exOther.map (·.1)).Nodup := by decide +kernel
theorem exOther_enc (k q : Int) (h : otherTy.probe.eq q (otherTy.probe.borrow k) = true) :
    otherTy.probe.enc q = otherTy.enc k := otherTy_lawful.hash q k h
/-- Byte strings told apart by their second byte. -/
def exBytes : List (Bytes × Nat) := [([120, 97, 120], 1), ([120, 98], 2), ([120, 99, 120, 7], 3), ([121, 100], 4)]
theorem exBytes_nodup : (exBytes.map (·.1)).Nodup := by decide +kernel
theorem exBytes_long : ∀ e ∈ exBytes, 2 ≤ e.1.length := by decide +kernel
theorem exBytes_distinct : DistinctKeys (fun a b : Bytes => decide (a = b)) exBytes := by
  unfold DistinctKeys; decide +kernel
theorem exBytes_len (k q : Bytes) (h : (fun a b : Bytes => decide (a = b)) q (id k) = true) :
    q.length = k.length := by rw [of_decide_eq_true h]; rfl
/-- Contiguous `i8` keys. -/
def exInts : List (Int × Nat) := [(2, 10), (-1, 20), (1, 30), (0, 40)]
theorem exInts_nodup : (exInts.map (·.1)).Nodup := by decide +kernel
theorem exInts_inRange : ∀ e ∈ exInts, IntTy.i8.InRange e.1 := by decide +kernel

/-! The specialized maps built from them. -/

def exCommon : CommonMap Int Nat :=
  (CommonMap.fromVecWithHasher checkedEnv IdxTy.u8 otherTy.enc exOther demoHasher).get (by decide +kernel)
theorem exCommon_ok : CommonMap.fromVecWithHasher checkedEnv IdxTy.u8 otherTy.enc exOther demoHasher
    = .ok exCommon := Res.built _
def exInteger : IntegerMap Nat :=
  (IntegerMap.fromVec checkedEnv IdxTy.u8 exOther).get (by decide +kernel)
theorem exInteger_ok : IntegerMap.fromVec checkedEnv IdxTy.u8 exOther
    = .ok exInteger := Res.built _
def exLengths : LengthMap Bytes Nat :=
  (LengthMap.fromVec checkedEnv IdxTy.u8 List.length exBytes).get (by decide +kernel)
theorem exLengths_ok : LengthMap.fromVec checkedEnv IdxTy.u8 List.length exBytes
    = .ok exLengths := Res.built _
def exLeftSlice : LeftSliceMap Nat :=
  (LeftSliceMap.fromVecWithHasher checkedEnv IdxTy.u8 exBytes 1 2 demoHasher).get (by decide +kernel)
theorem exLeftSlice_ok : LeftSliceMap.fromVecWithHasher checkedEnv IdxTy.u8 exBytes 1 2 demoHasher
    = .ok exLeftSlice := Res.built _
def exRightSlice : RightSliceMap Nat :=
  (RightSliceMap.fromVecWithHasher checkedEnv IdxTy.u8 exBytes 2 1 demoHasher).get (by decide +kernel)
theorem exRightSlice_ok : RightSliceMap.fromVecWithHasher checkedEnv IdxTy.u8 exBytes 2 1 demoHasher
    = .ok exRightSlice := Res.built _
def exIntRange : IntegerRangeMap Nat :=
  (IntegerRangeMap.fromVec true IntTy.i8 exInts).get (by decide +kernel)
theorem exIntRange_ok : IntegerRangeMap.fromVec true IntTy.i8 exInts
    = .ok exIntRange := Res.built _

/-! Facade maps built from them, one per representation. -/

def exMapU32 : FrozenMap UInt32 Nat :=
  (FrozenMap.new checkedEnv u32Ty exU32 demoHasher).get (by decide +kernel)
theorem exMapU32_ok : FrozenMap.new checkedEnv u32Ty exU32 demoHasher = .ok exMapU32 := Res.built _
def exMapRange : FrozenMap UInt32 Nat :=
  (FrozenMap.new checkedEnv u32Ty exRange demoHasher).get (by decide +kernel)
theorem exMapRange_ok : FrozenMap.new checkedEnv u32Ty exRange demoHasher = .ok exMapRange := Res.built _
def exMapOther : FrozenMap Int Nat :=
  (FrozenMap.new checkedEnv otherTy exOther demoHasher).get (by decide +kernel)
theorem exMapOther_ok : FrozenMap.new checkedEnv otherTy exOther demoHasher = .ok exMapOther := Res.built _
def exMapLen : FrozenMap RString Nat :=
  (FrozenMap.new checkedEnv stringTy exLen demoHasher).get (by decide +kernel)
theorem exMapLen_ok : FrozenMap.new checkedEnv stringTy exLen demoHasher = .ok exMapLen := Res.built _
def exMapLeft : FrozenMap RString Nat :=
  (FrozenMap.new checkedEnv stringTy exLeft demoHasher).get (by decide +kernel)
theorem exMapLeft_ok : FrozenMap.new checkedEnv stringTy exLeft demoHasher = .ok exMapLeft := Res.built _

/-! Payloads of sets. -/

def exElems : List Int := exOther.map (·.1)
def exStrings : List Bytes := exBytes.map (·.1)
def exSetKeys : List UInt32 := exU32.map (·.1)
def exFrozenSet : FrozenSet UInt32 :=
  (FrozenSet.new checkedEnv u32Ty exSetKeys demoHasher).get (by decide +kernel)
theorem exFrozenSet_ok : FrozenSet.new checkedEnv u32Ty exSetKeys demoHasher = .ok exFrozenSet := Res.built _

def exRangeKeys : List UInt32 := exRange.map (·.1)
def exRangeFrozenSet : FrozenSet UInt32 :=
  (FrozenSet.new checkedEnv u32Ty exRangeKeys demoHasher).get (by decide +kernel)
theorem exRangeFrozenSet_ok : FrozenSet.new checkedEnv u32Ty exRangeKeys demoHasher
    = .ok exRangeFrozenSet := Res.built _
/-- Elements of some other type with repetitions. -/
def exTwice : List Int := [1, 1, 2, 2, 3]
def exTwiceSet : FrozenSet Int :=
  (FrozenSet.new checkedEnv otherTy exTwice demoHasher).get (by decide +kernel)
theorem exTwiceSet_ok : FrozenSet.new checkedEnv otherTy exTwice demoHasher = .ok exTwiceSet := Res.built _
theorem exTwiceSet_hashed : ∀ r, exTwiceSet ≠ .u32Range r := by
  have : (match exTwiceSet with | .u32Range _ => true | _ => false) = false := by decide +kernel
  intro r h
  rw [h] at this
  cases this
def exElemSet : FrozenSet Int :=
  (FrozenSet.new checkedEnv otherTy exElems demoHasher).get (by decide +kernel)
theorem exElemSet_ok : FrozenSet.new checkedEnv otherTy exElems demoHasher = .ok exElemSet := Res.built _

end FC
