import Verif.Lemmas.SetRepeats
import Verif.Props.FirstMatch
import Verif.Props.Sets

/-
C73: `==` keeps the promise of `Eq`, as far as it does.
-/

set_option autoImplicit false

namespace FC
variable {K V T Q : Type}

/-! ### C73: maps -/

/-- A map with a repeated key and two different values does not equal itself. -/
theorem C73_counterexample :
    (∃ m : FrozenMap UInt32 Nat,
      FrozenMap.new checkedEnv u32Ty [(1, 10), (1, 20)] demoHasher = .ok m ∧
      m.eq checkedEnv u32Ty (fun x y => decide (x = y)) m = .ok false) ∧
    ∃ m : FrozenMap Int Nat,
      FrozenMap.new checkedEnv otherTy [(1, 1), (8, 2), (1, 3), (3, 4)] demoHasher = .ok m ∧
      m.eq checkedEnv otherTy (fun x y => decide (x = y)) m = .ok false := by
  refine ⟨⟨_, rfl, by decide +kernel⟩, ?_⟩
  obtain ⟨m, hm⟩ := Res.of_isOk (r := FrozenMap.new checkedEnv otherTy
    [((1 : Int), 1), (8, 2), (1, 3), (3, 4)] demoHasher) (by decide +kernel)
  refine ⟨m, hm, ?_⟩
  have : (FrozenMap.new checkedEnv otherTy [((1 : Int), 1), (8, 2), (1, 3), (3, 4)] demoHasher).bind
      (fun m => m.eq checkedEnv otherTy (fun x y => decide (x = y)) m) = .ok false := by
    decide +kernel
  rw [hm] at this
  exact this

/-- Equality does not carry over a `u32` map with repeated keys that is judged contiguous. -/
theorem C73_transitivity_counterexample :
    ∃ a b c : FrozenMap UInt32 Nat,
      FrozenMap.new checkedEnv u32Ty [(0, 7), (1, 7), (2, 7), (3, 7)] demoHasher = .ok a ∧
      FrozenMap.new checkedEnv u32Ty [(0, 7), (0, 7), (3, 7), (3, 7)] demoHasher = .ok b ∧
      FrozenMap.new checkedEnv u32Ty [(0, 7), (3, 7), (20, 7), (90, 7)] demoHasher = .ok c ∧
      a.eq checkedEnv u32Ty (fun x y => decide (x = y)) b = .ok true ∧
      b.eq checkedEnv u32Ty (fun x y => decide (x = y)) c = .ok true ∧
      a.eq checkedEnv u32Ty (fun x y => decide (x = y)) c = .ok false := by
  have h : (do
      let a ← FrozenMap.new checkedEnv u32Ty [((0 : UInt32), 7), ((1 : UInt32), 7), ((2 : UInt32), 7), ((3 : UInt32), 7)] demoHasher
      let b ← FrozenMap.new checkedEnv u32Ty [((0 : UInt32), 7), ((0 : UInt32), 7), ((3 : UInt32), 7), ((3 : UInt32), 7)] demoHasher
      let c ← FrozenMap.new checkedEnv u32Ty [((0 : UInt32), 7), ((3 : UInt32), 7), ((20 : UInt32), 7), ((90 : UInt32), 7)] demoHasher
      let x ← a.eq checkedEnv u32Ty (fun x y => decide (x = y)) b
      let y ← b.eq checkedEnv u32Ty (fun x y => decide (x = y)) c
      let z ← a.eq checkedEnv u32Ty (fun x y => decide (x = y)) c
      return (x, y, z)) = Res.ok (true, true, false) := by decide +kernel
  simp only [Res.bind_eq_ok, Res.pure_eq, Res.ok.injEq, Prod.mk.injEq] at h
  obtain ⟨a, ha, b, hb, c, hc, x, hx, y, hy, z, hz, rfl, rfl, rfl⟩ := h
  exact ⟨a, b, c, ha, hb, hc, hx, hy, hz⟩

/-- Scanning maps with any repeats. -/
theorem C73_scanning_map_partial [Target] (P : Probe K K) (hP : P.borrow = id) (heq : LawfulEq P.eq)
    (veq : V → V → Bool) (hveq : LawfulEq veq) (p₁ p₂ p₃ : List (K × V)) :
    EqualsItselfIff (scanningApi P) P.eq veq (ScanningMap.fromVec p₁) ∧
    EqCarriesOver (scanningApi P) veq (ScanningMap.fromVec p₁) (ScanningMap.fromVec p₂)
      (ScanningMap.fromVec p₃) := by
  have h := scanning_scanMap (V := V) P
  rw [hP] at h
  exact ⟨h.equalsItself heq hveq trivial, h.carriesOver heq hveq trivial trivial trivial⟩

example := C73_scanning_map_partial otherTy.probe rfl otherTy_lawful.eq _ lawfulEq_decide
  [((5 : Int), 1), (5, 2), (44, 3)] [(5, 1), (44, 3)] exOther

theorem C73_common_map_partial [Target] (env : Env) (S : IdxTy) (P : Probe K K) (hP : P.borrow = id)
    (heq : LawfulEq P.eq) (henc : ∀ a b, P.eq a b = true → P.enc a = P.enc b)
    (veq : V → V → Bool) (hveq : LawfulEq veq) (p₁ p₂ p₃ : List (K × V)) (bh₁ bh₂ bh₃ : Hasher)
    (m₁ m₂ m₃ : CommonMap K V)
    (hm₁ : CommonMap.fromVecWithHasher env S P.enc p₁ bh₁ = .ok m₁) (h32₁ : p₁.length < 2 ^ 32)
    (hm₂ : CommonMap.fromVecWithHasher env S P.enc p₂ bh₂ = .ok m₂) (h32₂ : p₂.length < 2 ^ 32)
    (hm₃ : CommonMap.fromVecWithHasher env S P.enc p₃ bh₃ = .ok m₃) (h32₃ : p₃.length < 2 ^ 32) :
    EqualsItselfIff (commonApi P) P.eq veq m₁ ∧ EqCarriesOver (commonApi P) veq m₁ m₂ m₃ := by
  have h := common_scanMap (V := V) P P.enc (fun k q h => henc q k (by rw [hP] at h; exact h))
  rw [hP] at h
  exact ⟨h.equalsItself heq hveq (CommonMap.filed hm₁ h32₁).1,
    h.carriesOver heq hveq (CommonMap.filed hm₁ h32₁).1 (CommonMap.filed hm₂ h32₂).1
      (CommonMap.filed hm₃ h32₃).1⟩

example := C73_common_map_partial checkedEnv IdxTy.u8 otherTy.probe rfl otherTy_lawful.eq otherTy_lawful.hash _
  lawfulEq_decide exRepeated exOther exOther demoHasher demoHasher demoHasher _ exCommon exCommon
  (Res.built (r := CommonMap.fromVecWithHasher checkedEnv IdxTy.u8 otherTy.probe.enc exRepeated demoHasher)
    (by decide +kernel)) (by decide) exCommon_ok (by decide) exCommon_ok (by decide)

theorem C73_integer_map_partial [Target] (env : Env) (S : IdxTy) (veq : V → V → Bool)
    (hveq : LawfulEq veq) (p₁ p₂ p₃ : List (Int × V)) (m₁ m₂ m₃ : IntegerMap V)
    (hm₁ : IntegerMap.fromVec env S p₁ = .ok m₁) (h32₁ : p₁.length < 2 ^ 32)
    (hm₂ : IntegerMap.fromVec env S p₂ = .ok m₂) (h32₂ : p₂.length < 2 ^ 32)
    (hm₃ : IntegerMap.fromVec env S p₃ = .ok m₃) (h32₃ : p₃.length < 2 ^ 32) :
    EqualsItselfIff integerApi (fun a b => decide (a = b)) veq m₁ ∧
    EqCarriesOver integerApi veq m₁ m₂ m₃ :=
  ⟨integer_scanMap.equalsItself ieq_lawful hveq (IntegerMap.filed hm₁ h32₁).1,
    integer_scanMap.carriesOver ieq_lawful hveq (IntegerMap.filed hm₁ h32₁).1
      (IntegerMap.filed hm₂ h32₂).1 (IntegerMap.filed hm₃ h32₃).1⟩

example := C73_integer_map_partial checkedEnv IdxTy.u8 _ lawfulEq_decide exRepeated exOther exOther _ exInteger
  exInteger (Res.built (r := IntegerMap.fromVec checkedEnv IdxTy.u8 exRepeated) (by decide +kernel)) (by decide)
  exInteger_ok (by decide) exInteger_ok (by decide)

theorem C73_length_map_partial [Target] (env : Env) (S : IdxTy) (eq : K → K → Bool) (heq : LawfulEq eq)
    (len : K → Nat) (hlen : ∀ a b, eq a b = true → len a = len b) (veq : V → V → Bool)
    (hveq : LawfulEq veq) (p₁ p₂ p₃ : List (K × V)) (m₁ m₂ m₃ : LengthMap K V)
    (hm₁ : LengthMap.fromVec env S len p₁ = .ok m₁) (h32₁ : p₁.length < 2 ^ 32)
    (hm₂ : LengthMap.fromVec env S len p₂ = .ok m₂) (h32₂ : p₂.length < 2 ^ 32)
    (hm₃ : LengthMap.fromVec env S len p₃ = .ok m₃) (h32₃ : p₃.length < 2 ^ 32) :
    EqualsItselfIff (lengthApi id eq len) eq veq m₁ ∧
    EqCarriesOver (lengthApi id eq len) veq m₁ m₂ m₃ := by
  have h := length_scanMap (V := V) id eq len len (fun k q h => hlen q k h)
  exact ⟨h.equalsItself heq hveq (LengthMap.filed hm₁ h32₁).1,
    h.carriesOver heq hveq (LengthMap.filed hm₁ h32₁).1 (LengthMap.filed hm₂ h32₂).1
      (LengthMap.filed hm₃ h32₃).1⟩

example := C73_length_map_partial checkedEnv IdxTy.u8 (fun a b : Bytes => decide (a = b)) lawfulEq_decide
  List.length (fun a b h => exBytes_len b a h) _ lawfulEq_decide (exBytes ++ exBytes) exBytes exBytes _ exLengths
  exLengths
  (Res.built (r := LengthMap.fromVec checkedEnv IdxTy.u8 List.length (exBytes ++ exBytes)) (by decide +kernel))
  (by decide) exLengths_ok (by decide) exLengths_ok (by decide)

theorem C73_left_slice_map_partial [Target] (env : Env) (S : IdxTy) (veq : V → V → Bool)
    (hveq : LawfulEq veq) (p₁ p₂ p₃ : List (Bytes × V)) (a₁ b₁ a₂ b₂ a₃ b₃ : Nat)
    (h₁ : p₁ = [] → a₁ ≤ b₁) (h₂ : p₂ = [] → a₂ ≤ b₂) (h₃ : p₃ = [] → a₃ ≤ b₃) (bh₁ bh₂ bh₃ : Hasher) (m₁ m₂ m₃ : LeftSliceMap V)
    (hm₁ : LeftSliceMap.fromVecWithHasher env S p₁ a₁ b₁ bh₁ = .ok m₁) (h32₁ : p₁.length < 2 ^ 32)
    (hm₂ : LeftSliceMap.fromVecWithHasher env S p₂ a₂ b₂ bh₂ = .ok m₂) (h32₂ : p₂.length < 2 ^ 32)
    (hm₃ : LeftSliceMap.fromVecWithHasher env S p₃ a₃ b₃ bh₃ = .ok m₃) (h32₃ : p₃.length < 2 ^ 32) :
    EqualsItselfIff leftApi (fun a b => decide (a = b)) veq m₁ ∧
    EqCarriesOver leftApi veq m₁ m₂ m₃ :=
  ⟨left_scanMap.equalsItself beq_lawful hveq (LeftSliceMap.built h₁ hm₁ h32₁).1,
    left_scanMap.carriesOver beq_lawful hveq (LeftSliceMap.built h₁ hm₁ h32₁).1
      (LeftSliceMap.built h₂ hm₂ h32₂).1 (LeftSliceMap.built h₃ hm₃ h32₃).1⟩

example := C73_left_slice_map_partial checkedEnv IdxTy.u8 _ lawfulEq_decide (exBytes ++ exBytes) exBytes exBytes
  0 2 1 2 1 2 (by decide) (by decide) (by decide) demoHasher demoHasher demoHasher _ exLeftSlice exLeftSlice
  (Res.built (r := LeftSliceMap.fromVecWithHasher checkedEnv IdxTy.u8 (exBytes ++ exBytes) 0 2 demoHasher)
    (by decide +kernel)) (by decide) exLeftSlice_ok (by decide) exLeftSlice_ok (by decide)

/-- Every right slice map that was built from something (C29 says which are), and the empty ones over a
range in descending order. -/
theorem C73_right_slice_map_partial [Target] (env : Env) (S : IdxTy) (oc : Bool)
    (veq : V → V → Bool) (hveq : LawfulEq veq) (p₁ p₂ p₃ : List (Bytes × V)) (a₁ b₁ a₂ b₂ a₃ b₃ : Nat)
    (hne₁ : p₁ = [] → b₁ ≤ a₁) (hne₂ : p₂ = [] → b₂ ≤ a₂) (hne₃ : p₃ = [] → b₃ ≤ a₃) (ha₁ : a₁ < usz) (hb₁ : b₁ < usz)
    (ha₂ : a₂ < usz) (hb₂ : b₂ < usz) (ha₃ : a₃ < usz) (hb₃ : b₃ < usz) (bh₁ bh₂ bh₃ : Hasher)
    (m₁ m₂ m₃ : RightSliceMap V)
    (hm₁ : RightSliceMap.fromVecWithHasher env S p₁ a₁ b₁ bh₁ = .ok m₁) (h32₁ : p₁.length < 2 ^ 32)
    (hm₂ : RightSliceMap.fromVecWithHasher env S p₂ a₂ b₂ bh₂ = .ok m₂) (h32₂ : p₂.length < 2 ^ 32)
    (hm₃ : RightSliceMap.fromVecWithHasher env S p₃ a₃ b₃ bh₃ = .ok m₃) (h32₃ : p₃.length < 2 ^ 32) :
    EqualsItselfIff (rightApi oc) (fun a b => decide (a = b)) veq m₁ ∧
      EqCarriesOver (rightApi oc) veq m₁ m₂ m₃ := by
  obtain ⟨_, _, i₁, _⟩ := RightSliceMap.built hne₁ ha₁ hb₁ hm₁ h32₁
  obtain ⟨_, _, i₂, _⟩ := RightSliceMap.built hne₂ ha₂ hb₂ hm₂ h32₂
  obtain ⟨_, _, i₃, _⟩ := RightSliceMap.built hne₃ ha₃ hb₃ hm₃ h32₃
  exact ⟨(right_scanMap oc).equalsItself beq_lawful hveq i₁,
    (right_scanMap oc).carriesOver beq_lawful hveq i₁ i₂ i₃⟩

example := C73_right_slice_map_partial checkedEnv IdxTy.u8 true _ lawfulEq_decide
  (exBytes ++ exBytes) exBytes exBytes 2 0 2 1 2 2 (by decide) (by decide) (by decide) (by decide) (by decide)
  (by decide) (by decide) (by decide) (by decide) demoHasher demoHasher demoHasher _ _ _
  (Res.built (r := RightSliceMap.fromVecWithHasher checkedEnv IdxTy.u8 (exBytes ++ exBytes) 2 0 demoHasher)
    (by decide +kernel)) (by decide)
  (Res.built (r := RightSliceMap.fromVecWithHasher checkedEnv IdxTy.u8 exBytes 2 1 demoHasher)
    (by decide +kernel)) (by decide)
  (Res.built (r := RightSliceMap.fromVecWithHasher checkedEnv IdxTy.u8 exBytes 2 2 demoHasher)
    (by decide +kernel)) (by decide)

/-- Range maps of distinct keys. -/
theorem C73_range_map_partial [Target] (oc : Bool) (t : IntTy) (hb : 0 < t.bits) (veq : V → V → Bool)
    (hveq : LawfulEq veq) (p₁ p₂ p₃ : List (Int × V)) (hne₁ : p₁ ≠ []) (hne₂ : p₂ ≠ [])
    (hne₃ : p₃ ≠ []) (hr₁ : ∀ e ∈ p₁, t.InRange e.1) (hr₂ : ∀ e ∈ p₂, t.InRange e.1)
    (hr₃ : ∀ e ∈ p₃, t.InRange e.1) (hd₁ : (p₁.map (·.1)).Nodup) (hd₂ : (p₂.map (·.1)).Nodup)
    (hd₃ : (p₃.map (·.1)).Nodup) (m₁ m₂ m₃ : IntegerRangeMap V)
    (hm₁ : IntegerRangeMap.fromVec oc t p₁ = .ok m₁) (hm₂ : IntegerRangeMap.fromVec oc t p₂ = .ok m₂)
    (hm₃ : IntegerRangeMap.fromVec oc t p₃ = .ok m₃) :
    EqualsItselfIff (rangeApi oc t) (fun a b => decide (a = b)) veq m₁ ∧
    EqCarriesOver (rangeApi oc t) veq m₁ m₂ m₃ := by
  obtain ⟨h1, _⟩ := rangeFromVec_rangeOK hb hne₁ hr₁ hd₁ hm₁
  obtain ⟨h2, _⟩ := rangeFromVec_rangeOK hb hne₂ hr₂ hd₂ hm₂
  obtain ⟨h3, _⟩ := rangeFromVec_rangeOK hb hne₃ hr₃ hd₃ hm₃
  exact ⟨(range_scanMap oc t).equalsItself ieq_lawful hveq h1,
    (range_scanMap oc t).carriesOver ieq_lawful hveq h1 h2 h3⟩

example := C73_range_map_partial true IntTy.i8 (by decide) _ lawfulEq_decide exInts exInts
  [((5 : Int), 1), (3, 2), (4, 3)] (by decide) (by decide) (by decide) exInts_inRange exInts_inRange (by decide)
  exInts_nodup exInts_nodup (by decide) exIntRange exIntRange _ exIntRange_ok exIntRange_ok
  (Res.built (by decide +kernel))

/-- `FrozenMap`, whatever is repeated, except `u32` keys with repeats that span their number. -/
theorem C73_frozen_map_partial [Target] (env : Env) (ty : KeyTy K) (hty : LawfulKey ty)
    (veq : V → V → Bool) (hveq : LawfulEq veq) (p₁ p₂ p₃ : List (K × V)) (hc₁ : p₁.length < 2 ^ 32)
    (hc₂ : p₂.length < 2 ^ 32) (hc₃ : p₃.length < 2 ^ 32) (hrep₁ : RepeatsFine ty p₁)
    (hrep₂ : RepeatsFine ty p₂) (hrep₃ : RepeatsFine ty p₃) (bh₁ bh₂ bh₃ : Hasher)
    (m₁ m₂ m₃ : FrozenMap K V) (hm₁ : FrozenMap.new env ty p₁ bh₁ = .ok m₁)
    (hm₂ : FrozenMap.new env ty p₂ bh₂ = .ok m₂) (hm₃ : FrozenMap.new env ty p₃ bh₃ = .ok m₃) :
    EqualsItselfIff (frozenApi env ty) ty.eq veq m₁ ∧
    EqCarriesOver (frozenApi env ty) veq m₁ m₂ m₃ :=
  ⟨(frozen_scanMap env hty).equalsItself hty.eq hveq (hrep₁.good hty hc₁ hm₁).1,
    (frozen_scanMap env hty).carriesOver hty.eq hveq (hrep₁.good hty hc₁ hm₁).1
      (hrep₂.good hty hc₂ hm₂).1 (hrep₃.good hty hc₃ hm₃).1⟩

example := C73_frozen_map_partial checkedEnv otherTy otherTy_lawful _ lawfulEq_decide exRepeated exOther exOther
  (by decide) (by decide) (by decide) (Or.inr (Or.inr fun f g h => by cases h))
  (Or.inr (Or.inr fun f g h => by cases h)) (Or.inr (Or.inr fun f g h => by cases h)) demoHasher demoHasher
  demoHasher _ exMapOther exMapOther
  (Res.built (r := FrozenMap.new checkedEnv otherTy exRepeated demoHasher) (by decide +kernel)) exMapOther_ok
  exMapOther_ok

/-- Maps with repeated keys that meet the hypotheses, of which one equals itself and the other does
not. -/
example : LawfulKey otherTy ∧ RepeatsFine otherTy [((1 : Int), 1), (8, 2), (1, 1), (3, 4)] ∧
    RepeatsFine otherTy [((1 : Int), 1), (8, 2), (1, 3), (3, 4)] ∧
    (∃ m, FrozenMap.new checkedEnv otherTy [((1 : Int), 1), (8, 2), (1, 1), (3, 4)] demoHasher = .ok m ∧
      (frozenApi checkedEnv otherTy).partialEq (fun x y : Nat => decide (x = y)) m m = .ok true) ∧
    ∃ m, FrozenMap.new checkedEnv otherTy [((1 : Int), 1), (8, 2), (1, 3), (3, 4)] demoHasher = .ok m ∧
      (frozenApi checkedEnv otherTy).partialEq (fun x y : Nat => decide (x = y)) m m = .ok false := by
  refine ⟨otherTy_lawful, Or.inr (Or.inr fun f g h => by cases h),
    Or.inr (Or.inr fun f g h => by cases h), ?_, ?_⟩
  · have h : (do
        let m ← FrozenMap.new checkedEnv otherTy [((1 : Int), 1), (8, 2), (1, 1), (3, 4)] demoHasher
        (frozenApi checkedEnv otherTy).partialEq (fun x y : Nat => decide (x = y)) m m)
          = Res.ok true := by decide +kernel
    simpa only [Res.bind_eq_ok] using h
  · have h : (do
        let m ← FrozenMap.new checkedEnv otherTy [((1 : Int), 1), (8, 2), (1, 3), (3, 4)] demoHasher
        (frozenApi checkedEnv otherTy).partialEq (fun x y : Nat => decide (x = y)) m m)
          = Res.ok false := by decide +kernel
    simpa only [Res.bind_eq_ok] using h

/-- Specialized maps with repeated keys. -/
example : (∃ m, CommonMap.fromVecWithHasher checkedEnv IdxTy.u8 otherTy.enc
      [((5 : Int), 1), (5, 2), (44, 3)] demoHasher = .ok m) ∧
    (∃ m, IntegerMap.fromVec checkedEnv IdxTy.u8 [((5 : Int), 1), (5, 2), (44, 3)] = .ok m) ∧
    (∃ m, LengthMap.fromVec checkedEnv IdxTy.u8 List.length
      [(([1, 2] : Bytes), 1), ([1, 2], 2), ([3], 3)] = .ok m) ∧
    (∃ m, LeftSliceMap.fromVecWithHasher checkedEnv IdxTy.u8
      [(([1, 2, 3] : Bytes), 1), ([1, 2, 3], 2), ([7, 8, 9], 3)] 1 3 demoHasher = .ok m) ∧
    (∃ m, IntegerRangeMap.fromVec true IntTy.u32 [((5 : Int), 1), (3, 2), (4, 3)] = .ok m) :=
  ⟨Res.of_isOk (by decide +kernel), Res.of_isOk (by decide +kernel), Res.of_isOk (by decide +kernel),
    Res.of_isOk (by decide +kernel), Res.of_isOk (by decide +kernel)⟩

/-- In particular a `FrozenMap` whose keys are distinct equals itself. -/
theorem C73_distinct_partial [Target] (env : Env) (ty : KeyTy K) (hty : LawfulKey ty)
    (veq : V → V → Bool) (hveq : LawfulEq veq) (p : List (K × V)) (hc : p.length < 2 ^ 32)
    (hd : DistinctKeys ty.eq p) (bh : Hasher) (m : FrozenMap K V)
    (hm : FrozenMap.new env ty p bh = .ok m) (ops : List (MapOp V K))
    (r : List (Out K V) × FrozenMap K V) (hr : (frozenApi env ty).run m ops = .ok r) :
    (frozenApi env ty).partialEq veq r.2 r.2 = .ok true := by
  have h50 := C50_frozen_map env env ty hty p hc hd bh m hm ops
  cases hs : Dict.run ty.eq id p ops with
  | panic => rw [hs] at h50; rw [hr] at h50; cases h50
  | ub => rw [hs] at h50; exact h50.elim
  | ok s =>
    obtain ⟨b, h1, h2⟩ := C51_frozen_map env ty hty veq p p hc hc hd hd bh bh m m hm hm ops ops r r s s
      hr hr hs hs
    rw [h1, h2.2 (fun k => ?_)]
    cases lookup ty.eq s.2 k with
    | none => trivial
    | some v => exact hveq.refl v

example := C73_distinct_partial checkedEnv u32Ty u32Ty_lawful _ lawfulEq_decide exRange (by decide)
  exRange_distinct demoHasher exMapRange exMapRange_ok [.getMut 13 7, .iter] _ (Res.built (by decide +kernel))

/-- The remaining `u32` payloads: with the pairs sorted by key, such a map equals itself exactly when
every pair has the value that its key finds, which is that of the pair at distance `k - smallest key`,
whatever its key. -/
theorem C73_u32_repeats_partial [Target] (env env' : Env) (ty : KeyTy K) (hty : LawfulKey ty)
    (f : K → Int) (g : Int → K) (hk : ty.kind = .u32 f g) (veq : V → V → Bool)
    (payload : List (K × V)) (hcap : payload.length < 2 ^ 32) (hfour : 4 ≤ payload.length)
    (hs : SpansCount f payload) (bh : Hasher) (m : FrozenMap K V)
    (hm : FrozenMap.new env ty payload bh = .ok m) :
    ∃ (d : List (K × V)) (lo : Int), d.Perm payload ∧ d.Pairwise (fun a b => f a.1 ≤ f b.1) ∧
      (∃ e ∈ payload, f e.1 = lo) ∧ (∀ e ∈ payload, lo ≤ f e.1) ∧
      ∃ b, m.eq env' ty veq m = .ok b ∧ (b = true ↔ ∀ e ∈ payload, ∃ e',
        d[(f e.1 - lo).toNat]? = some e' ∧ veq e.2 e'.2 = true) := by
  obtain ⟨d, lo, hp, hsort, hlo, hle, hlen, hget⟩ := C55_u32_repeats env env' ty hty f g hk payload
    hcap hfour hs bh m hm
  refine ⟨d, lo, hp, hsort, hlo, hle, ?_⟩
  have hb := new_built env hty hcap hm
  unfold FrozenMap.eq mapEq
  rw [if_neg (by simp)]
  rw [Res.allList_ok (f := fun e => match d[(f e.1 - lo).toNat]? with
    | none => false | some x => veq e.2 x.2)]
  · refine ⟨_, rfl, ?_⟩
    rw [List.all_eq_true]
    constructor
    · intro h e he
      have := h e (hb.perm.mem_iff.2 he)
      cases hx : d[(f e.1 - lo).toNat]? with
      | none => rw [hx] at this; cases this
      | some x => rw [hx] at this; exact ⟨x, rfl, this⟩
    · intro h e he
      obtain ⟨x, hx, hv⟩ := h e (hb.perm.mem_iff.1 he)
      simp only [hx]
      exact hv
  · intro e he
    obtain ⟨o, h1, h2⟩ := hb.total hty env' e.1
    obtain ⟨o', h1', h3⟩ := hget e.1
    rw [h1] at h1'
    cases h1'
    rw [if_pos (hle e (hb.perm.mem_iff.1 he))] at h3
    rw [h2, Res.map_ok, ← h3]
    cases o <;> rfl

example := C73_u32_repeats_partial checkedEnv releaseEnv u32Ty u32Ty_lawful _ _ rfl (· == ·) exDup (by decide)
  (by decide) (by unfold SpansCount; decide +kernel) demoHasher _ exDup_ok

/-- `[(0, 7), (0, 7), (3, 7), (3, 7)]` is such a payload; with four different values it does not equal
itself. -/
example : SpansCount (fun k : UInt32 => (k.toNat : Int)) [((0 : UInt32), 7), (0, 7), (3, 7), (3, 7)] ∧
    ∃ m, FrozenMap.new checkedEnv u32Ty [((0 : UInt32), 1), (0, 2), (3, 3), (3, 4)] demoHasher = .ok m ∧
      m.eq releaseEnv u32Ty (fun x y : Nat => decide (x = y)) m = .ok false := by
  refine ⟨⟨_, List.mem_cons_self, (3, 7), by simp, by decide +kernel, by decide +kernel⟩, ?_⟩
  have h : (do
      let m ← FrozenMap.new checkedEnv u32Ty [((0 : UInt32), 1), (0, 2), (3, 3), (3, 4)] demoHasher
      m.eq releaseEnv u32Ty (fun x y : Nat => decide (x = y)) m) = Res.ok false := by decide +kernel
  simpa only [Res.bind_eq_ok] using h

/-! ### C73: sets -/

/-- Every `FrozenSet` equals itself, whatever values its payload repeats. -/
theorem C73_frozen_set_partial [Target] (env env₁ : Env) (ty : KeyTy T) (hty : LawfulKey ty) (p : List T)
    (hp : p.length < 2 ^ 32) (bh : Hasher) (s : FrozenSet T)
    (hs : FrozenSet.new env₁ ty p bh = .ok s) : s.eq env ty s = .ok true := by
  have hb := new_built env₁ hty (payload := unitPayload p) (by rw [unitPayload_length]; exact hp)
    (FrozenSet.new_ok hs)
  rw [FrozenSet.eq_toSetI hb.safe]
  by_cases hr : ∀ r, s ≠ .u32Range r
  · exact (FrozenSet.answers env hty hp hs (Or.inl hr)).1.eq_self hty.eq
  · push Not at hr
    obtain ⟨r, rfl⟩ := hr
    have hm := FrozenSet.new_ok hs
    obtain ⟨f, g, hk, hsp, -⟩ := u32Range_spans hty (by rw [unitPayload_length]; exact hp) hm
    have h4 : 4 ≤ (unitPayload p).length := by
      by_contra h
      unfold FrozenMap.new at hm
      rw [if_pos (by omega)] at hm
      cases hm
    obtain ⟨d, lo, hpd, -, ⟨e0, he0, hlo⟩, hle, -, hget⟩ := C55_u32_repeats env₁ env ty hty f g hk
      (unitPayload p) (by rw [unitPayload_length]; exact hp) h4 hsp bh _ hm
    unfold SetI.eq
    rw [if_neg (by simp), Res.allList_ok (f := fun _ => true)]
    · simp
    intro x hx
    have hi : ((FrozenSet.u32Range r).toSetI env ty).iter
        = ((FrozenSet.u32Range r).toMap.entries ty).map (·.1) := by
      simp only [FrozenSet.toSetI, FrozenSet.iter_toMap, items_new]
    rw [hi] at hx
    obtain ⟨e, he, rfl⟩ := List.mem_map.1 hx
    have he' := hb.perm.mem_iff.1 he
    obtain ⟨o, h1, h2⟩ := hget e.1
    rw [if_pos (hle e he')] at h2
    obtain ⟨a, ha, b, hb', hall, hspan⟩ := hsp
    have hlt : (f e.1 - lo).toNat < d.length := by
      rw [hpd.length_eq]
      have h3 := (hall e he').2
      have h4' := (hall e0 he0).1
      have h5 := hle e he'
      omega
    rw [List.getElem?_eq_getElem hlt] at h2
    show (FrozenSet.u32Range r).contains env ty e.1 = _
    rw [FrozenSet.contains_toMap hb.safe, h1]
    cases o with
    | none => cases h2
    | some y => rfl

example := C73_frozen_set_partial releaseEnv checkedEnv u32Ty u32Ty_lawful [5, 2, 2, 5] (by decide) demoHasher _
  (Res.built (by decide +kernel))

/-- Equality of `FrozenSet`s carries over, whatever is repeated, except among `u32` values with repeats
that span their number. -/
theorem C73_frozen_set_transitive_partial [Target] (env : Env) (ty : KeyTy T) (hty : LawfulKey ty)
    (p q r : List T) (hp : p.length < 2 ^ 32) (hq : q.length < 2 ^ 32) (hr : r.length < 2 ^ 32)
    (env₁ env₂ env₃ : Env) (bh₁ bh₂ bh₃ : Hasher) (a b c : FrozenSet T)
    (ha : FrozenSet.new env₁ ty p bh₁ = .ok a) (hb : FrozenSet.new env₂ ty q bh₂ = .ok b)
    (hc : FrozenSet.new env₃ ty r bh₃ = .ok c)
    (hra : SetRepeatsFine ty p) (hrb : SetRepeatsFine ty q) (hrc : SetRepeatsFine ty r)
    (h1 : a.eq env ty b = .ok true) (h2 : b.eq env ty c = .ok true) : a.eq env ty c = .ok true := by
  have hbb := (new_built env₂ hty (payload := unitPayload q) (by rw [unitPayload_length]; exact hq)
    (FrozenSet.new_ok hb)).safe
  have hcc := (new_built env₃ hty (payload := unitPayload r) (by rw [unitPayload_length]; exact hr)
    (FrozenSet.new_ok hc)).safe
  rw [FrozenSet.eq_toSetI hbb] at h1
  rw [FrozenSet.eq_toSetI hcc] at h2 ⊢
  exact (FrozenSet.answers env hty hp ha (hra.reliable hty hp ha)).1.eq_trans hty.eq
    (FrozenSet.answers env hty hq hb (hrb.reliable hty hq hb)).1 (FrozenSet.answers env hty hr hc (hrc.reliable hty hr hc)).1 h1 h2

/-- The exception is needed. -/
theorem C73_set_transitivity_counterexample :
    ∃ a b c : FrozenSet UInt32,
      FrozenSet.new checkedEnv u32Ty [0, 1, 2, 3] demoHasher = .ok a ∧
      FrozenSet.new checkedEnv u32Ty [0, 0, 3, 3] demoHasher = .ok b ∧
      FrozenSet.new checkedEnv u32Ty [0, 3, 20, 90] demoHasher = .ok c ∧
      a.eq checkedEnv u32Ty b = .ok true ∧ b.eq checkedEnv u32Ty c = .ok true ∧
      a.eq checkedEnv u32Ty c = .ok false := by
  have h : (do
      let a ← FrozenSet.new checkedEnv u32Ty [(0 : UInt32), (1 : UInt32), (2 : UInt32), (3 : UInt32)] demoHasher
      let b ← FrozenSet.new checkedEnv u32Ty [(0 : UInt32), (0 : UInt32), (3 : UInt32), (3 : UInt32)] demoHasher
      let c ← FrozenSet.new checkedEnv u32Ty [(0 : UInt32), (3 : UInt32), (20 : UInt32), (90 : UInt32)] demoHasher
      let x ← a.eq checkedEnv u32Ty b
      let y ← b.eq checkedEnv u32Ty c
      let z ← a.eq checkedEnv u32Ty c
      return (x, y, z)) = Res.ok (true, true, false) := by decide +kernel
  simp only [Res.bind_eq_ok, Res.pure_eq, Res.ok.injEq, Prod.mk.injEq] at h
  obtain ⟨a, ha, b, hb, c, hc, x, hx, y, hy, z, hz, rfl, rfl, rfl⟩ := h
  exact ⟨a, b, c, ha, hb, hc, hx, hy, hz⟩

/-- Three sets of the same repeated elements, in different orders. -/
def exRepSet : FrozenSet Int :=
  (FrozenSet.new checkedEnv otherTy (exRepeated.map (·.1)) demoHasher).get (by decide +kernel)
def exRepSetRev : FrozenSet Int :=
  (FrozenSet.new checkedEnv otherTy (exRepeated.map (·.1)).reverse demoHasher).get (by decide +kernel)
theorem exRepSet_ok : FrozenSet.new checkedEnv otherTy (exRepeated.map (·.1)) demoHasher = .ok exRepSet :=
  Res.built _
theorem exRepSetRev_ok : FrozenSet.new checkedEnv otherTy (exRepeated.map (·.1)).reverse demoHasher
    = .ok exRepSetRev := Res.built _
theorem exRepSet_eq : exRepSet.eq checkedEnv otherTy exRepSetRev = .ok true ∧
    exRepSetRev.eq checkedEnv otherTy exRepSet = .ok true := by decide +kernel
theorem exRep_fine (p : List Int) : SetRepeatsFine otherTy p := Or.inr (Or.inr fun f g h => by cases h)
example := C73_frozen_set_transitive_partial checkedEnv otherTy otherTy_lawful _ _ _ (by decide) (by decide)
  (by decide) checkedEnv checkedEnv checkedEnv demoHasher demoHasher demoHasher _ _ _ exRepSet_ok exRepSetRev_ok
  exRepSet_ok (exRep_fine _) (exRep_fine _) (exRep_fine _) exRepSet_eq.1 exRepSet_eq.2

end FC
