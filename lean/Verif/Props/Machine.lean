import Verif.Lemmas.Machine
import Verif.Lemmas.Slice
import Verif.Props.Float
import Verif.Props.HashAnalysis
import Verif.Examples

/-
C66: the arithmetic that sizes a hash table never overflows, whatever the hash codes, the width of
`usize` and the rounding of floating-point numbers; and exactly from how many keys on a table is
refused.
-/

set_option autoImplicit false

namespace FC

/-- The analysis as computed by the machine, for as many hash codes as a `Vec<u64>` can hold
(`isize::MAX` bytes) and fewer than `2^50`: it is the idealised analysis, except that it panics from
`usize::MAX / 24` keys on (the bits it needs no longer fit a `BitVec`). -/
theorem C66_analysis [Target] (rnd : ℝ → ℝ) (h : Rounds rnd) (codes : List Nat)
    (hvec : 8 * codes.length < usz / 2) (hlen : codes.length < 2 ^ 50) :
    analyzeHashCodesM (isPrimeF64 rnd) codes
      = if 24 * codes.length < usz then analyzeHashCodes codes else .panic := by
  split
  · rename_i hu
    exact analyzeHashCodesM_eq (fun c => C53_is_prime_same rnd h c) codes hlen hu
  · exact analyzeHashCodesM_panic codes (by omega) (by omega)

/-- In particular nothing overflows: below the limit there is always a result, and a table of that
size has at most sixteen slots per key. -/
theorem C66_no_overflow [Target] (rnd : ℝ → ℝ) (h : Rounds rnd) (codes : List Nat)
    (hlen : codes.length < 2 ^ 50) (hu : 24 * codes.length < usz) (hne : codes ≠ []) :
    ∃ r, analyzeHashCodesM (isPrimeF64 rnd) codes = .ok r ∧ 0 < r.numHashSlots ∧
      r.numHashSlots ≤ 16 * codes.length ∧ r.numHashSlots < usz := by
  have h32 := usz_ge
  obtain ⟨r, hr, hb⟩ := C18_bounds codes
  obtain ⟨h1, -, h2, h3, h4⟩ := hb hne
  refine ⟨r, ?_, h1, ?_, ?_⟩
  · rw [C66_analysis rnd h codes (by omega) hlen, if_pos hu, hr]
  · rcases Nat.lt_or_ge codes.length 128 with hl | hl
    · exact (h2 hl).2
    · have := h3 hl; omega
  · rcases Nat.lt_or_ge codes.length 128 with hl | hl
    · have := (h2 hl).2; omega
    · have := h3 hl; omega

section Constructors
variable {K V : Type}

/-- So the constructors are the idealised ones. -/
theorem C66_common_map [Target] (rnd : ℝ → ℝ) (h : Rounds rnd) (env : Env) (S : IdxTy)
    (enc : K → List HCall) (payload : List (K × V)) (bh : Hasher)
    (hlen : payload.length < 2 ^ 50) (hu : 24 * payload.length < usz) :
    CommonMap.fromVecWithHasherM (isPrimeF64 rnd) env S enc payload bh
      = CommonMap.fromVecWithHasher env S enc payload bh := by
  unfold CommonMap.fromVecWithHasherM CommonMap.fromVecWithHasher
  rw [analyzeHashCodesM_eq (fun c => C53_is_prime_same rnd h c) _ (by simpa using hlen)
    (by simpa using hu)]

example := C66_common_map _ rounds_exists.choose_spec checkedEnv IdxTy.u8 otherTy.enc exOther demoHasher
  (by decide) (by decide)

theorem C66_integer_map [Target] (rnd : ℝ → ℝ) (h : Rounds rnd) (env : Env) (S : IdxTy)
    (payload : List (Int × V)) (hlen : payload.length < 2 ^ 50) (hu : 24 * payload.length < usz) :
    IntegerMap.fromVecM (isPrimeF64 rnd) env S payload = IntegerMap.fromVec env S payload := by
  unfold IntegerMap.fromVecM IntegerMap.fromVec
  rw [analyzeHashCodesM_eq (fun c => C53_is_prime_same rnd h c) _ (by simpa using hlen)
    (by simpa using hu)]

example := C66_integer_map _ rounds_exists.choose_spec checkedEnv IdxTy.u8 exOther (by decide) (by decide)

theorem C66_length_map [Target] (rnd : ℝ → ℝ) (h : Rounds rnd) (env : Env) (S : IdxTy)
    (lenK : K → Nat) (payload : List (K × V)) (hlen : payload.length < 2 ^ 50)
    (hu : 24 * payload.length < usz) :
    LengthMap.fromVecM (isPrimeF64 rnd) env S lenK payload
      = LengthMap.fromVec env S lenK payload := by
  unfold LengthMap.fromVecM LengthMap.fromVec
  rw [analyzeHashCodesM_eq (fun c => C53_is_prime_same rnd h c) _ (by simpa using hlen)
    (by simpa using hu)]

example := C66_length_map _ rounds_exists.choose_spec checkedEnv IdxTy.u8 List.length exBytes (by decide)
  (by decide)

theorem C66_left_slice_map [Target] (rnd : ℝ → ℝ) (h : Rounds rnd) (env : Env) (S : IdxTy)
    (payload : List (Bytes × V)) (a b : Nat) (bh : Hasher)
    (hlen : payload.length < 2 ^ 50) (hu : 24 * payload.length < usz) :
    LeftSliceMap.fromVecWithHasherM (isPrimeF64 rnd) env S payload a b bh
      = LeftSliceMap.fromVecWithHasher env S payload a b bh := by
  unfold LeftSliceMap.fromVecWithHasherM LeftSliceMap.fromVecWithHasher
  cases hc : Res.mapList (fun e : Bytes × V => LeftSliceMap.analysisCode bh a b e.1) payload with
  | ok codes =>
    have hl := Res.mapList_length hc
    simp only [Res.ok_bind]
    rw [analyzeHashCodesM_eq (fun c => C53_is_prime_same rnd h c) codes (by omega) (by omega)]
  | panic => rfl
  | ub => rfl

example := C66_left_slice_map _ rounds_exists.choose_spec checkedEnv IdxTy.u8 exBytes 1 2 demoHasher
  (by decide) (by decide)

theorem C66_right_slice_map [Target] (rnd : ℝ → ℝ) (h : Rounds rnd) (env : Env) (S : IdxTy)
    (payload : List (Bytes × V)) (a b : Nat) (bh : Hasher)
    (hlen : payload.length < 2 ^ 50) (hu : 24 * payload.length < usz) :
    RightSliceMap.fromVecWithHasherM (isPrimeF64 rnd) env S payload a b bh
      = RightSliceMap.fromVecWithHasher env S payload a b bh := by
  unfold RightSliceMap.fromVecWithHasherM RightSliceMap.fromVecWithHasher
  cases hc : Res.mapList (fun e : Bytes × V =>
      RightSliceMap.analysisCode env.oc bh a b e.1) payload with
  | ok codes =>
    have hl := Res.mapList_length hc
    simp only [Res.ok_bind]
    rw [analyzeHashCodesM_eq (fun c => C53_is_prime_same rnd h c) codes (by omega) (by omega)]
  | panic => rfl
  | ub => rfl

example := C66_right_slice_map _ rounds_exists.choose_spec checkedEnv IdxTy.u8 exBytes 2 1 demoHasher
  (by decide) (by decide)

/-- And so is the facade's, floating-point steps of the string analysis included. -/
theorem C66_frozen_map [Target] (rnd : ℝ → ℝ) (h : Rounds rnd) (env : Env) (ty : KeyTy K)
    (payload : List (K × V)) (bh : Hasher)
    (hlen : payload.length < 2 ^ 50) (hu : 24 * payload.length < usz) :
    FrozenMap.newM rnd env ty payload bh = FrozenMap.new env ty payload bh := by
  unfold FrozenMap.newM FrozenMap.new
  split
  · rfl
  · cases ty.kind with
    | u32 toInt ofInt =>
      simp only [FrozenMap.newU32MapM, FrozenMap.newU32Map]
      rw [C66_integer_map rnd h _ _ _ (by simpa using hlen) (by simpa using hu),
        C66_integer_map rnd h _ _ _ (by simpa using hlen) (by simpa using hu)]
      congr 1
    | string toB ofB =>
      have hs : ∀ keys : List Bytes, keys.length = payload.length →
          analyzeSliceKeysM rnd env.oc bh keys = analyzeSliceKeys env.oc bh keys := by
        intro keys hk
        unfold analyzeSliceKeysM analyzeSliceKeys
        rw [C53_subslices rnd h _ _ _ (by omega)]
      simp only [FrozenMap.newStringMapM, FrozenMap.newStringMap]
      rw [hs _ (by simp)]
      congr 1
      funext verdict
      rw [C66_common_map rnd h _ _ _ _ _ (by simpa using hlen) (by simpa using hu),
        C66_common_map rnd h _ _ _ _ _ (by simpa using hlen) (by simpa using hu),
        C66_length_map rnd h _ _ _ _ (by simpa using hlen) (by simpa using hu)]
      cases verdict with
      | left i l =>
        dsimp only
        rw [C66_left_slice_map rnd h _ _ _ _ _ _ (by simpa using hlen) (by simpa using hu),
          C66_left_slice_map rnd h _ _ _ _ _ _ (by simpa using hlen) (by simpa using hu)]
      | right i l =>
        dsimp only
        rw [C66_right_slice_map rnd h _ _ _ _ _ _ (by simpa using hlen) (by simpa using hu),
          C66_right_slice_map rnd h _ _ _ _ _ _ (by simpa using hlen) (by simpa using hu)]
      | normal => rfl
      | length => rfl
    | other =>
      simp only [FrozenMap.newCommonMapM, FrozenMap.newCommonMap]
      rw [C66_common_map rnd h _ _ _ _ _ hlen hu, C66_common_map rnd h _ _ _ _ _ hlen hu]

example := C66_frozen_map _ rounds_exists.choose_spec checkedEnv u32Ty exU32 demoHasher (by decide) (by decide)

end Constructors

/-- A 32-bit machine. -/
@[instance_reducible] def x32 : Target := ⟨32, by decide, by decide⟩

/-- Non-vacuity: on a machine of 64 bits, ten million hash codes (enough to search for primes) have a
table; on one of 32 bits, two hundred million hash codes (which a `Vec` can hold there) have none. -/
example : ∃ rnd : ℝ → ℝ, Rounds rnd ∧
    (∃ r, analyzeHashCodesM (isPrimeF64 rnd) (List.replicate 10000000 7) = .ok r) ∧
    @analyzeHashCodesM x32 (isPrimeF64 rnd) (List.replicate 200000000 7) = .panic := by
  obtain ⟨rnd, h⟩ := rounds_exists
  refine ⟨rnd, h, ?_, ?_⟩
  · obtain ⟨r, hr, -⟩ := C66_no_overflow rnd h (List.replicate 10000000 7)
      (by rw [List.length_replicate]; norm_num)
      (by rw [List.length_replicate]; decide) (by
        intro he; have := congrArg List.length he; rw [List.length_replicate] at this; cases this)
    exact ⟨r, hr⟩
  · have hu : @usz x32 = 4294967296 := rfl
    rw [@C66_analysis x32 rnd h _ (by rw [List.length_replicate, hu]; norm_num)
      (by rw [List.length_replicate]; norm_num), List.length_replicate, hu, if_neg (by norm_num)]

end FC
