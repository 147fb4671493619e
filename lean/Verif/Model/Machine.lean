import Verif.Model.Float
import Verif.Model.FrozenMap

/-
The size analysis and the constructors using it once more, with the machine arithmetic that
`Model/HashCode.lean` idealises: `usize` additions and multiplications that can overflow, the
floating-point primality test, and the largest `BitVec` there can be. An overflow is reported as a
panic whether or not the build checks for it, so that "never overflows" can be stated;
`Props/Machine.lean` proves that the idealised analysis is this one.
-/

set_option autoImplicit false

namespace FC
variable [Target]

/-- `usize` multiplication, overflow reported as a panic. Used for analyzers/hash_code_analyzer.rs:55-61.
-/
def mulM (a b : Nat) : Res Nat := if a * b < usz then .ok (a * b) else .panic

/-- The `while !is_prime(size as u64) { size += 2; }` loop, analyzers/hash_code_analyzer.rs:91-93.
`prime` is `is_prime`. -/
def findPrimeM (prime : Nat → Bool) (size : Nat) : Res Nat :=
  if prime size = true then .ok size
  else if size + 2 < usz then findPrimeM prime (size + 2)
  else .panic
termination_by usz - size

theorem le_findPrimeM {prime : Nat → Bool} {size p : Nat} (h : findPrimeM prime size = .ok p) :
    size ≤ p := by
  fun_induction findPrimeM prime size with
  | case1 => simp only [Res.ok.injEq] at h; omega
  | case2 _ _ _ ih => have := ih h; omega
  | case3 => cases h

/-- The `while size <= max_size` loop for very large inputs, analyzers/hash_code_analyzer.rs:82-94.
The proof argument records that the increment is positive there, i.e. that the loop ends. -/
def bigSizesM (prime : Nat → Bool) (increment maxSize : Nat) (hi : 0 < increment) (size : Nat) :
    Res (List Nat) :=
  if size ≤ maxSize then
    if size + increment < usz then
      match h : findPrimeM prime ((size + increment) ||| 1) with
      | .ok next =>
        match bigSizesM prime increment maxSize hi next with
        | .ok sizes => .ok (size :: sizes)
        | .panic => .panic
        | .ub => .ub
      | .panic => .panic
      | .ub => .ub
    else .panic
  else .ok []
termination_by maxSize + 1 - size
decreasing_by
  have h1 := le_findPrimeM h
  have h2 : size + increment ≤ (size + increment) ||| 1 := Nat.left_le_or
  omega

/-- `acceptable_collisions`, analyzers/hash_code_analyzer.rs:44-49. -/
def acceptableM (n : Nat) : Res Nat := if n < 128 then .ok 0 else mulM (n / 100) 5

/-- `max_size`, analyzers/hash_code_analyzer.rs:55-61. -/
def maxSizeM (n : Nat) : Res Nat :=
  if n < 128 then mulM n 16 else if n < 1000 then mulM n 10 else mulM n 3

/-- The candidate sizes, analyzers/hash_code_analyzer.rs:69-95. -/
def candidateSizesM (prime : Nat → Bool) (n minS maxS : Nat) : Res (List Nat) :=
  if maxS < 128 then .ok (n :: List.range' minS (maxS + 1 - minS))
  else if minS < lastPrime then .ok (n :: primeTable)
  else if h : 0 < n / 3 then
    match bigSizesM prime (n / 3) maxS h minS with
    | .ok sizes => .ok (n :: sizes)
    | .panic => .panic
    | .ub => .ub
  else .panic

/-- analyzers/hash_code_analyzer.rs:14-144 (`analyze_hash_codes`) in machine arithmetic. Lines 63-64
build a `BitVec` of `max_size` bits; the crate refuses more than `usize::MAX >> 3`. The main loop
(lines 97-138) is the one of `Model/HashCode.lean`: it only counts up to the number of codes and
scales a number down. The last branch of `candidateSizesM` stands for the endless loop an increment
of zero would be. -/
def analyzeHashCodesM (prime : Nat → Bool) (codes : List Nat) : Res HashAnalysis := do
  let acc ← acceptableM codes.length
  let minS ← usub true codes.length acc
  let maxS ← maxSizeM codes.length
  if usz / 8 ≤ maxS then
    Res.panic
  else
    let sizes ← candidateSizesM prime codes.length minS maxS
    sizeLoop codes minS maxS sizes 0 codes.length acc

/-- common_map.rs:31-38 with the machine's analysis. -/
def CommonMap.fromVecWithHasherM {K V : Type} (prime : Nat → Bool) (env : Env) (S : IdxTy)
    (enc : K → List HCall) (payload : List (K × V)) (bh : Hasher) : Res (CommonMap K V) := do
  let analysis ← analyzeHashCodesM prime (payload.map (fun e => bh (enc e.1)))
  let table ← HashTable.new env S payload analysis.numHashSlots (fun k => .ok (bh (enc k)))
  return ⟨table, bh⟩

/-- integer_map.rs:27-32 with the machine's analysis. -/
def IntegerMap.fromVecM {V : Type} (prime : Nat → Bool) (env : Env) (S : IdxTy)
    (payload : List (Int × V)) : Res (IntegerMap V) := do
  let analysis ← analyzeHashCodesM prime (payload.map (fun e => asU64 e.1))
  let table ← HashTable.new env S payload analysis.numHashSlots (fun k => .ok (asU64 k))
  return ⟨table⟩

/-- length_map.rs:28-34 with the machine's analysis. -/
def LengthMap.fromVecM {K V : Type} (prime : Nat → Bool) (env : Env) (S : IdxTy) (lenK : K → Nat)
    (payload : List (K × V)) : Res (LengthMap K V) := do
  let analysis ← analyzeHashCodesM prime (payload.map (fun e => lenK e.1))
  let table ← HashTable.new env S payload analysis.numHashSlots (fun k => .ok (lenK k))
  return ⟨table⟩

/-- left_slice_map.rs:33-51 with the machine's analysis. -/
def LeftSliceMap.fromVecWithHasherM {V : Type} (prime : Nat → Bool) (env : Env) (S : IdxTy)
    (payload : List (Bytes × V)) (a b : Nat) (bh : Hasher) : Res (LeftSliceMap V) := do
  let codes ← Res.mapList (fun e => LeftSliceMap.analysisCode bh a b e.1) payload
  let analysis ← analyzeHashCodesM prime codes
  let table ← HashTable.new env S payload analysis.numHashSlots (fun k => sliceHash bh k a b)
  return ⟨table, bh, a, b⟩

/-- right_slice_map.rs:33-51 with the machine's analysis. -/
def RightSliceMap.fromVecWithHasherM {V : Type} (prime : Nat → Bool) (env : Env) (S : IdxTy)
    (payload : List (Bytes × V)) (a b : Nat) (bh : Hasher) : Res (RightSliceMap V) := do
  let codes ← Res.mapList (fun e => RightSliceMap.analysisCode env.oc bh a b e.1) payload
  let analysis ← analyzeHashCodesM prime codes
  let table ← HashTable.new env S payload analysis.numHashSlots
    (fun k => RightSliceMap.rightHash env.oc bh k a b)
  return ⟨table, bh, a, b⟩

/-- analyzers/slice_key_analyzer.rs:39-56 (`analyze_slice_keys`) with the floating-point tolerance. -/
noncomputable def analyzeSliceKeysM (rnd : ℝ → ℝ) (oc : Bool) (bh : Hasher) (keys : List Bytes) :
    Res SliceVerdict :=
  if analyzeLengths keys = .normal then analyzeSubslicesF64 rnd oc bh keys
  else .ok (analyzeLengths keys)

namespace FrozenMap
variable {K V : Type}

/-- facades/frozen_map.rs:226-243 (`new_u32_map`) with the machine's analysis. -/
noncomputable def newU32MapM (rnd : ℝ → ℝ) (env : Env) (toInt : K → Int)
    (payload : List (K × V)) : Res (FrozenMap K V) := do
  let payload := payload.map (fun e => (toInt e.1, e.2))
  match ← analyzeIntKeys IntTy.u32 env.oc (payload.map (·.1)) with
  | .range => return .u32Range (← IntegerRangeMap.fromVec env.oc IntTy.u32 payload)
  | .normal =>
    if payload.length ≤ 255 then
      return .u32Small (← IntegerMap.fromVecM (isPrimeF64 rnd) env IdxTy.u8 payload)
    else return .u32Large (← IntegerMap.fromVecM (isPrimeF64 rnd) env IdxTy.usize payload)

/-- facades/frozen_map.rs:245-306 (`new_string_map`) with the machine's analyses. -/
noncomputable def newStringMapM (rnd : ℝ → ℝ) (env : Env) (enc : K → List HCall) (toB : K → Bytes)
    (ofB : Bytes → K) (payload : List (K × V)) (bh : Hasher) : Res (FrozenMap K V) := do
  let payload := payload.map (fun e => (toB e.1, e.2))
  let verdict ← analyzeSliceKeysM rnd env.oc bh (payload.map (·.1))
  if payload.length ≤ 255 then
    match verdict with
    | .normal =>
      return .commonSmall (← CommonMap.fromVecWithHasherM (isPrimeF64 rnd) env IdxTy.u8 enc
        (payload.map (fun e => (ofB e.1, e.2))) bh)
    | .left i l =>
      return .leftSmall
        (← LeftSliceMap.fromVecWithHasherM (isPrimeF64 rnd) env IdxTy.u8 payload i (i + l) bh)
    | .right i l =>
      return .rightSmall
        (← RightSliceMap.fromVecWithHasherM (isPrimeF64 rnd) env IdxTy.u8 payload i (i + l) bh)
    | .length =>
      return .lengthSmall
        (← LengthMap.fromVecM (isPrimeF64 rnd) env IdxTy.u8 List.length payload)
  else
    match verdict with
    | .length | .normal =>
      return .commonLarge (← CommonMap.fromVecWithHasherM (isPrimeF64 rnd) env IdxTy.usize enc
        (payload.map (fun e => (ofB e.1, e.2))) bh)
    | .left i l =>
      return .leftLarge
        (← LeftSliceMap.fromVecWithHasherM (isPrimeF64 rnd) env IdxTy.usize payload i (i + l) bh)
    | .right i l =>
      return .rightLarge
        (← RightSliceMap.fromVecWithHasherM (isPrimeF64 rnd) env IdxTy.usize payload i (i + l) bh)

/-- facades/frozen_map.rs:308-314 (`new_common_map`) with the machine's analysis. -/
noncomputable def newCommonMapM (rnd : ℝ → ℝ) (env : Env) (enc : K → List HCall)
    (payload : List (K × V)) (bh : Hasher) : Res (FrozenMap K V) := do
  if payload.length ≤ 255 then
    return .commonSmall
      (← CommonMap.fromVecWithHasherM (isPrimeF64 rnd) env IdxTy.u8 enc payload bh)
  else
    return .commonLarge
      (← CommonMap.fromVecWithHasherM (isPrimeF64 rnd) env IdxTy.usize enc payload bh)

/-- facades/frozen_map.rs:212-224 (`new`) with the machine's analyses. -/
noncomputable def newM (rnd : ℝ → ℝ) (env : Env) (ty : KeyTy K) (payload : List (K × V))
    (bh : Hasher) : Res (FrozenMap K V) :=
  if payload.length < 4 then .ok (.scanning (ScanningMap.fromVec payload))
  else
    match ty.kind with
    | .u32 toInt _ => newU32MapM rnd env toInt payload
    | .string toB ofB => newStringMapM rnd env ty.enc toB ofB payload bh
    | .other => newCommonMapM rnd env ty.enc payload bh

end FrozenMap

end FC
