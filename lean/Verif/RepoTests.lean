import Verif.Examples
import Verif.Model.Construct
import Verif.Model.Debug
import Verif.Model.Iter
import Verif.Model.MacroTokens
import Verif.Props.HashAnalysis
import Verif.Props.MapConstruct
import Verif.Props.MapLookup
import Verif.Props.SetConstruct
import Verif.Props.SetIter
import Verif.Props.Sets

/-
The project's own unit tests, replayed on the model. These are tests of the model, not proofs of the
listed properties: they show that the model answers as the code's authors observed the code to
answer. Where the general theorems allow it a test is stated for every size, every hasher and both
build profiles instead of the sizes in /repo. Not replayed: two of the five cases of
analyze_hash_codes_test (1000 and 8,000,000 codes from a seeded generator that is not part of the
code), and the three tests that only print (test_iter and the two tests of the macros).
-/

set_option autoImplicit false

namespace FC

/-- The bytes of an ASCII literal. -/
def asciiBytes (s : String) : Bytes := s.toList.map (fun c => UInt8.ofNat c.toNat)

/-- What the value designated by a `get` is. -/
def Res.value {V : Type} (r : Res (Option (Ref V))) : Res (Option V) :=
  r.map (fun o => o.map Ref.val)

/-- What a `get_key_value` designates. -/
def Res.pair {K V : Type} (r : Res (Option (K × Ref V))) : Res (Option (K × V)) :=
  r.map (fun o => o.map (fun e => (e.1, e.2.val)))

/-! ### analyzers/slice_key_analyzer.rs:225-293 (`analyze_string_keys_test`) -/

/-- The nine cases, lines 226-286. -/
def repoSliceCases : List (List String × SliceVerdict) :=
  [(["AAA", "ABB", "ACC", "ADD", "AEE", "AFF", "AGG", "AHH", "AII", "AJJ", "AKK",
      "ALL", "AMM", "ANN", "AOO", "APP", "AQQ", "ARR", "ASS", "ATT", "AUU"], .left 1 1),
    (["A00", "B00", "C00", "D00"], .left 0 1),
    (["A", "B", "C", "D", "E2"], .left 0 1),
    (["A", "B", "C", "D", "E2", ""], .normal),
    (["XA", "XB", "XC", "XD", "XE2"], .left 1 1),
    (["XXA", "XXB", "XXC", "XXD", "XXX", "XXXE"], .right 0 1),
    (["ABC", "DEFG", "HIJKL", "MNOPQR", "STUVWX", "YZ"], .length),
    (["ABC", "DEFG", "HIJKL", "MNOPQR", "STUVWX", "YZ", "D2", "D3", "D4"], .left 1 1),
    (["AAA", "1AA", "A1A", "AA1", "BBB", "1BB", "B1B", "BB1"], .normal)]

example : ∀ oc : Bool, ∀ c ∈ repoSliceCases,
    analyzeSliceKeys oc demoHasher (c.1.map asciiBytes) = .ok c.2 := by decide +kernel

/-! ### analyzers/hash_code_analyzer.rs:181-241 (`analyze_hash_codes_test`) -/

/-- Case 0, lines 185-190. -/
example : analyzeHashCodes [] = .ok ⟨0, 0⟩ := by decide +kernel

/-- Case 1, lines 191-196: whatever two codes of different parity the generator gives. -/
example (a b : Nat) (h : a % 2 ≠ b % 2) : analyzeHashCodes [a, b] = .ok ⟨2, 0⟩ :=
  C19_perfect [a, b] (by simpa using h)

/-- Case 3, lines 203-208: the codes 0, 1, ..., n - 1, here for every n and not only 8,000,000. -/
theorem repo_consecutive_codes (n : Nat) : analyzeHashCodes (List.range n) = .ok ⟨n, 0⟩ := by
  have h : (List.range n).map (· % (List.range n).length) = List.range n := by
    rw [List.length_range]
    conv_rhs => rw [← List.map_id (List.range n)]
    refine List.map_congr_left (fun x hx => ?_)
    exact Nat.mod_eq_of_lt (List.mem_range.mp hx)
  have := C19_perfect (List.range n) (by rw [h]; exact List.nodup_range)
  rwa [List.length_range] at this

example : analyzeHashCodes (List.range 8000000) = .ok ⟨8000000, 0⟩ := repo_consecutive_codes _

/-! ### analyzers/int_key_analyzer.rs:41-68 -/

example : ∀ oc, analyzeIntKeys IntTy.i32 oc [1, 3, 5, 7, 9] = .ok .normal := by decide +kernel
example : ∀ oc, analyzeIntKeys IntTy.i32 oc [1, 2, 3, 4, 5] = .ok .range := by decide +kernel
example : ∀ oc, analyzeIntKeys IntTy.i32 oc [] = .ok .normal := by decide +kernel
example : ∀ oc, analyzeIntKeys IntTy.i32 oc [1] = .ok .range := by decide +kernel

/-! ### specialized_maps/common_map.rs:294-315, `CommonMap<i32, i32, u32, RandomState>` -/

/-- `i32` keys looked up by `i32` keys. -/
def repoI32 : Probe Int Int := ⟨id, fun a b => decide (a = b), fun k => [.writeInt 32 k]⟩

/-- The map under test. -/
def repoCommon (payload : List (Int × Int)) : Res (CommonMap Int Int) :=
  CommonMap.fromIter checkedEnv ⟨32⟩ (fun k => [.writeInt 32 k]) (.of payload) demoHasher

example : (repoCommon []).map CommonMap.len = .ok 0 := by decide +kernel
example : (do (← repoCommon [(1, 2)]).get repoI32 1 : Res _).value = .ok (some 2) := by
  decide +kernel
example : ∀ e ∈ [((1 : Int), (2 : Int)), (3, 4), (5, 6)],
    (do (← repoCommon [(1, 2), (3, 4), (5, 6)]).get repoI32 e.1 : Res _).value = .ok (some e.2) := by
  decide +kernel

/-! ### specialized_maps/integer_map.rs:255-276, `IntegerMap<u32, u32, u32>` -/

/-- The map under test. -/
def repoInteger (payload : List (Int × Nat)) : Res (IntegerMap Nat) :=
  IntegerMap.fromIter checkedEnv ⟨32⟩ (.of payload)

example : (repoInteger []).map IntegerMap.len = .ok 0 := by decide +kernel
example : (do (← repoInteger [(1, 2)]).get 1 : Res _).value = .ok (some 2) := by decide +kernel
example : ∀ e ∈ [((1 : Int), 2), (3, 4), (5, 6)],
    (do (← repoInteger [(1, 2), (3, 4), (5, 6)]).get e.1 : Res _).value = .ok (some e.2) := by
  decide +kernel

/-! ### specialized_maps/length_map.rs:255-307, `LengthMap<String, i32>` -/

/-- The map under test, from an array (lines 255-280). -/
def repoLength (payload : List (Bytes × Int)) : Res (LengthMap Bytes Int) :=
  LengthMap.from' checkedEnv List.length payload

/-- The map under test, from an iterator (lines 282-307). -/
def repoLength' (payload : List (Bytes × Int)) : Res (LengthMap Bytes Int) :=
  LengthMap.fromIter checkedEnv List.length (.of payload)

/-- The three pairs of lines 271-275 and 298-302. -/
def repoKeys : List (Bytes × Int) :=
  [(asciiBytes "key1", 1), (asciiBytes "key2", 2), (asciiBytes "key3", 3)]

example : (repoLength []).map LengthMap.len = .ok 0 ∧ (repoLength' []).map LengthMap.len = .ok 0 := by
  decide +kernel
example : ∀ n ∈ [1, 3], ∀ e ∈ repoKeys.take n,
    (do (← repoLength (repoKeys.take n)).get id beq List.length e.1 : Res _).value = .ok (some e.2) ∧
    (do (← repoLength' (repoKeys.take n)).get id beq List.length e.1 : Res _).value = .ok (some e.2) := by
  decide +kernel

/-! ### specialized_maps/integer_range_map.rs:250-288 (`range_map_test`), `IntegerRangeMap<i32, i32>` -/

/-- The map under test, lines 253-258. -/
def repoRange (oc : Bool) (min : Int) : Res (IntegerRangeMap Int) :=
  IntegerRangeMap.fromVec oc IntTy.i32 ((List.range 10).map (fun i : Nat => (min + i, (i : Int))))

/-- core's `Debug for i32`. -/
def fmtI32 : Fmt Int := fun i => some (toString i)

example : ∀ oc : Bool, ∀ min ∈ [(-11 : Int), -10, -9, 0, 1],
    (repoRange oc min).map IntegerRangeMap.len = .ok 10 ∧
    (∀ i ∈ List.range 9,
      (do (← repoRange oc min).get oc IntTy.i32 (min + i) : Res _).value = .ok (some (i : Int)) ∧
      (do (← repoRange oc min).getMut oc IntTy.i32 (min + i) : Res _).value = .ok (some (i : Int)) ∧
      (do (← repoRange oc min).getKeyValue oc IntTy.i32 (min + i) : Res _).pair
        = .ok (some (min + i, (i : Int)))) ∧
    ∀ q ∈ [min - 1, min + 10],
      (do (← repoRange oc min).get oc IntTy.i32 q : Res _).value = .ok none ∧
      (do (← repoRange oc min).getMut oc IntTy.i32 q : Res _).value = .ok none ∧
      (do (← repoRange oc min).getKeyValue oc IntTy.i32 q : Res _).pair = .ok none := by
  decide +kernel

/-- Lines 284-289. -/
example : (repoRange true (-11)).map (IntegerRangeMap.debug fmtI32 fmtI32) =
    .ok (some "{-11: 0, -10: 1, -9: 2, -8: 3, -7: 4, -6: 5, -5: 6, -4: 7, -3: 8, -2: 9}") := by
  decide +kernel

/-! ### specialized_maps/scanning_map.rs:224-284, `ScanningMap<i32, i32>` -/

/-- The map under test. -/
def repoScanning : ScanningMap Int Int := .fromVec [(10, 20), (30, 40), (50, 60)]

example : repoScanning.len = 3 := by decide +kernel
example : ∀ e ∈ [((10 : Int), (20 : Int)), (30, 40), (50, 60)],
    (repoScanning.get repoI32 e.1).value = .ok (some e.2) ∧
    (repoScanning.getMut repoI32 e.1).value = .ok (some e.2) ∧
    (repoScanning.getKeyValue repoI32 e.1).pair = .ok (some e) := by decide +kernel
example : repoScanning.get repoI32 0 = .ok none ∧ repoScanning.getMut repoI32 0 = .ok none ∧
    repoScanning.getKeyValue repoI32 0 = .ok none := by decide +kernel
example : (ScanningMap.fromVec [((10 : Int), (20 : Int))]).debug fmtI32 fmtI32 = some "{10: 20}" := by
  decide +kernel

/-! ### facades/frozen_map_tests.rs -/

/-- `test_empty_map`, lines 6-11. -/
example : (FrozenMap.default : FrozenMap Int Int).len = 0 := by decide +kernel

/-- `test_i32_map`, lines 13-17, for every hasher and build profile. -/
example (env : Env) (bh : Hasher) :
    ∃ m : FrozenMap Int Nat, FrozenMap.from' env otherTy
        [(1, 1), (2, 2), (3, 3), (4, 4), (5, 5), (6, 6)] bh = .ok m ∧
      (m.get env otherTy 6).value = .ok (some 6) := by
  obtain ⟨m, hm⟩ := C02_other_construction_total env otherTy rfl
    [(1, 1), (2, 2), (3, 3), (4, 4), (5, 5), (6, 6)] (by decide) bh
  obtain ⟨r, hr, hv⟩ := C01_present env otherTy otherTy_lawful _ (by decide) (by unfold DistinctKeys; decide +kernel) bh m hm
    6 6 6 (by decide +kernel) (by decide +kernel)
  exact ⟨m, hm, by rw [hr]; simp [Res.value, Res.map, hv]⟩

/-- `basic_u32_map`, lines 19-63: the assertions about a map collected from `m`, for every payload of
distinct `u32` keys instead of the twenty in the test. -/
theorem repo_basic_u32_map {V : Type} [Target] (env : Env) (bh : Hasher) (m : List (UInt32 × V))
    (hd : (m.map (·.1)).Nodup) (hlen : m.length < 2 ^ 31) :
    ∃ fm, FrozenMap.fromIter env u32Ty (.of m) bh = .ok fm ∧ fm.len = m.length ∧
      fm.isEmpty = m.isEmpty ∧
      ∀ pair ∈ m, fm.containsKey env u32Ty pair.1 = .ok true ∧
        (fm.get env u32Ty pair.1).value = .ok (some pair.2) ∧
        (fm.getKeyValue env u32Ty pair.1).pair = .ok (some pair) := by
  obtain ⟨fm, hfm⟩ := C02_u32_construction_total env u32Ty u32Ty_lawful _ _ rfl m hlen bh
  have h32 : m.length < 2 ^ 32 := by omega
  have hdk : DistinctKeys u32Ty.eq m := by
    refine (List.pairwise_map.1 hd).imp (fun h => ?_)
    simpa [u32Ty] using h
  obtain ⟨hl, he⟩ := C12_len env u32Ty u32Ty_lawful m bh fm (.new hfm)
  refine ⟨fm, hfm, hl, ?_, fun pair hp => ?_⟩
  · rw [Bool.eq_iff_iff, he, List.isEmpty_iff]
  · obtain ⟨r, hr, hv⟩ := C01_present env u32Ty u32Ty_lawful m h32 hdk bh fm hfm pair.1 pair.1 pair.2
      hp (by simp [u32Ty])
    obtain ⟨o, h1, h2, _, h4⟩ := C05_lookups_agree env u32Ty u32Ty_lawful m h32 bh fm (.new hfm) pair.1
    rw [hr] at h2
    cases o with
    | none => simp at h2
    | some x =>
      obtain ⟨s, r'⟩ := x
      obtain ⟨_, h6⟩ := C05_stored_key env u32Ty u32Ty_lawful m h32 hdk bh fm hfm pair.1 s r' h1
      have h7 : pair.1 = s := by simpa [u32Ty] using h6
      have h8 : r = r' := by simpa using h2
      subst h7 h8
      exact ⟨h4, by rw [hr]; simp [Res.value, Res.map, hv], by rw [h1]; simp [Res.pair, Res.map, hv]⟩

/-- Lines 24-27: keys 0, 1, ..., max - 1 in any order, for every `max` below 2^31. -/
example {V : Type} (env : Env) (bh : Hasher) (max : Nat) (hmax : max < 2 ^ 31) (V' : Nat → V)
    (m : List (UInt32 × V))
    (hm : m.Perm ((List.range max).map (fun i => (UInt32.ofNat i, V' i)))) :=
  repo_basic_u32_map env bh m (by
    refine (hm.map (·.1)).nodup_iff.2 ?_
    rw [List.map_map, List.nodup_map_iff_inj_on List.nodup_range]
    intro x hx y hy h
    rw [List.mem_range] at hx hy
    have := congrArg UInt32.toNat h
    simp only [Function.comp_apply, UInt32.toNat_ofNat'] at this
    omega) (by rw [hm.length_eq]; simpa using hmax)

/-- Lines 44-47: keys 0, 2, ..., 2 * (max - 1) in any order. -/
example {V : Type} (env : Env) (bh : Hasher) (max : Nat) (hmax : max < 2 ^ 31) (v : V)
    (m : List (UInt32 × V))
    (hm : m.Perm ((List.range max).map (fun x => (UInt32.ofNat (x * 2), v)))) :=
  repo_basic_u32_map env bh m (by
    refine (hm.map (·.1)).nodup_iff.2 ?_
    rw [List.map_map, List.nodup_map_iff_inj_on List.nodup_range]
    intro x hx y hy h
    rw [List.mem_range] at hx hy
    have := congrArg UInt32.toNat h
    simp only [Function.comp_apply, UInt32.toNat_ofNat'] at this
    omega) (by rw [hm.length_eq]; simpa using hmax)

/-! ### facades/frozen_set_tests.rs:6-34 (`misc`), `FrozenSet<usize>` -/

/-- Lines 10-33, for every size below 2^31 instead of eleven. -/
theorem repo_misc_set [Target] (env : Env) (bh : Hasher) (size : Nat) (hsize : size < 2 ^ 31) :
    ∃ s, FrozenSet.fromVec env otherTy ((List.range size).map (fun i : Nat => (i : Int))) bh = .ok s ∧
      s.len = size ∧ (s.isEmpty = true ↔ size = 0) ∧
      (∀ i < size, s.get env otherTy (i : Int) = .ok (some (i : Int)) ∧
        s.contains env otherTy (i : Int) = .ok true) ∧
      ∃ ms : List Int, (∀ n, (calls SetIter.next n (s.iter otherTy)).1 = firstCalls ms n) ∧
        ∀ i < size, (i : Int) ∈ ms := by
  have hl : ((List.range size).map (fun i : Nat => (i : Int))).length = size := by simp
  obtain ⟨s, hs⟩ := C02_other_set_construction_total env otherTy rfl
    ((List.range size).map (fun i : Nat => (i : Int))) (by rw [hl]; exact hsize) bh
  have hd : Distinct otherTy.eq ((List.range size).map (fun i : Nat => (i : Int))) := by
    unfold Distinct
    rw [List.pairwise_map]
    refine List.nodup_range.imp (fun h => ?_)
    simpa [otherTy] using h
  have h32 : ((List.range size).map (fun i : Nat => (i : Int))).length < 2 ^ 32 := by rw [hl]; omega
  have hmem : ∀ i < size, (i : Int) ∈ (List.range size).map (fun i : Nat => (i : Int)) := fun i hi =>
    List.mem_map_of_mem (List.mem_range.2 hi)
  have hhas : ∀ i < size, Has otherTy.eq ((List.range size).map (fun i : Nat => (i : Int))) (i : Int) :=
    fun i hi => ⟨_, hmem i hi, by simp [otherTy]⟩
  obtain ⟨h1, h2⟩ := C31_len otherTy otherTy_lawful _ env bh s hs
  obtain ⟨ms, hp, hms⟩ := C11_set_iteration env otherTy otherTy_lawful _ bh s hs
  refine ⟨s, hs, h1.trans hl, ?_, fun i hi => ⟨?_, ?_⟩, ms, hms, fun i hi => hp.mem_iff.2 (hmem i hi)⟩
  · rw [h2, List.map_eq_nil_iff, List.range_eq_nil]
  · obtain ⟨o, ho, hsome, hval⟩ := C31_get env otherTy otherTy_lawful _ h32 hd env bh s hs (i : Int)
    obtain ⟨y, rfl⟩ := Option.isSome_iff_exists.1 (hsome.2 (hhas i hi))
    have hy : (i : Int) = y := by simpa [otherTy] using (hval y rfl).2
    rw [ho, ← hy]
  · obtain ⟨b, hb, hx⟩ := C31_contains env otherTy otherTy_lawful _ h32 hd env bh s hs (i : Int)
    rw [hb, hx.2 (hhas i hi)]

example := repo_misc_set checkedEnv demoHasher 65536 (by decide)

/-! ### examples/frozen_map.rs -/

/-- Lines 7-8, for every hasher and build profile. -/
example (env : Env) (bh : Hasher) :
    (do
      let fm ← FrozenMap.from' env otherTy [((0 : Int), (1 : Int)), (2, 3), (4, 5)] bh
      fm.containsKey env otherTy 0 : Res Bool) = .ok true := rfl

/-- Lines 14-28: the third byte tells the seven keys apart, so the macro emits a left slice map. -/
example : ∀ oc : Bool, (macroExpand oc demoHasher strLits (["first_key", "second_key", "third_key",
    "fourth_key", "fifth_key", "sixth_key", "seventh_key"].map asciiBytes)).map
      (fun e => (e.name, e.range)) = .ok (.left, some (2, 3)) := by decide +kernel

/-- Lines 30-34: what the union yields. -/
example : (do
    let cs ← CommonSet.from' checkedEnv IdxTy.u8 (fun k : Int => [.writeInt 32 k]) [1, 2, 3] demoHasher
    (BinIter.new (cs.toSetI repoI32) (StdSet.toSetI IntegerMap.ieq (.collect IntegerMap.ieq [3, 4, 5]))).unionAll
      : Res (List Int)) = .ok [3, 4, 5, 1, 2] := by decide +kernel

end FC
