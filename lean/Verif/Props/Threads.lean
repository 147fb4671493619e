import Verif.Lemmas.Threads
import Verif.Props.History

/-
C89: threads that share a map do not disturb each other.
-/

set_option autoImplicit false

namespace FC
variable {K V Q : Type}

/-- Any map whatever, even one that panics or goes wrong: each thread fares as it would alone with as
many turns, and there is undefined behaviour only if a thread alone would run into it. -/
theorem C89_any_map (E : Engine K V Q) (progs : List (List (SharedOp Q))) (turns : List Nat) :
    (∃ ts, runThreads turns (progs.map (Reader.new E)) = .ok ts ∧ ts.length = progs.length ∧
      ∀ (i : Nat) (prog : List (SharedOp Q)), progs[i]? = some prog →
        ∃ r, ts[i]? = some r ∧ (Reader.new E prog).alone (turns.count i) = .ok r) ∨
    (runThreads turns (progs.map (Reader.new E)) = .ub ∧
      ∃ (i : Nat) (prog : List (SharedOp Q)), progs[i]? = some prog ∧
        (Reader.new E prog).alone (turns.count i) = .ub) := by
  obtain ⟨h1, h2, h3⟩ := runThreads_alone turns (progs.map (Reader.new E))
  cases hr : runThreads turns (progs.map (Reader.new E)) with
  | panic => exact absurd hr h2
  | ok ts =>
    obtain ⟨hl, ht⟩ := h1 ts hr
    exact Or.inl ⟨ts, rfl, by simpa using hl, fun i prog hp => ht i _ (by simp [hp])⟩
  | ub =>
    obtain ⟨i, r, hi, hu⟩ := h3 hr
    rw [List.getElem?_map, Option.map_eq_some_iff] at hi
    obtain ⟨prog, hp, rfl⟩ := hi
    exact Or.inr ⟨rfl, i, prog, hp, hu⟩

/-- Any map whose lookups may panic but are never undefined behaviour: no interleaving is, and a panic
gets out of no thread. -/
theorem C89_safe_map (E : Engine K V Q) (hb : ∀ q, E.begin q ≠ .ub) (hs : ∀ s, E.step s ≠ .ub)
    (progs : List (List (SharedOp Q))) (turns : List Nat) :
    ∃ ts, runThreads turns (progs.map (Reader.new E)) = .ok ts ∧ ts.length = progs.length ∧
      ∀ (i : Nat) (prog : List (SharedOp Q)), progs[i]? = some prog →
        ∃ r, ts[i]? = some r ∧ (Reader.new E prog).alone (turns.count i) = .ok r := by
  rcases C89_any_map E progs turns with h | ⟨_, i, prog, _, h⟩
  · exact h
  · exact absurd h (Reader.alone_ne_ub hb hs _ _)

theorem C89_scanning_map (P : Probe K Q) (heq : LawfulEq P.eq) (payload : List (K × V))
    (hd : DistinctProbes P.eq P.borrow payload) :
    SharesRefine (scanningApi P) (·.engine P) P.eq P.borrow (ScanningMap.fromVec payload) payload :=
  (C49_scanning_map P heq payload hd).shares (scanning_reads P)

theorem C89_common_map [Target] (env : Env) (S : IdxTy) (P : Probe K Q) (heq : LawfulEq P.eq)
    (enc : K → List HCall) (henc : ∀ k q, P.eq q (P.borrow k) = true → P.enc q = enc k)
    (payload : List (K × V)) (hd : DistinctProbes P.eq P.borrow payload) (bh : Hasher)
    (m : CommonMap K V) (hm : CommonMap.fromVecWithHasher env S enc payload bh = .ok m)
    (h32 : payload.length < 2 ^ 32) :
    SharesRefine (commonApi P) (·.engine P) P.eq P.borrow m payload :=
  (C49_common_map env S P heq enc henc payload hd bh m hm h32).shares (common_reads P)

theorem C89_integer_map [Target] (env : Env) (S : IdxTy) (payload : List (Int × V))
    (hd : (payload.map (·.1)).Nodup) (m : IntegerMap V)
    (hm : IntegerMap.fromVec env S payload = .ok m) (h32 : payload.length < 2 ^ 32) :
    SharesRefine integerApi (·.engine) (fun a b => decide (a = b)) id m payload :=
  (C49_integer_map env S payload hd m hm h32).shares integer_reads

theorem C89_length_map [Target] (env : Env) (S : IdxTy) (borrow : K → Q) (eq : Q → Q → Bool)
    (heq : LawfulEq eq) (lenK : K → Nat) (lenQ : Q → Nat)
    (hlen : ∀ k q, eq q (borrow k) = true → lenQ q = lenK k) (payload : List (K × V))
    (hd : DistinctProbes eq borrow payload) (m : LengthMap K V)
    (hm : LengthMap.fromVec env S lenK payload = .ok m) (h32 : payload.length < 2 ^ 32) :
    SharesRefine (lengthApi borrow eq lenQ) (·.engine borrow eq lenQ) eq borrow m payload :=
  (C49_length_map env S borrow eq heq lenK lenQ hlen payload hd m hm h32).shares (length_reads borrow eq lenQ)

theorem C89_left_slice_map [Target] (env : Env) (S : IdxTy) (payload : List (Bytes × V))
    (hd : (payload.map (·.1)).Nodup) (a b : Nat) (hab : payload = [] → a ≤ b) (bh : Hasher) (m : LeftSliceMap V)
    (hm : LeftSliceMap.fromVecWithHasher env S payload a b bh = .ok m)
    (h32 : payload.length < 2 ^ 32) :
    SharesRefine leftApi (·.engine) (fun a b => decide (a = b)) id m payload :=
  (C49_left_slice_map env S payload hd a b hab bh m hm h32).shares left_reads

theorem C89_right_slice_map [Target] (env : Env) (S : IdxTy) (payload : List (Bytes × V))
    (hd : (payload.map (·.1)).Nodup) (a b : Nat) (hne : payload = [] → b ≤ a) (ha : a < usz)
    (hb : b < usz) (bh : Hasher) (m : RightSliceMap V)
    (hm : RightSliceMap.fromVecWithHasher env S payload a b bh = .ok m)
    (h32 : payload.length < 2 ^ 32) (oc : Bool) :
    SharesRefine (rightApi oc) (·.engine oc) (fun a b => decide (a = b)) id m payload :=
  (C49_right_slice_map env S payload hd a b hne ha hb bh m hm h32 oc).shares (right_reads oc)

theorem C89_range_map [Target] (oc oc' : Bool) (t : IntTy) (hb : 0 < t.bits)
    (payload : List (Int × V)) (hne : payload ≠ []) (hr : ∀ e ∈ payload, t.InRange e.1)
    (hd : (payload.map (·.1)).Nodup) (m : IntegerRangeMap V)
    (hm : IntegerRangeMap.fromVec oc t payload = .ok m) :
    SharesRefine (rangeApi oc' t) (·.engine oc' t) (fun a b => decide (a = b)) id m payload :=
  (C49_range_map oc oc' t hb payload hne hr hd m hm).shares (range_reads oc' t)

theorem C89_frozen_map [Target] (env env' : Env) (ty : KeyTy K) (hty : LawfulKey ty)
    (payload : List (K × V)) (hcap : payload.length < 2 ^ 32) (hd : DistinctKeys ty.eq payload)
    (bh : Hasher) (m : FrozenMap K V) (hm : FrozenMap.new env ty payload bh = .ok m) :
    SharesRefine (frozenApi env' ty) (·.engine env' ty) ty.eq id m payload :=
  (C50_frozen_map env env' ty hty payload hcap hd bh m hm).shares (frozen_reads env' ty)

/-! ### Instances -/

/-- Four threads: hits and misses, an iteration, nothing at all, and indexing with an absent key. -/
def exReaders : List (List (SharedOp Int)) :=
  [[.look .get 5, .look .containsKey 6, .iter], [.iter, .len, .look .getKeyValue 70], [],
    [.look .index 70, .look .index 6, .len]]

/-- They take turns, all out of step; the last number is no thread's. -/
def exTurns : List Nat := [1, 0, 3, 0, 3, 1, 3, 3, 3, 3, 2, 0, 1, 1, 0, 1, 0, 1, 0, 1, 0, 0, 1, 0, 1, 0, 1, 0, 1, 7]

/-- Each thread gets all its answers, but for the one that indexes with an absent key, which panics there. -/
example : (do
    let m ← IntegerMap.fromVec checkedEnv IdxTy.u8 exOther
    let ts ← runThreads exTurns (exReaders.map (Reader.new m.engine))
    return ts.map (fun r => (r.panicked, r.outs)) : Res (List (Bool × List (Out Int Nat)))) =
  .ok [(false, [.value (some 2), .bool false, .items [(-8, 4), (70, 3), (5, 2), (-3, 1), (1000, 5)]]),
    (false, [.items [(-8, 4), (70, 3), (5, 2), (-3, 1), (1000, 5)], .number 5, .entry (some (70, 3))]), (false, []),
    (true, [.value (some 3)])] := by
  decide +kernel

/-- A lookup of 0 in an empty range map panics, and ends its own thread only. -/
example : (do
    let m ← IntegerRangeMap.fromVec true IntTy.i8 ([] : List (Int × Nat))
    let ts ← runThreads [0, 1, 1, 0, 1, 1]
      ([[SharedOp.look .get 0, .len], [.len, .iter]].map (Reader.new (m.engine true IntTy.i8)))
    return ts.map (fun r => (r.panicked, r.outs)) : Res (List (Bool × List (Out Int Nat)))) =
  .ok [(true, []), (false, [.number 0, .items []])] := by decide +kernel

/-- A history of writes before the map is shared. -/
example : ∃ m', integerApi.run exInteger [.getMut 5 9, .getMut 6 1] = .ok ([.value (some 2), .value none], m') ∧
    ReadersUndisturbed m'.engine (fun a b => decide (a = b)) id
      [(-3, 1), (5, 9), (70, 3), (-8, 4), (1000, 5)] := by
  obtain ⟨outs', m', h1, h2, h3⟩ := C89_integer_map checkedEnv IdxTy.u8 exOther exOther_nodup exInteger
    exInteger_ok (by decide) [.getMut 5 9, .getMut 6 1] [.value (some 2), .value none]
    [(-3, 1), (5, 9), (70, 3), (-8, 4), (1000, 5)] (by decide +kernel)
  refine ⟨m', ?_, h3⟩
  rw [h1]
  cases h2 with
  | cons a h2 =>
    cases h2 with
    | cons b h2 =>
      cases h2
      simp only [Out.Agree] at a b
      rw [← a, ← b]

example := C89_any_map exInteger.engine exReaders exTurns

/-- The empty range map, whose lookups panic. -/
example : ∃ m, IntegerRangeMap.fromVec true IntTy.i8 ([] : List (Int × Nat)) = .ok m ∧
    ∀ (progs : List (List (SharedOp Int))) (turns : List Nat), ∃ ts, runThreads turns (progs.map (Reader.new (m.engine true IntTy.i8))) = .ok ts := by
  obtain ⟨m, hm⟩ := Res.of_isOk (r := IntegerRangeMap.fromVec true IntTy.i8 ([] : List (Int × Nat)))
    (by decide +kernel)
  refine ⟨m, hm, fun progs turns => ?_⟩
  obtain ⟨ts, h, _⟩ := C89_safe_map (m.engine true IntTy.i8) (IntegerRangeMap.begin_ne_ub _ _ _)
    (IntegerRangeMap.step_ne_ub _ _ _) progs turns
  exact ⟨ts, h⟩

example := C89_scanning_map otherTy.probe otherTy_lawful.eq exOther exOther_distinct

example := C89_common_map checkedEnv IdxTy.u8 otherTy.probe otherTy_lawful.eq otherTy.enc
  exOther_enc exOther exOther_distinct demoHasher exCommon exCommon_ok (by decide)

example := C89_integer_map checkedEnv IdxTy.u8 exOther exOther_nodup exInteger exInteger_ok
  (by decide)

example := C89_length_map checkedEnv IdxTy.u8 id _ lawfulEq_decide List.length List.length
  exBytes_len exBytes exBytes_distinct exLengths exLengths_ok (by decide)

example := C89_left_slice_map checkedEnv IdxTy.u8 exBytes exBytes_nodup 1 2 (by decide)
  demoHasher exLeftSlice exLeftSlice_ok (by decide)

example := C89_right_slice_map checkedEnv IdxTy.u8 exBytes exBytes_nodup 2 1 (by decide)
  (by decide) (by decide) demoHasher _
  (Res.built (r := RightSliceMap.fromVecWithHasher checkedEnv IdxTy.u8 exBytes 2 1 demoHasher)
    (by decide +kernel)) (by decide) true

example := C89_range_map true false IntTy.i8 (by decide) exInts (by decide) exInts_inRange
  exInts_nodup exIntRange exIntRange_ok

example : ∃ m, FrozenMap.new checkedEnv u32Ty exRange demoHasher = .ok m ∧
    SharesRefine (frozenApi releaseEnv u32Ty) (·.engine releaseEnv u32Ty) u32Ty.eq id m exRange := by
  obtain ⟨m, hm⟩ := Res.of_isOk (r := FrozenMap.new checkedEnv u32Ty exRange demoHasher)
    (by decide +kernel)
  exact ⟨m, hm, C89_frozen_map checkedEnv releaseEnv u32Ty u32Ty_lawful exRange (by decide)
    exRange_distinct demoHasher m hm⟩

end FC
