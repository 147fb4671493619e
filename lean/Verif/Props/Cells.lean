import Verif.Lemmas.Cells
import Verif.Props.Threads

/-
C96: a shared map of atomics, mutexes or other values that change through `&`.
-/

set_option autoImplicit false

namespace FC
variable {K V Q : Type}

theorem zipIdx_distinct {eq : Q → Q → Bool} {borrow : K → Q} {keys : List K}
    (hd : keys.Pairwise (fun a b => eq (borrow a) (borrow b) = false)) :
    DistinctProbes eq borrow keys.zipIdx := by
  rw [← List.zipIdx_map_fst 0 keys] at hd
  exact List.pairwise_map.1 hd

theorem zipIdx_nodup {keys : List K} (hd : keys.Nodup) : (keys.zipIdx.map (·.1)).Nodup := by
  have := List.zipIdx_map_fst 0 keys
  rw [this]
  exact hd

theorem decide_pairwise {K : Type} [DecidableEq K] {keys : List K} (hd : keys.Nodup) :
    DistinctProbes (fun a b => decide (a = b)) id keys.zipIdx :=
  zipIdx_distinct (hd.imp (fun h => by simpa using h))

theorem C96_scanning_map (P : Probe K Q) (heq : LawfulEq P.eq) (keys : List K)
    (hd : keys.Pairwise (fun a b => P.eq (P.borrow a) (P.borrow b) = false)) :
    SharesCells (·.engine P) P.eq P.borrow (ScanningMap.fromVec keys.zipIdx) keys :=
  (C49_scanning_map P heq _ (zipIdx_distinct hd)).sharesCells heq (zipIdx_distinct hd) (scanning_reads P)

theorem C96_common_map [Target] (env : Env) (S : IdxTy) (P : Probe K Q) (heq : LawfulEq P.eq)
    (enc : K → List HCall) (henc : ∀ k q, P.eq q (P.borrow k) = true → P.enc q = enc k)
    (keys : List K) (hd : keys.Pairwise (fun a b => P.eq (P.borrow a) (P.borrow b) = false)) (bh : Hasher)
    (m : CommonMap K Nat) (hm : CommonMap.fromVecWithHasher env S enc keys.zipIdx bh = .ok m)
    (h32 : keys.length < 2 ^ 32) :
    SharesCells (·.engine P) P.eq P.borrow m keys :=
  (C49_common_map env S P heq enc henc _ (zipIdx_distinct hd) bh m hm (by simpa using h32)).sharesCells heq
    (zipIdx_distinct hd) (common_reads P)

theorem C96_integer_map [Target] (env : Env) (S : IdxTy) (keys : List Int) (hd : keys.Nodup)
    (m : IntegerMap Nat) (hm : IntegerMap.fromVec env S keys.zipIdx = .ok m) (h32 : keys.length < 2 ^ 32) :
    SharesCells (·.engine) (fun a b => decide (a = b)) id m keys :=
  (C49_integer_map env S _ (zipIdx_nodup hd) m hm (by simpa using h32)).sharesCells lawfulEq_decide
    (decide_pairwise hd) integer_reads

theorem C96_length_map [Target] (env : Env) (S : IdxTy) (borrow : K → Q) (eq : Q → Q → Bool)
    (heq : LawfulEq eq) (lenK : K → Nat) (lenQ : Q → Nat)
    (hlen : ∀ k q, eq q (borrow k) = true → lenQ q = lenK k) (keys : List K)
    (hd : keys.Pairwise (fun a b => eq (borrow a) (borrow b) = false)) (m : LengthMap K Nat)
    (hm : LengthMap.fromVec env S lenK keys.zipIdx = .ok m) (h32 : keys.length < 2 ^ 32) :
    SharesCells (·.engine borrow eq lenQ) eq borrow m keys :=
  (C49_length_map env S borrow eq heq lenK lenQ hlen _ (zipIdx_distinct hd) m hm
    (by simpa using h32)).sharesCells heq (zipIdx_distinct hd) (length_reads borrow eq lenQ)

theorem C96_left_slice_map [Target] (env : Env) (S : IdxTy) (keys : List Bytes) (hd : keys.Nodup)
    (a b : Nat) (hab : keys = [] → a ≤ b) (bh : Hasher) (m : LeftSliceMap Nat)
    (hm : LeftSliceMap.fromVecWithHasher env S keys.zipIdx a b bh = .ok m)
    (h32 : keys.length < 2 ^ 32) :
    SharesCells (·.engine) (fun a b => decide (a = b)) id m keys :=
  (C49_left_slice_map env S _ (zipIdx_nodup hd) a b (fun h => hab (by simpa using h)) bh m hm
    (by simpa using h32)).sharesCells lawfulEq_decide (decide_pairwise hd) left_reads

theorem C96_right_slice_map [Target] (env : Env) (S : IdxTy) (keys : List Bytes) (hd : keys.Nodup)
    (a b : Nat) (hne : keys = [] → b ≤ a) (ha : a < usz) (hb : b < usz) (bh : Hasher)
    (m : RightSliceMap Nat) (hm : RightSliceMap.fromVecWithHasher env S keys.zipIdx a b bh = .ok m)
    (h32 : keys.length < 2 ^ 32) (oc : Bool) :
    SharesCells (·.engine oc) (fun a b => decide (a = b)) id m keys :=
  (C49_right_slice_map env S _ (zipIdx_nodup hd) a b (fun h => hne (by simpa using h)) ha hb bh m hm
    (by simpa using h32) oc).sharesCells lawfulEq_decide (decide_pairwise hd) (right_reads oc)

theorem C96_range_map [Target] (oc oc' : Bool) (t : IntTy) (hb : 0 < t.bits) (keys : List Int)
    (hne : keys ≠ []) (hr : ∀ k ∈ keys, t.InRange k) (hd : keys.Nodup) (m : IntegerRangeMap Nat)
    (hm : IntegerRangeMap.fromVec oc t keys.zipIdx = .ok m) :
    SharesCells (·.engine oc' t) (fun a b => decide (a = b)) id m keys :=
  (C49_range_map oc oc' t hb _ (by simpa using hne) (fun e he => hr e.1 (by
    have := List.mem_map_of_mem (f := Prod.fst) he
    rwa [List.zipIdx_map_fst] at this)) (zipIdx_nodup hd) m hm).sharesCells
    lawfulEq_decide (decide_pairwise hd) (range_reads oc' t)

theorem C96_frozen_map [Target] (env env' : Env) (ty : KeyTy K) (hty : LawfulKey ty) (keys : List K)
    (hcap : keys.length < 2 ^ 32) (hd : keys.Pairwise (fun a b => ty.eq a b = false)) (bh : Hasher)
    (m : FrozenMap K Nat) (hm : FrozenMap.new env ty keys.zipIdx bh = .ok m) :
    SharesCells (·.engine env' ty) ty.eq id m keys :=
  (C50_frozen_map env env' ty hty _ (by simpa using hcap) (zipIdx_distinct (borrow := id) hd) bh m
    hm).sharesCells hty.eq (zipIdx_distinct (borrow := id) hd) (frozen_reads env' ty)

/-- Counters in any of these maps lose nothing of what is added to them. -/
theorem C96_counters {M : Type} (engine : M → Engine K Nat Q) (eq : Q → Q → Bool) (heq : LawfulEq eq)
    (borrow : K → Q) (m : M) (keys : List K)
    (hd : keys.Pairwise (fun a b => eq (borrow a) (borrow b) = false))
    (h : SharesCells engine eq borrow m keys) (payload : List (K × Int)) (hk : payload.map (·.1) = keys) :
    CountersRight (engine m) eq borrow payload := by
  subst hk
  exact (h Int payload rfl).counters heq (List.pairwise_map.1 hd)

theorem C96_frozen_counters [Target] (env env' : Env) (ty : KeyTy K) (hty : LawfulKey ty)
    (payload : List (K × Int)) (hcap : payload.length < 2 ^ 32) (hd : DistinctKeys ty.eq payload)
    (bh : Hasher) (m : FrozenMap K Nat) (hm : FrozenMap.new env ty (cellsOf payload) bh = .ok m) :
    CountersRight (m.engine env' ty) ty.eq id payload :=
  C96_counters (·.engine env' ty) ty.eq hty.eq id m _ (List.pairwise_map.2 hd)
    (C96_frozen_map env env' ty hty _ (by simpa using hcap) (List.pairwise_map.2 hd) bh m hm) payload rfl

/-! ### Instances -/

/-- Five counters. -/
def exCounters : List (Int × Int) := [(-3, 100), (5, 200), (70, 300), (-8, 400), (1000, 500)]

/-- Two threads add up; a third reads all counters, and one indexes with an absent key. -/
def exPlans : List (List (CellAns Int) → Option (CellOp Int Int Int)) :=
  [adding [(5, 1), (6, 1), (5, 2)], adding [(5, 10), (70, 20)],
   fun outs => if outs.length < 2 then some (.each (fun x => (x, x))) else none,
   fun _ => some (.use true 6 (fun x => (0, x)))]

set_option synthInstance.maxSize 1000 in
/-- They take turns, out of step. -/
example : (do
    let m ← IntegerMap.fromVec checkedEnv IdxTy.u8 (cellsOf exCounters)
    let r ← runWorkers [2, 0, 1, 2, 0, 1, 2, 3, 1, 0, 3, 3, 0, 2, 2, 2, 2, 2, 2, 2, 2, 2, 2, 0, 0, 1, 2, 1, 0, 2, 1, 0, 0, 2, 0, 0, 0, 0, 2, 2, 2, 2, 2, 2, 2, 2, 2, 2]
      (exPlans.map (Worker.new m.engine)) (exCounters.map (·.2))
    return (r.1.map (fun w => (w.panicked, w.outs)), r.2) : Res (List (Bool × List (CellAns Int)) × List Int)) =
  .ok ([(false, [.one (some 210), .one none, .one (some 211)]), (false, [.one (some 200), .one (some 300)]),
    (false, [.all [400, 300, 211, 100, 500], .all [400, 320, 213, 100, 500]]), (true, [])],
    [100, 213, 320, 400, 500]) := by
  decide +kernel

/-- A thread that adds one in two accesses, a load and a store. -/
def exLosing : List (CellAns Int) → Option (CellOp Int Int Int)
  | [] => some (.use false 5 (fun x => (x, x)))
  | [.one (some x)] => some (.use false 5 (fun _ => (x + 1, 0)))
  | _ => none

set_option synthInstance.maxSize 1000 in
/-- Two of these can lose a count; so the order of accesses does matter. -/
example : (do
    let m ← IntegerMap.fromVec checkedEnv IdxTy.u8 (cellsOf exCounters)
    let r ← runWorkers [0, 1, 0, 1, 0, 1, 0, 1, 0, 1, 0, 1, 0, 1, 0, 1]
      ([exLosing, exLosing].map (Worker.new m.engine)) (exCounters.map (·.2))
    return (r.1.map (fun w => (w.panicked, w.outs)), r.2) : Res (List (Bool × List (CellAns Int)) × List Int)) =
  .ok ([(false, [.one (some 200), .one (some 0)]), (false, [.one (some 200), .one (some 0)])],
    [100, 201, 300, 400, 500]) := by
  decide +kernel

example := C96_scanning_map otherTy.probe otherTy_lawful.eq (exCounters.map (·.1)) (by decide +kernel)

example : ∃ m, CommonMap.fromVecWithHasher checkedEnv IdxTy.u8 otherTy.enc (exCounters.map (·.1)).zipIdx demoHasher = .ok m ∧
    SharesCells (·.engine otherTy.probe) otherTy.probe.eq otherTy.probe.borrow m (exCounters.map (·.1)) := by
  obtain ⟨m, hm⟩ := Res.of_isOk (r := CommonMap.fromVecWithHasher checkedEnv IdxTy.u8 otherTy.enc (exCounters.map (·.1)).zipIdx demoHasher) (by decide +kernel)
  exact ⟨m, hm, C96_common_map checkedEnv IdxTy.u8 otherTy.probe otherTy_lawful.eq otherTy.enc
    exOther_enc _ (by decide +kernel) demoHasher m hm (by decide)⟩

example : ∃ m, IntegerMap.fromVec checkedEnv IdxTy.u8 (exCounters.map (·.1)).zipIdx = .ok m ∧
    SharesCells (·.engine) (fun a b => decide (a = b)) id m (exCounters.map (·.1)) := by
  obtain ⟨m, hm⟩ := Res.of_isOk (r := IntegerMap.fromVec checkedEnv IdxTy.u8 (exCounters.map (·.1)).zipIdx) (by decide +kernel)
  exact ⟨m, hm, C96_integer_map checkedEnv IdxTy.u8 _ (by decide +kernel) m hm (by decide)⟩

example : ∃ m, LengthMap.fromVec checkedEnv IdxTy.u8 List.length (exBytes.map (·.1)).zipIdx = .ok m ∧
    SharesCells (·.engine id (fun a b => decide (a = b)) List.length) (fun a b => decide (a = b)) id m (exBytes.map (·.1)) := by
  obtain ⟨m, hm⟩ := Res.of_isOk (r := LengthMap.fromVec checkedEnv IdxTy.u8 List.length (exBytes.map (·.1)).zipIdx) (by decide +kernel)
  exact ⟨m, hm, C96_length_map checkedEnv IdxTy.u8 id _ lawfulEq_decide List.length List.length
    exBytes_len _ (by decide +kernel) m hm (by decide)⟩

example : ∃ m, LeftSliceMap.fromVecWithHasher checkedEnv IdxTy.u8 (exBytes.map (·.1)).zipIdx 1 2 demoHasher = .ok m ∧
    SharesCells (·.engine) (fun a b => decide (a = b)) id m (exBytes.map (·.1)) := by
  obtain ⟨m, hm⟩ := Res.of_isOk (r := LeftSliceMap.fromVecWithHasher checkedEnv IdxTy.u8 (exBytes.map (·.1)).zipIdx 1 2 demoHasher) (by decide +kernel)
  exact ⟨m, hm, C96_left_slice_map checkedEnv IdxTy.u8 _ exBytes_nodup 1 2 (by decide) demoHasher m hm (by decide)⟩

example : ∃ m, RightSliceMap.fromVecWithHasher checkedEnv IdxTy.u8 (exBytes.map (·.1)).zipIdx 2 1 demoHasher = .ok m ∧
    SharesCells (·.engine true) (fun a b => decide (a = b)) id m (exBytes.map (·.1)) := by
  obtain ⟨m, hm⟩ := Res.of_isOk (r := RightSliceMap.fromVecWithHasher checkedEnv IdxTy.u8 (exBytes.map (·.1)).zipIdx 2 1 demoHasher) (by decide +kernel)
  exact ⟨m, hm, C96_right_slice_map checkedEnv IdxTy.u8 _ exBytes_nodup 2 1 (by decide) (by decide) (by decide)
    demoHasher m hm (by decide) true⟩

example := C96_range_map true false IntTy.i8 (by decide) [3, 4, -1, 0, 1, 2] (by decide) (by decide +kernel)
  (by decide) _
  (Res.built (r := IntegerRangeMap.fromVec true IntTy.i8 ([3, 4, -1, 0, 1, 2] : List Int).zipIdx) (by decide +kernel))

/-- `exRange` with counters for values. -/
def exRangeCounters : List (UInt32 × Int) := exRange.map (fun e => (e.1, 7))

example : ∃ m, FrozenMap.new checkedEnv u32Ty (cellsOf exRangeCounters) demoHasher = .ok m ∧
    CountersRight (m.engine releaseEnv u32Ty) u32Ty.eq id exRangeCounters := by
  obtain ⟨m, hm⟩ := Res.of_isOk (r := FrozenMap.new checkedEnv u32Ty (cellsOf exRangeCounters) demoHasher)
    (by decide +kernel)
  have h1 : exRangeCounters.length < 2 ^ 32 := by decide
  have h2 : DistinctKeys u32Ty.eq exRangeCounters := by unfold DistinctKeys; decide +kernel
  exact ⟨m, hm, C96_frozen_counters checkedEnv releaseEnv u32Ty u32Ty_lawful exRangeCounters h1 h2 demoHasher m hm⟩

/-- The keys of `exRange`. -/
def exCellKeys : List UInt32 := [12, 10, 13, 11, 14]

example : ∃ m, FrozenMap.new checkedEnv u32Ty exCellKeys.zipIdx demoHasher = .ok m ∧
    SharesCells (·.engine releaseEnv u32Ty) u32Ty.eq id m exCellKeys := by
  obtain ⟨m, hm⟩ := Res.of_isOk (r := FrozenMap.new checkedEnv u32Ty exCellKeys.zipIdx demoHasher)
    (by decide +kernel)
  have h1 : exCellKeys.length < 2 ^ 32 := by decide
  have h2 : exCellKeys.Pairwise (fun a b => u32Ty.eq a b = false) := by decide +kernel
  have := C96_frozen_map checkedEnv releaseEnv u32Ty u32Ty_lawful exCellKeys h1 h2 demoHasher m hm
  exact ⟨m, hm, this⟩

end FC
