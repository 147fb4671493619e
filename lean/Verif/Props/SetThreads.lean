import Verif.Lemmas.SetThreads
import Verif.Props.Threads

/-
C89 for sets: threads that share a set do not disturb each other.
-/

set_option autoImplicit false

namespace FC
variable {T Q : Type}

theorem C89_scanning_set (P : Probe T Q) (heq : LawfulEq P.eq) (payload : List T)
    (hd : Distinct (fun a b => P.eq (P.borrow a) (P.borrow b)) payload) :
    SetReadersUndisturbed ((ScanningSet.fromVec payload).engine P) P.eq P.borrow payload :=
  (C89_scanning_map P heq _ (distinctKeys_unit.2 hd)).now.set

theorem C89_common_set [Target] (env : Env) (S : IdxTy) (P : Probe T Q) (heq : LawfulEq P.eq)
    (enc : T → List HCall) (henc : ∀ k q, P.eq q (P.borrow k) = true → P.enc q = enc k)
    (payload : List T) (hd : Distinct (fun a b => P.eq (P.borrow a) (P.borrow b)) payload) (bh : Hasher)
    (s : CommonSet T) (hs : CommonSet.fromVecWithHasher env S enc payload bh = .ok s)
    (h32 : payload.length < 2 ^ 32) : SetReadersUndisturbed (s.engine P) P.eq P.borrow payload := by
  simp only [CommonSet.fromVecWithHasher, Res.bind_eq_ok, Res.pure_eq, Res.ok.injEq] at hs
  obtain ⟨m, hm, rfl⟩ := hs
  exact (C89_common_map env S P heq enc henc _ (distinctKeys_unit.2 hd) bh m hm
    (by rwa [unitPayload_length])).now.set

theorem C89_integer_set [Target] (env : Env) (S : IdxTy) (payload : List Int) (hd : payload.Nodup)
    (s : IntegerSet) (hs : IntegerSet.fromVec env S payload = .ok s) (h32 : payload.length < 2 ^ 32) :
    SetReadersUndisturbed s.engine (fun a b => decide (a = b)) id payload := by
  simp only [IntegerSet.fromVec, Res.bind_eq_ok, Res.pure_eq, Res.ok.injEq] at hs
  obtain ⟨m, hm, rfl⟩ := hs
  exact (C89_integer_map env S _ (by rwa [unitPayload_keys]) m hm (by rwa [unitPayload_length])).now.set

theorem C89_length_set [Target] (env : Env) (S : IdxTy) (borrow : T → Q) (eq : Q → Q → Bool)
    (heq : LawfulEq eq) (lenT : T → Nat) (lenQ : Q → Nat)
    (hlen : ∀ k q, eq q (borrow k) = true → lenQ q = lenT k) (payload : List T)
    (hd : Distinct (fun a b => eq (borrow a) (borrow b)) payload) (s : LengthSet T)
    (hs : LengthSet.fromVec env S lenT payload = .ok s) (h32 : payload.length < 2 ^ 32) :
    SetReadersUndisturbed (s.engine borrow eq lenQ) eq borrow payload := by
  simp only [LengthSet.fromVec, Res.bind_eq_ok, Res.pure_eq, Res.ok.injEq] at hs
  obtain ⟨m, hm, rfl⟩ := hs
  exact (C89_length_map env S borrow eq heq lenT lenQ hlen _ (distinctKeys_unit.2 hd) m hm
    (by rwa [unitPayload_length])).now.set

theorem C89_left_slice_set [Target] (env : Env) (S : IdxTy) (payload : List Bytes) (hd : payload.Nodup)
    (a b : Nat) (hab : payload = [] → a ≤ b) (bh : Hasher) (s : LeftSliceSet)
    (hs : LeftSliceSet.fromVecWithHasher env S payload a b bh = .ok s) (h32 : payload.length < 2 ^ 32) :
    SetReadersUndisturbed s.engine (fun a b => decide (a = b)) id payload := by
  simp only [LeftSliceSet.fromVecWithHasher, Res.bind_eq_ok, Res.pure_eq, Res.ok.injEq] at hs
  obtain ⟨m, hm, rfl⟩ := hs
  exact (C89_left_slice_map env S _ (by rwa [unitPayload_keys]) a b
    (fun h => hab (by simpa [unitPayload] using h)) bh m hm (by rwa [unitPayload_length])).now.set

theorem C89_right_slice_set [Target] (env : Env) (S : IdxTy) (payload : List Bytes) (hd : payload.Nodup)
    (a b : Nat) (hne : payload = [] → b ≤ a) (ha : a < usz) (hb : b < usz) (bh : Hasher)
    (s : RightSliceSet) (hs : RightSliceSet.fromVecWithHasher env S payload a b bh = .ok s)
    (h32 : payload.length < 2 ^ 32) (oc : Bool) :
    SetReadersUndisturbed (s.engine oc) (fun a b => decide (a = b)) id payload := by
  simp only [RightSliceSet.fromVecWithHasher, Res.bind_eq_ok, Res.pure_eq, Res.ok.injEq] at hs
  obtain ⟨m, hm, rfl⟩ := hs
  exact (C89_right_slice_map env S _ (by rwa [unitPayload_keys]) a b
    (fun h => hne (by simpa [unitPayload] using h)) ha hb bh m hm (by rwa [unitPayload_length]) oc).now.set

theorem C89_range_set [Target] (oc oc' : Bool) (t : IntTy) (hb : 0 < t.bits) (payload : List Int)
    (hne : payload ≠ []) (hr : ∀ x ∈ payload, t.InRange x) (hd : payload.Nodup) (s : IntegerRangeSet)
    (hs : IntegerRangeSet.fromVec oc t payload = .ok s) :
    SetReadersUndisturbed (s.engine oc' t) (fun a b => decide (a = b)) id payload := by
  simp only [IntegerRangeSet.fromVec, Res.bind_eq_ok, Res.pure_eq, Res.ok.injEq] at hs
  obtain ⟨m, hm, rfl⟩ := hs
  exact (C89_range_map oc oc' t hb _ (by simpa [unitPayload] using hne)
    (by simpa [unitPayload] using hr) (by rwa [unitPayload_keys]) m hm).now.set

theorem C89_frozen_set [Target] (env env' : Env) (ty : KeyTy T) (hty : LawfulKey ty) (payload : List T)
    (hcap : payload.length < 2 ^ 32) (hd : Distinct ty.eq payload) (bh : Hasher) (s : FrozenSet T)
    (hs : FrozenSet.new env ty payload bh = .ok s) :
    SetReadersUndisturbed (s.engine env' ty) ty.eq id payload := by
  rw [FrozenSet.engine_toMap]
  exact (C89_frozen_map env env' ty hty _ (by rwa [unitPayload_length]) (distinctKeys_unit.2 hd) bh _
    (FrozenSet.new_ok hs)).now.set

/-! ### Instances -/

/-- Three threads: lookups that hit and miss, an iteration, nothing at all. -/
def exSetReaders : List (List (SharedSetOp UInt32)) :=
  [[.get 5, .contains 6, .iter], [.iter, .len, .contains 9], []]

/-- Each thread gets its answers. -/
example : (do
    let s ← FrozenSet.new checkedEnv u32Ty [9, 5, 700, 1000] demoHasher
    let progs := exSetReaders
    let ts ← runThreads exTurns (progs.map (fun p => Reader.new (s.engine checkedEnv u32Ty)
      (p.map SharedSetOp.inner)))
    return List.zipWith (fun p r => r.setAnswers p) progs ts : Res (List (List (Option (SetAnswer UInt32))))) =
  .ok [[some (.item (some 5)), some (.bool false), some (.items [1000, 5, 9, 700])],
    [some (.items [1000, 5, 9, 700]), some (.number 4), some (.bool true)], []] := by decide +kernel

example := C89_scanning_set otherTy.probe otherTy_lawful.eq [-3, 5, 70] (by unfold Distinct; decide +kernel)

example := C89_common_set checkedEnv IdxTy.u8 otherTy.probe otherTy_lawful.eq otherTy.enc
  exOther_enc [-3, 5, 70, -8] (by unfold Distinct; decide +kernel) demoHasher _
  (Res.built (r := CommonSet.fromVecWithHasher checkedEnv IdxTy.u8 otherTy.enc [-3, 5, 70, -8] demoHasher)
    (by decide +kernel)) (by decide)

example := C89_integer_set checkedEnv IdxTy.u8 [-3, 5, 70, -8] (by decide) _
  (Res.built (r := IntegerSet.fromVec checkedEnv IdxTy.u8 [-3, 5, 70, -8]) (by decide +kernel)) (by decide)

example : ∃ s, LengthSet.fromVec checkedEnv IdxTy.u8 List.length (exBytes.map (·.1)) = .ok s ∧
    SetReadersUndisturbed (s.engine id (fun a b : Bytes => decide (a = b)) List.length)
      (fun a b => decide (a = b)) id (exBytes.map (·.1)) := by
  obtain ⟨s, hs⟩ := Res.of_isOk (r := LengthSet.fromVec checkedEnv IdxTy.u8 List.length (exBytes.map (·.1)))
    (by decide +kernel)
  exact ⟨s, hs, C89_length_set checkedEnv IdxTy.u8 id _ lawfulEq_decide List.length List.length
    exBytes_len _ (by unfold Distinct; decide +kernel) s hs (by decide)⟩

example := C89_left_slice_set checkedEnv IdxTy.u8 (exBytes.map (·.1)) exBytes_nodup 1 2 (by decide) demoHasher _
  (Res.built (r := LeftSliceSet.fromVecWithHasher checkedEnv IdxTy.u8 (exBytes.map (·.1)) 1 2 demoHasher)
    (by decide +kernel)) (by decide)

example := C89_right_slice_set checkedEnv IdxTy.u8 (exBytes.map (·.1)) exBytes_nodup 2 1 (by decide)
  (by decide) (by decide) demoHasher _
  (Res.built (r := RightSliceSet.fromVecWithHasher checkedEnv IdxTy.u8 (exBytes.map (·.1)) 2 1 demoHasher)
    (by decide +kernel)) (by decide) true

example := C89_range_set true false IntTy.i8 (by decide) [2, -1, 1, 0] (by decide)
  (by decide) (by decide) _
  (Res.built (r := IntegerRangeSet.fromVec true IntTy.i8 [2, -1, 1, 0]) (by decide +kernel))

example := C89_frozen_set checkedEnv releaseEnv u32Ty u32Ty_lawful exSetKeys (by decide)
  (by unfold Distinct; decide +kernel) demoHasher _ exFrozenSet_ok

end FC
