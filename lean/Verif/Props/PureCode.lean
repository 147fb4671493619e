import Verif.Lemmas.SessionAgree
import Verif.Spec.PureCode
import Verif.Props.UserCode
import Verif.Spec.StringCode
import Verif.Props.History
import Verif.Examples

/-
C75: maps over key types whose code is pure.
-/

set_option autoImplicit false

namespace FC
variable {σ M K V Q : Type}

theorem C75_scanning_map [Target] (P : Probe K Q) (hP : LawfulEq P.eq) (payload : List (K × V))
    (hash : K → Call σ Nat) (hash' : Q → Call σ Nat) (ops : List (MapOp V Q)) :
    LeavesAlone
      (UMap.session (commonCode hash hash' (fun q k => pure (P.eq q (P.borrow k)))
        (fun a b => pure (P.eq a b))) (pure (.scanning payload)) ops)
      ((scanningApi P).session (.ok ⟨payload⟩) ops) := by
  refine Purely.session (borrow := P.borrow)
    (R := fun (m : ScanningMap K V) um => um = .scanning m.entries) ?_ hP ?_ ops
  · refine ⟨fun _ _ => rfl, fun _ _ => rfl, ?_, ?_, fun _ _ => rfl, fun _ _ => rfl, fun _ _ => rfl,
      fun _ _ => rfl, fun _ _ => rfl, ?_, ?_, ?_, ?_, ?_⟩
    · rintro m _ rfl q s
      exact UMap.scan_pure (fun _ _ => rfl) q m.entries s 0
    · rintro m _ rfl q; rfl
    · rintro m _ rfl; rfl
    · rintro m _ rfl; rfl
    · rintro m _ rfl; rfl
    · rintro m _ rfl; rfl
    · rintro m _ i v rfl; rfl
  · exact fun s => ⟨_, rfl, rfl⟩

example := C75_scanning_map (σ := Nat) otherTy.probe otherTy_lawful.eq exOther (fun _ => pure 0) (fun _ => pure 1)
  [.get 5, .getMut 70 7, .iter]

/-- `CommonMap`: hashing and comparing are pure. -/
theorem C75_common_map [Target] (env : Env) (S : IdxTy) (P : Probe K Q) (hP : LawfulEq P.eq)
    (encK : K → List HCall) (payload : List (K × V)) (bh : Hasher) (ops : List (MapOp V Q)) :
    let u : UserCode σ K Q := commonCode (fun k => pure (bh (encK k))) (fun q => pure (bh (P.enc q)))
      (fun q k => pure (P.eq q (P.borrow k))) (fun a b => pure (P.eq a b))
    LeavesAlone (UMap.session u (UMap.fromVec env S u payload) ops)
      ((commonApi P).session (CommonMap.fromVecWithHasher env S encK payload bh) ops) := by
  intro u
  refine Purely.session (borrow := P.borrow)
    (R := fun (m : CommonMap K V) um => um = .hashed m.table ∧ m.bh = bh) ?_ hP ?_ ops
  · refine ⟨fun _ _ => rfl, fun _ _ => rfl, ?_, ?_, fun _ _ => rfl, fun _ _ => rfl, fun _ _ => rfl,
      fun _ _ => rfl, fun _ _ => rfl, ?_, ?_, ?_, ?_, ?_⟩
    · rintro m _ ⟨rfl, rfl⟩ q s
      exact UMap.lookup_common m P encK q s
    · rintro m _ ⟨rfl, rfl⟩ q; exact CommonMap.get_eq_kv P m q
    · rintro m _ ⟨rfl, rfl⟩; rfl
    · rintro m _ ⟨rfl, rfl⟩; rfl
    · rintro m _ ⟨rfl, rfl⟩; rfl
    · rintro m _ ⟨rfl, rfl⟩; rfl
    · rintro m _ i v ⟨rfl, rfl⟩; exact ⟨rfl, rfl⟩
  · intro s
    rw [UMap.fromVec_common]
    cases hm : CommonMap.fromVecWithHasher env S encK payload bh with
    | panic => rfl
    | ub => rfl
    | ok m =>
      refine ⟨_, rfl, rfl, ?_⟩
      unfold CommonMap.fromVecWithHasher at hm
      simp only [Res.bind_eq_ok, Res.pure_eq, Res.ok.injEq] at hm
      obtain ⟨_, _, _, _, rfl⟩ := hm
      rfl

example := C75_common_map (σ := Nat) checkedEnv IdxTy.u8 otherTy.probe otherTy_lawful.eq otherTy.enc exOther
  demoHasher [.get 5, .getMut 70 7, .iter]

/-- `IntegerMap` over integers of its own: `as_` and `==` are pure. -/
theorem C75_integer_map [Target] (env : Env) (S : IdxTy) (payload : List (Int × V))
    (ops : List (MapOp V Int)) :
    let u : UserCode σ Int Int := lengthCode (fun k => pure (asU64 k)) (fun q => pure (asU64 q))
      (fun q k => pure (IntegerMap.ieq q k)) (fun a b => pure (IntegerMap.ieq a b))
    LeavesAlone (UMap.session u (UMap.fromVec env S u payload) ops)
      (integerApi.session (IntegerMap.fromVec env S payload) ops) := by
  intro u
  refine Purely.session (borrow := id) (eq := IntegerMap.ieq)
    (R := fun (m : IntegerMap V) um => um = .hashed m.table) ?_ ieq_lawful ?_ ops
  · refine ⟨fun _ _ => rfl, fun _ _ => rfl, ?_, ?_, fun _ _ => rfl, fun _ _ => rfl, fun _ _ => rfl,
      fun _ _ => rfl, fun _ _ => rfl, ?_, ?_, ?_, ?_, ?_⟩
    · rintro m _ rfl q s
      exact UMap.lookup_length ⟨m.table⟩ asU64 asU64 IntegerMap.ieq id q s
    · rintro m _ rfl q; exact IntegerMap.get_eq_kv m q
    · rintro m _ rfl; rfl
    · rintro m _ rfl; rfl
    · rintro m _ rfl; rfl
    · rintro m _ rfl; rfl
    · rintro m _ i v rfl; rfl
  · intro s
    rw [show UMap.fromVec env S u payload s = _ from
      UMap.fromVec_length env S asU64 asU64 IntegerMap.ieq id payload s]
    unfold LengthMap.fromVec IntegerMap.fromVec
    cases analyzeHashCodes (payload.map fun e => asU64 e.1) with
    | panic => rfl
    | ub => rfl
    | ok a =>
      simp only [Res.ok_bind]
      cases HashTable.new env S payload a.numHashSlots (fun k => .ok (asU64 k)) with
      | panic => rfl
      | ub => rfl
      | ok T => exact ⟨_, rfl, rfl⟩

/-- `LengthMap`: `len` and comparing are pure. -/
theorem C75_length_map [Target] (env : Env) (S : IdxTy) (lenK : K → Nat) (lenQ : Q → Nat)
    (eq : Q → Q → Bool) (heq : LawfulEq eq) (borrow : K → Q) (payload : List (K × V))
    (ops : List (MapOp V Q)) :
    let u : UserCode σ K Q := lengthCode (fun k => pure (lenK k)) (fun q => pure (lenQ q))
      (fun q k => pure (eq q (borrow k))) (fun a b => pure (eq a b))
    LeavesAlone (UMap.session u (UMap.fromVec env S u payload) ops)
      ((lengthApi borrow eq lenQ).session (LengthMap.fromVec env S lenK payload) ops) := by
  intro u
  refine Purely.session (borrow := borrow)
    (R := fun (m : LengthMap K V) um => um = .hashed m.table) ?_ heq ?_ ops
  · refine ⟨fun _ _ => rfl, fun _ _ => rfl, ?_, ?_, fun _ _ => rfl, fun _ _ => rfl, fun _ _ => rfl,
      fun _ _ => rfl, fun _ _ => rfl, ?_, ?_, ?_, ?_, ?_⟩
    · rintro m _ rfl q s
      exact UMap.lookup_length m lenK lenQ eq borrow q s
    · rintro m _ rfl q; exact LengthMap.get_eq_kv borrow eq lenQ m q
    · rintro m _ rfl; rfl
    · rintro m _ rfl; rfl
    · rintro m _ rfl; rfl
    · rintro m _ rfl; rfl
    · rintro m _ i v rfl; rfl
  · intro s
    rw [UMap.fromVec_length]
    cases hm : LengthMap.fromVec env S lenK payload with
    | panic => rfl
    | ub => rfl
    | ok m => exact ⟨_, rfl, rfl⟩

example := C75_length_map (σ := Nat) checkedEnv IdxTy.u8 List.length List.length _ lawfulEq_decide id exBytes
  [.get [120, 98], .iter]

/-- `LeftSliceMap` over strings; the hasher is pure. -/
theorem C75_left_slice_map [Target] (env : Env) (S : IdxTy) (bh : Hasher) (a b : Nat)
    (payload : List (Bytes × V)) (ops : List (MapOp V Bytes)) :
    let u : UserCode σ Bytes Bytes := leftCode a b (fun k => pure k.length)
      (fun k i j => Call.lift (sliceHash bh k i j)) (fun q => pure q.length)
      (fun q i j => Call.lift (sliceHash bh q i j)) (fun q k => pure (beq q k))
      (fun x y => pure (beq x y))
    LeavesAlone (UMap.session u (UMap.fromVec env S u payload) ops)
      (leftApi.session (LeftSliceMap.fromVecWithHasher env S payload a b bh) ops) := by
  intro u
  refine Purely.session (borrow := id) (eq := beq)
    (R := fun (m : LeftSliceMap V) um =>
      um = .hashed m.table ∧ m.bh = bh ∧ m.start = a ∧ m.stop = b) ?_ beq_lawful ?_ ops
  · refine ⟨fun _ _ => rfl, fun _ _ => rfl, ?_, ?_, fun _ _ => rfl, fun _ _ => rfl, fun _ _ => rfl,
      fun _ _ => rfl, fun _ _ => rfl, ?_, ?_, ?_, ?_, ?_⟩
    · rintro m _ ⟨rfl, rfl, rfl, rfl⟩ q s
      exact UMap.lookup_left m q s
    · rintro m _ ⟨rfl, rfl, rfl, rfl⟩ q; exact LeftSliceMap.get_eq_kv m q
    · rintro m _ ⟨rfl, rfl, rfl, rfl⟩; rfl
    · rintro m _ ⟨rfl, rfl, rfl, rfl⟩; rfl
    · rintro m _ ⟨rfl, rfl, rfl, rfl⟩; rfl
    · rintro m _ ⟨rfl, rfl, rfl, rfl⟩; rfl
    · rintro m _ i v ⟨rfl, rfl, rfl, rfl⟩; exact ⟨rfl, rfl, rfl, rfl⟩
  · intro s
    rw [UMap.fromVec_left]
    cases hm : LeftSliceMap.fromVecWithHasher env S payload a b bh with
    | panic => rfl
    | ub => rfl
    | ok m =>
      refine ⟨_, rfl, rfl, ?_⟩
      unfold LeftSliceMap.fromVecWithHasher at hm
      simp only [Res.bind_eq_ok, Res.pure_eq, Res.ok.injEq] at hm
      obtain ⟨_, _, _, _, _, _, rfl⟩ := hm
      exact ⟨rfl, rfl, rfl⟩

/-- `RightSliceMap` over strings; the hasher is pure. -/
theorem C75_right_slice_map [Target] (env : Env) (S : IdxTy) (bh : Hasher) (a b : Nat)
    (payload : List (Bytes × V)) (ops : List (MapOp V Bytes)) :
    let u : UserCode σ Bytes Bytes := rightCode env.oc a b (fun k => pure k.length)
      (fun k i j => Call.lift (sliceHash bh k i j)) (fun q => pure q.length)
      (fun q i j => Call.lift (sliceHash bh q i j)) (fun q k => pure (beq q k))
      (fun x y => pure (beq x y))
    LeavesAlone (UMap.session u (UMap.fromVec env S u payload) ops)
      ((rightApi env.oc).session (RightSliceMap.fromVecWithHasher env S payload a b bh) ops) := by
  intro u
  refine Purely.session (borrow := id) (eq := beq)
    (R := fun (m : RightSliceMap V) um =>
      um = .hashed m.table ∧ m.bh = bh ∧ m.start = a ∧ m.stop = b) ?_ beq_lawful ?_ ops
  · refine ⟨fun _ _ => rfl, fun _ _ => rfl, ?_, ?_, fun _ _ => rfl, fun _ _ => rfl, fun _ _ => rfl,
      fun _ _ => rfl, fun _ _ => rfl, ?_, ?_, ?_, ?_, ?_⟩
    · rintro m _ ⟨rfl, rfl, rfl, rfl⟩ q s
      exact UMap.lookup_right env.oc m q s
    · rintro m _ ⟨rfl, rfl, rfl, rfl⟩ q; exact RightSliceMap.get_eq_kv env.oc m q
    · rintro m _ ⟨rfl, rfl, rfl, rfl⟩; rfl
    · rintro m _ ⟨rfl, rfl, rfl, rfl⟩; rfl
    · rintro m _ ⟨rfl, rfl, rfl, rfl⟩; rfl
    · rintro m _ ⟨rfl, rfl, rfl, rfl⟩; rfl
    · rintro m _ i v ⟨rfl, rfl, rfl, rfl⟩; exact ⟨rfl, rfl, rfl, rfl⟩
  · intro s
    rw [UMap.fromVec_right]
    cases hm : RightSliceMap.fromVecWithHasher env S payload a b bh with
    | panic => rfl
    | ub => rfl
    | ok m =>
      refine ⟨_, rfl, rfl, ?_⟩
      unfold RightSliceMap.fromVecWithHasher at hm
      simp only [Res.bind_eq_ok, Res.pure_eq, Res.ok.injEq] at hm
      obtain ⟨_, _, _, _, _, _, rfl⟩ := hm
      exact ⟨rfl, rfl, rfl⟩

/-- `FrozenMap` over a key type that is neither `u32` nor `String`. -/
theorem C75_frozen_map [Target] (env : Env) (ty : KeyTy K) (hk : ty.kind = .other)
    (heq : LawfulEq ty.eq) (payload : List (K × V)) (bh : Hasher) (ops : List (MapOp V K)) :
    let u : UserCode σ K K := commonCode (fun k => pure (bh (ty.enc k))) (fun q => pure (bh (ty.enc q)))
      (fun q k => pure (ty.eq q k)) (fun a b => pure (ty.eq a b))
    LeavesAlone (UMap.session u (UMap.facade env u payload) ops)
      ((frozenApi env ty).session (FrozenMap.new env ty payload bh) ops) :=
  (facade_purely env ty bh).session heq (facade_tracks env ty hk bh payload) ops

/-- Comparing two of them. -/
theorem C75_frozen_map_eq [Target] (env : Env) (ty : KeyTy K) (hk : ty.kind = .other)
    (veq : V → V → Bool) (p₁ p₂ : List (K × V)) (bh₁ bh₂ : Hasher) :
    let u (bh : Hasher) : UserCode σ K K := commonCode (fun k => pure (bh (ty.enc k)))
      (fun q => pure (bh (ty.enc q))) (fun q k => pure (ty.eq q k)) (fun a b => pure (ty.eq a b))
    LeavesAlone
      (do
        let a ← UMap.facade env (u bh₁) p₁
        let b ← UMap.facade env (u bh₂) p₂
        UMap.partialEq (u bh₂) (fun x y => pure (veq x y)) a b)
      (do
        let a ← FrozenMap.new env ty p₁ bh₁
        let b ← FrozenMap.new env ty p₂ bh₂
        (frozenApi env ty).partialEq veq a b) := by
  intro u s
  have h₁ := facade_tracks env ty hk bh₁ p₁ s
  have h₂ := facade_tracks env ty hk bh₂ p₂ s
  rw [Call.bind_apply]
  change Tracks _ s _ ((UMap.facade env (u bh₁) p₁ s).map _) at h₁
  change Tracks _ s _ ((UMap.facade env (u bh₂) p₂ s).map _) at h₂
  rcases Tracks.cases h₁ with ⟨e, e'⟩ | ⟨e, e'⟩ | ⟨m, um, e, e', hR⟩
  · rw [e, e']; rfl
  · rw [e, e']; rfl
  · rw [e, e']
    simp only [Res.ok_bind]
    rw [Call.bind_apply]
    rcases Tracks.cases h₂ with ⟨f, f'⟩ | ⟨f, f'⟩ | ⟨n, un, f, f', hR'⟩
    · rw [f, f']; rfl
    · rw [f, f']; rfl
    · rw [f, f']
      simp only [Res.ok_bind]
      exact (facade_purely env ty bh₂).partialEq veq ((facade_purely (σ := σ) env ty bh₁).len _ _ hR)
        ((facade_purely (σ := σ) env ty bh₁).iter _ _ hR) hR' s

example := C75_frozen_map_eq (σ := Nat) checkedEnv otherTy rfl (· == ·) exOther exOther.reverse demoHasher
  (fun _ => 0)

/-- `FrozenMap` over strings; the hasher is pure. -/
theorem C75_frozen_map_strings [Target] (env : Env) (bh : Hasher) (enc : Bytes → List HCall)
    (payload : List (Bytes × V)) (ops : List (MapOp V Bytes)) :
    LeavesAlone (UMap.stringSession env (HasherCode.det bh enc : HasherCode σ) payload ops)
      ((frozenApi env (bytesTy enc)).session (FrozenMap.new env (bytesTy enc) payload bh) ops) := by
  intro s
  unfold UMap.stringSession MapApi.session
  rw [Call.bind_apply, UMap.stringFacade_det]
  cases hm : FrozenMap.new env (bytesTy enc) payload bh with
  | panic => rfl
  | ub => rfl
  | ok m =>
    simp only [Res.map_ok, Res.ok_bind]
    rw [Call.bind_apply]
    have hr := (strings_purely env bh enc m.stripped.1).run beq_lawful ops s (m := m)
      (um := m.stripped.2) ⟨rfl, FrozenMap.new_stringsWith hm⟩
    cases hrun : (frozenApi env (bytesTy enc)).run m ops with
    | panic => rw [hrun] at hr; rw [show UMap.run _ _ ops s = _ from hr]; rfl
    | ub => rw [hrun] at hr; rw [show UMap.run _ _ ops s = _ from hr]; rfl
    | ok rs =>
      rw [hrun] at hr
      obtain ⟨um', he', _⟩ := hr
      rw [he']
      rfl

/-! ### Non-vacuity -/

/-- A session over a key type of the caller's own whose code could count its calls but does not: it
shows what the map shows, and the counter stays at 7. -/
example : UMap.session (σ := Nat) (otherTy.pureCode demoHasher)
    (UMap.facade checkedEnv (otherTy.pureCode demoHasher) exOther)
    [.get 5, .getMut 5 9, .get 5, .getManyMut [(5, 1), (5, 2)], .len] 7 =
    .ok ([.value (some 2), .value (some 2), .value (some 9), .many none, .number 5], 7) := by
  refine (C75_frozen_map checkedEnv otherTy rfl otherTy_lawful.eq exOther demoHasher _ 7).trans ?_
  decide +kernel

/-- A session with strings that have a telling letter in the middle. -/
example : UMap.stringSession checkedEnv (HasherCode.det demoHasher (fun s => [.writeStr s]))
    (exLeft.map (fun e => (e.1.1, e.2))) [.len, .get [120, 98, 120]] 7 =
    .ok ([.number 4, .value (some 2)], 7) := by
  rw [show UMap.stringSession _ _ _ _ 7 = _ from C75_frozen_map_strings checkedEnv demoHasher
    (fun s => [.writeStr s]) (exLeft.map (fun e => (e.1.1, e.2))) _ 7]
  decide +kernel

/-- Sessions that end in undefined behaviour do so with arbitrary code as well. -/
example : LeavesAlone (UMap.stringSession checkedEnv
      (HasherCode.det demoHasher (fun s => [.writeStr s]) : HasherCode Nat)
      (exRight.map (fun e => (e.1.1, e.2))) []) .ub := by
  intro s
  rw [show UMap.stringSession _ _ _ _ s = _ from C75_frozen_map_strings checkedEnv demoHasher
    (fun s => [.writeStr s]) (exRight.map (fun e => (e.1.1, e.2))) [] s]
  have : (frozenApi checkedEnv (bytesTy (fun s => [.writeStr s]))).session
      (FrozenMap.new checkedEnv (bytesTy (fun s => [.writeStr s]))
        (exRight.map (fun e => (e.1.1, e.2))) demoHasher) [] = .ub := by decide +kernel
  rw [this]

end FC
