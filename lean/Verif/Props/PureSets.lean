import Verif.Lemmas.PureSets
import Verif.Spec.PureSets
import Verif.Examples

/-
C79: sets over element types whose code is pure.
-/

set_option autoImplicit false

namespace FC
variable {σ T Q : Type}

/-- `ScanningSet`: comparing is pure; hashing is never called. -/
theorem C79_scanning_set [Target] (P : Probe T Q) (payload : List T) (hash : T → Call σ Nat)
    (hash' : Q → Call σ Nat) (asks : List (SetAsk Q)) :
    let u : UserCode σ T Q := commonCode hash hash' (fun q k => pure (P.eq q (P.borrow k)))
      (fun a b => pure (P.eq a b))
    LeavesAlone (UMap.setSession u (pure (.scanning (unitPayload payload))) asks)
      (SetView.session (ScanningSet.view P) (.ok (ScanningSet.fromVec payload)) asks) := by
  intro u
  refine Builds.session (builds_of_eq (b := .ok (ScanningMap.fromVec (unitPayload payload)))
    (f := fun m => .scanning m.entries) (mk := ScanningSet.mk) (fun _ => rfl) ?_) asks
  rintro m ⟨⟩
  exact showsAs_of_look (u := u) (um := .scanning (unitPayload payload))
    (kv := fun q => (ScanningMap.fromVec (unitPayload payload)).getKeyValue P q)
    (fun q s => UMap.scan_pure (fun _ _ => rfl) q _ s 0)

/-- `CommonSet`: hashing and comparing are pure. -/
theorem C79_common_set [Target] (env : Env) (S : IdxTy) (P : Probe T Q) (enc : T → List HCall)
    (payload : List T) (bh : Hasher) (asks : List (SetAsk Q)) :
    let u : UserCode σ T Q := commonCode (fun k => pure (bh (enc k))) (fun q => pure (bh (P.enc q)))
      (fun q k => pure (P.eq q (P.borrow k))) (fun a b => pure (P.eq a b))
    LeavesAlone (UMap.setSession u (UMap.fromVec env S u (unitPayload payload)) asks)
      (SetView.session (CommonSet.view P) (CommonSet.fromVecWithHasher env S enc payload bh) asks) := by
  intro u
  have hmk : CommonSet.fromVecWithHasher env S enc payload bh
      = (CommonMap.fromVecWithHasher env S enc (unitPayload payload) bh).map CommonSet.mk := by
    unfold CommonSet.fromVecWithHasher
    cases CommonMap.fromVecWithHasher env S enc (unitPayload payload) bh <;> rfl
  rw [hmk]
  refine Builds.session (builds_of_eq (f := fun m => .hashed m.table)
    (fun s => UMap.fromVec_common env S bh P enc (unitPayload payload) s) ?_) asks
  intro m hm
  have hbh : m.bh = bh := by
    unfold CommonMap.fromVecWithHasher at hm
    simp only [Res.bind_eq_ok, Res.pure_eq, Res.ok.injEq] at hm
    obtain ⟨_, _, _, _, rfl⟩ := hm
    rfl
  subst hbh
  exact showsAs_of_look (kv := fun q => m.getKeyValue P q) (fun q s => UMap.lookup_common m P enc q s)

/-- `IntegerSet`: `as_` and `==` are pure. -/
theorem C79_integer_set [Target] (env : Env) (S : IdxTy) (payload : List Int)
    (asks : List (SetAsk Int)) :
    let u : UserCode σ Int Int := lengthCode (fun k => pure (asU64 k)) (fun q => pure (asU64 q))
      (fun q k => pure (IntegerMap.ieq q k)) (fun a b => pure (IntegerMap.ieq a b))
    LeavesAlone (UMap.setSession u (UMap.fromVec env S u (unitPayload payload)) asks)
      (SetView.session IntegerSet.view (IntegerSet.fromVec env S payload) asks) := by
  intro u
  have hmk : IntegerSet.fromVec env S payload
      = (LengthMap.fromVec env S asU64 (unitPayload payload)).map (fun m => ⟨⟨m.table⟩⟩) := by
    unfold IntegerSet.fromVec IntegerMap.fromVec LengthMap.fromVec
    cases analyzeHashCodes ((unitPayload payload).map fun e => asU64 e.1) with
    | panic => rfl
    | ub => rfl
    | ok a =>
      simp only [Res.ok_bind]
      cases HashTable.new env S (unitPayload payload) a.numHashSlots (fun k => .ok (asU64 k)) <;> rfl
  rw [hmk]
  refine Builds.session (builds_of_eq (f := fun m => .hashed m.table)
    (fun s => UMap.fromVec_length env S asU64 asU64 IntegerMap.ieq id (unitPayload payload) s) ?_) asks
  intro m _
  exact showsAs_of_look (um := .hashed m.table) (kv := fun q => (⟨m.table⟩ : IntegerMap Unit).getKeyValue q)
    (fun q s => UMap.lookup_length m asU64 asU64 IntegerMap.ieq id q s)

/-- `LengthSet`: `len` and comparing are pure. -/
theorem C79_length_set [Target] (env : Env) (S : IdxTy) (lenT : T → Nat) (lenQ : Q → Nat)
    (eq : Q → Q → Bool) (borrow : T → Q) (payload : List T) (asks : List (SetAsk Q)) :
    let u : UserCode σ T Q := lengthCode (fun k => pure (lenT k)) (fun q => pure (lenQ q))
      (fun q k => pure (eq q (borrow k))) (fun a b => pure (eq a b))
    LeavesAlone (UMap.setSession u (UMap.fromVec env S u (unitPayload payload)) asks)
      (SetView.session (LengthSet.view borrow eq lenQ) (LengthSet.fromVec env S lenT payload) asks) := by
  intro u
  have hmk : LengthSet.fromVec env S lenT payload
      = (LengthMap.fromVec env S lenT (unitPayload payload)).map LengthSet.mk := by
    unfold LengthSet.fromVec
    cases LengthMap.fromVec env S lenT (unitPayload payload) <;> rfl
  rw [hmk]
  refine Builds.session (builds_of_eq (f := fun m => .hashed m.table)
    (fun s => UMap.fromVec_length env S lenT lenQ eq borrow (unitPayload payload) s) ?_) asks
  intro m _
  exact showsAs_of_look (kv := fun q => m.getKeyValue borrow eq lenQ q)
    (fun q s => UMap.lookup_length m lenT lenQ eq borrow q s)

/-- `LeftSliceSet` over strings; the hasher is pure. -/
theorem C79_left_slice_set [Target] (env : Env) (S : IdxTy) (bh : Hasher) (a b : Nat)
    (payload : List Bytes) (asks : List (SetAsk Bytes)) :
    let u : UserCode σ Bytes Bytes := leftCode a b (fun k => pure k.length)
      (fun k i j => Call.lift (sliceHash bh k i j)) (fun q => pure q.length)
      (fun q i j => Call.lift (sliceHash bh q i j)) (fun q k => pure (beq q k))
      (fun x y => pure (beq x y))
    LeavesAlone (UMap.setSession u (UMap.fromVec env S u (unitPayload payload)) asks)
      (SetView.session LeftSliceSet.view (LeftSliceSet.fromVecWithHasher env S payload a b bh) asks) := by
  intro u
  have hmk : LeftSliceSet.fromVecWithHasher env S payload a b bh
      = (LeftSliceMap.fromVecWithHasher env S (unitPayload payload) a b bh).map LeftSliceSet.mk := by
    unfold LeftSliceSet.fromVecWithHasher
    cases LeftSliceMap.fromVecWithHasher env S (unitPayload payload) a b bh <;> rfl
  rw [hmk]
  refine Builds.session (builds_of_eq (f := fun m => .hashed m.table)
    (fun s => UMap.fromVec_left env S bh a b (unitPayload payload) s) ?_) asks
  intro m hm
  have hbh : m.bh = bh ∧ m.start = a ∧ m.stop = b := by
    unfold LeftSliceMap.fromVecWithHasher at hm
    simp only [Res.bind_eq_ok, Res.pure_eq, Res.ok.injEq] at hm
    obtain ⟨_, _, _, _, _, _, rfl⟩ := hm
    exact ⟨rfl, rfl, rfl⟩
  obtain ⟨rfl, rfl, rfl⟩ := hbh
  exact showsAs_of_look (kv := fun q => m.getKeyValue q) (fun q s => UMap.lookup_left m q s)

/-- `RightSliceSet` over strings; the hasher is pure. -/
theorem C79_right_slice_set [Target] (env : Env) (S : IdxTy) (bh : Hasher) (a b : Nat)
    (payload : List Bytes) (asks : List (SetAsk Bytes)) :
    let u : UserCode σ Bytes Bytes := rightCode env.oc a b (fun k => pure k.length)
      (fun k i j => Call.lift (sliceHash bh k i j)) (fun q => pure q.length)
      (fun q i j => Call.lift (sliceHash bh q i j)) (fun q k => pure (beq q k))
      (fun x y => pure (beq x y))
    LeavesAlone (UMap.setSession u (UMap.fromVec env S u (unitPayload payload)) asks)
      (SetView.session (RightSliceSet.view env.oc)
        (RightSliceSet.fromVecWithHasher env S payload a b bh) asks) := by
  intro u
  have hmk : RightSliceSet.fromVecWithHasher env S payload a b bh
      = (RightSliceMap.fromVecWithHasher env S (unitPayload payload) a b bh).map RightSliceSet.mk := by
    unfold RightSliceSet.fromVecWithHasher
    cases RightSliceMap.fromVecWithHasher env S (unitPayload payload) a b bh <;> rfl
  rw [hmk]
  refine Builds.session (builds_of_eq (f := fun m => .hashed m.table)
    (fun s => UMap.fromVec_right env S bh a b (unitPayload payload) s) ?_) asks
  intro m hm
  have hbh : m.bh = bh ∧ m.start = a ∧ m.stop = b := by
    unfold RightSliceMap.fromVecWithHasher at hm
    simp only [Res.bind_eq_ok, Res.pure_eq, Res.ok.injEq] at hm
    obtain ⟨_, _, _, _, _, _, rfl⟩ := hm
    exact ⟨rfl, rfl, rfl⟩
  obtain ⟨rfl, rfl, rfl⟩ := hbh
  exact showsAs_of_look (kv := fun q => m.getKeyValue env.oc q)
    (fun q s => UMap.lookup_right env.oc m q s)

/-- `FrozenSet` over an element type that is neither `u32` nor `String`. -/
theorem C79_frozen_set [Target] (env : Env) (ty : KeyTy T) (hk : ty.kind = .other)
    (payload : List T) (bh : Hasher) (asks : List (SetAsk T)) :
    let u : UserCode σ T T := commonCode (fun k => pure (bh (ty.enc k))) (fun q => pure (bh (ty.enc q)))
      (fun q k => pure (ty.eq q k)) (fun a b => pure (ty.eq a b))
    LeavesAlone (UMap.setSession u (UMap.setFacade env u payload) asks)
      (SetView.session (FrozenSet.view env ty) (FrozenSet.new env ty payload bh) asks) :=
  (setFacade_builds env ty hk bh payload).session asks

/-- A set operation between two of them: `n` calls of `next`. -/
theorem C79_frozen_set_operation [Target] (env : Env) (ty : KeyTy T) (hk : ty.kind = .other)
    (p₁ p₂ : List T) (bh₁ bh₂ : Hasher) (op : SetOp) (n : Nat) :
    let u (bh : Hasher) : UserCode σ T T := commonCode (fun k => pure (bh (ty.enc k)))
      (fun q => pure (bh (ty.enc q))) (fun q k => pure (ty.eq q k)) (fun a b => pure (ty.eq a b))
    LeavesAlone
      (do
        let a ← UMap.setFacade env (u bh₁) p₁
        let b ← UMap.setFacade env (u bh₂) p₂
        return (← ncalls op.next n (UBin.new (a.toSet (u bh₁)) (b.toSet (u bh₂)))).1)
      (do
        let a ← FrozenSet.new env ty p₁ bh₁
        let b ← FrozenSet.new env ty p₂ bh₂
        op.pureCalls n (BinIter.new (a.toSetI env ty) (b.toSetI env ty))) := by
  intro u
  refine (setFacade_builds env ty hk bh₁ p₁).bind (fun a a' ha => ?_)
  refine (setFacade_builds env ty hk bh₂ p₂).bind (fun b b' hb => ?_)
  show LeavesAlone (do return (← ncalls op.next n (UBin.new (UMap.toSet _ a) (UMap.toSet _ b))).1) _
  rw [show UMap.toSet (u bh₁) a = _ from ha.toSet, show UMap.toSet (u bh₂) b = _ from hb.toSet]
  exact ncalls_det op n (BinIter.new _ _)

/-- A predicate on two of them. -/
theorem C79_frozen_set_predicate [Target] (env : Env) (ty : KeyTy T) (hk : ty.kind = .other)
    (p₁ p₂ : List T) (bh₁ bh₂ : Hasher) (pred : SetPred) :
    let u (bh : Hasher) : UserCode σ T T := commonCode (fun k => pure (bh (ty.enc k)))
      (fun q => pure (bh (ty.enc q))) (fun q k => pure (ty.eq q k)) (fun a b => pure (ty.eq a b))
    LeavesAlone
      (do
        let a ← UMap.setFacade env (u bh₁) p₁
        let b ← UMap.setFacade env (u bh₂) p₂
        pred.ask (a.toSet (u bh₁)) (b.toSet (u bh₂)))
      (do
        let a ← FrozenSet.new env ty p₁ bh₁
        let b ← FrozenSet.new env ty p₂ bh₂
        pred.pureAsk (a.toSetI env ty) (b.toSetI env ty)) := by
  intro u
  refine (setFacade_builds env ty hk bh₁ p₁).bind (fun a a' ha => ?_)
  refine (setFacade_builds env ty hk bh₂ p₂).bind (fun b b' hb => ?_)
  rw [show UMap.toSet (u bh₁) a = _ from ha.toSet, show UMap.toSet (u bh₂) b = _ from hb.toSet]
  exact SetPred.ask_det pred _ _

example := C79_frozen_set_predicate (σ := Nat) checkedEnv otherTy rfl [1, 2, 3, 4, 5] [4, 2, 1, 3] demoHasher
  (fun _ => 0) .isSuperset

/-- `FrozenSet` of strings; the hasher is pure. -/
theorem C79_frozen_set_strings [Target] (env : Env) (bh : Hasher) (enc : Bytes → List HCall)
    (payload : List Bytes) (asks : List (SetAsk Bytes)) :
    LeavesAlone (UMap.stringSetSession env (HasherCode.det bh enc : HasherCode σ) payload asks)
      (SetView.session (FrozenSet.view env (bytesTy enc)) (FrozenSet.new env (bytesTy enc) payload bh)
        asks) :=
  (stringSetFacade_builds env bh enc payload).bind (fun _ _ h => h.asks asks)

/-- A set operation between two of them. -/
theorem C79_frozen_set_strings_operation [Target] (env : Env) (bh₁ bh₂ : Hasher)
    (enc : Bytes → List HCall) (p₁ p₂ : List Bytes) (op : SetOp) (n : Nat) :
    LeavesAlone (stringOperationSession env (HasherCode.det bh₁ enc : HasherCode σ)
        (HasherCode.det bh₂ enc) p₁ p₂ op n)
      (do
        let a ← FrozenSet.new env (bytesTy enc) p₁ bh₁
        let b ← FrozenSet.new env (bytesTy enc) p₂ bh₂
        op.pureCalls n (BinIter.new (a.toSetI env (bytesTy enc)) (b.toSetI env (bytesTy enc)))) := by
  refine (stringSetFacade_builds env bh₁ enc p₁).bind (fun a a' ha => ?_)
  refine (stringSetFacade_builds env bh₂ enc p₂).bind (fun b b' hb => ?_)
  rw [ha.toSet, hb.toSet]
  exact ncalls_det op n (BinIter.new _ _)

/-- A predicate on two of them. -/
theorem C79_frozen_set_strings_predicate [Target] (env : Env) (bh₁ bh₂ : Hasher)
    (enc : Bytes → List HCall) (p₁ p₂ : List Bytes) (pred : SetPred) :
    LeavesAlone (stringPredicateSession env (HasherCode.det bh₁ enc : HasherCode σ)
        (HasherCode.det bh₂ enc) p₁ p₂ pred)
      (do
        let a ← FrozenSet.new env (bytesTy enc) p₁ bh₁
        let b ← FrozenSet.new env (bytesTy enc) p₂ bh₂
        pred.pureAsk (a.toSetI env (bytesTy enc)) (b.toSetI env (bytesTy enc))) := by
  refine (stringSetFacade_builds env bh₁ enc p₁).bind (fun a a' ha => ?_)
  refine (stringSetFacade_builds env bh₂ enc p₂).bind (fun b b' hb => ?_)
  rw [ha.toSet, hb.toSet]
  exact SetPred.ask_det pred _ _

/-! ### Non-vacuity -/

/-- A set over an element type of the caller's own whose code could count its calls but does not. -/
example : UMap.setSession (σ := Nat) (otherTy.pureCode demoHasher)
    (UMap.setFacade checkedEnv (otherTy.pureCode demoHasher) (exOther.map (·.1)))
    [.get 5, .contains 1001, .len, .isEmpty] 7 =
    .ok ([.element (some 5), .bool false, .number 5, .bool false], 7) := by
  have h := C79_frozen_set (σ := Nat) checkedEnv otherTy rfl (exOther.map (·.1)) demoHasher
    [.get 5, .contains 1001, .len, .isEmpty] 7
  exact h.trans (by decide +kernel)

/-- Three calls of `next` of an intersection. -/
example : (do
      let a ← UMap.setFacade checkedEnv (otherTy.pureCode demoHasher) [1, 2, 3, 4, 5]
      let b ← UMap.setFacade checkedEnv (otherTy.pureCode demoHasher) [9, 5, 2]
      return (← ncalls (SetOp.next .intersection) 3
        (UBin.new (a.toSet (otherTy.pureCode demoHasher)) (b.toSet (otherTy.pureCode demoHasher)))).1
      : Call Nat (List (Option Int))) 7 = .ok ([some 5, some 2, none], 7) := by
  have h := C79_frozen_set_operation (σ := Nat) checkedEnv otherTy rfl [1, 2, 3, 4, 5] [9, 5, 2]
    demoHasher demoHasher .intersection 3 7
  exact h.trans (by decide +kernel)

/-- Strings with a telling letter at the right: undefined behaviour with arbitrary code as well. -/
example : LeavesAlone (stringPredicateSession checkedEnv
      (HasherCode.det demoHasher (fun s => [.writeStr s]) : HasherCode Nat)
      (HasherCode.det demoHasher (fun s => [.writeStr s])) (exRight.map (·.1.1)) [] .isSubset) .ub := by
  intro s
  refine (C79_frozen_set_strings_predicate checkedEnv demoHasher demoHasher (fun s => [.writeStr s])
    (exRight.map (·.1.1)) [] .isSubset s).trans ?_
  have : (do
      let a ← FrozenSet.new checkedEnv (bytesTy (fun s => [.writeStr s])) (exRight.map (·.1.1)) demoHasher
      let b ← FrozenSet.new checkedEnv (bytesTy (fun s => [.writeStr s])) [] demoHasher
      SetPred.pureAsk .isSubset (a.toSetI checkedEnv (bytesTy (fun s => [.writeStr s])))
        (b.toSetI checkedEnv (bytesTy (fun s => [.writeStr s]))) : Res Bool) = .ub := by
    decide +kernel
  rw [this]

end FC
