import Verif.Lemmas.StringCode

/-
For hashers that are functions, Model/StringCode.lean agrees with Model/SliceKey.lean and
Model/FrozenMap.lean.
-/

set_option autoImplicit false

namespace FC
variable [Target]
variable {σ V : Type}

theorem uniqueLoopU_det (oc : Bool) (bh : Hasher) (enc : Bytes → List HCall) (idx len : Nat)
    (left : Bool) (keys : List Bytes) : ∀ (set : List Nat) (acc : Nat) (s : σ),
    uniqueLoopU oc (HasherCode.det bh enc) idx len left keys set acc s
      = (uniqueLoop oc bh idx len left keys set acc).map (fun b => (b, s)) := by
  induction keys with
  | nil => exact fun _ _ _ => rfl
  | cons k keys ih =>
    intro set acc s
    unfold uniqueLoopU uniqueLoop
    rw [Call.lift_bind]
    cases subSlice oc k idx len left with
    | panic => rfl
    | ub => rfl
    | ok sub =>
      simp only [Res.ok_bind]
      show (if bh.hashOneBytes sub ∈ set then _ else _ : Call σ Bool) s = _
      by_cases h : bh.hashOneBytes sub ∈ set
      · rw [if_pos h, if_pos h]
        by_cases h0 : acc = 0
        · rw [if_pos h0, if_pos h0]; rfl
        · rw [if_neg h0, if_neg h0]; exact ih _ _ _
      · rw [if_neg h, if_neg h]; exact ih _ _ _

omit [Target] in
theorem findIndexU_det {f : Nat → Call σ Bool} {g : Nat → Res Bool}
    (hfg : ∀ i s, f i s = (g i).map (fun b => (b, s))) : ∀ (count idx : Nat) (s : σ),
    findIndexU f idx count s = (findIndex g idx count).map (fun o => (o, s)) := by
  intro count
  induction count with
  | zero => exact fun _ _ => rfl
  | succ n ih =>
    intro idx s
    unfold findIndexU findIndex
    rw [Call.bind_apply, hfg]
    cases g idx with
    | panic => rfl
    | ub => rfl
    | ok b =>
      cases b
      · exact ih _ _
      · rfl

theorem subsliceLoopU_det (oc : Bool) (bh : Hasher) (enc : Bytes → List HCall) (keys : List Bytes)
    (lo hi acc : Nat) : ∀ (count len : Nat) (s : σ),
    subsliceLoopU oc (HasherCode.det bh enc) keys lo hi acc len count s
      = (subsliceLoop oc bh keys lo hi acc len count).map (fun v => (v, s)) := by
  intro count
  induction count with
  | zero => exact fun _ _ => rfl
  | succ n ih =>
    intro len s
    unfold subsliceLoopU subsliceLoop
    rw [Call.bind_apply, findIndexU_det
      (g := fun i => isSufficientlyUnique oc bh keys i len true acc)
      (fun i s => uniqueLoopU_det oc bh enc i len true keys [] acc s)]
    cases findIndex (fun i => isSufficientlyUnique oc bh keys i len true acc) 0 (lo - len + 1) with
    | panic => rfl
    | ub => rfl
    | ok o =>
      cases o with
      | some i =>
        simp only [Res.map_ok, Res.ok_bind]
        by_cases h : len = hi
        · rw [if_pos h, if_pos h]; rfl
        · rw [if_neg h, if_neg h]; rfl
      | none =>
        simp only [Res.map_ok, Res.ok_bind]
        by_cases h : lo ≠ hi
        · rw [if_pos h, if_pos h]
          rw [Call.bind_apply, findIndexU_det
            (g := fun i => isSufficientlyUnique oc bh keys i len false acc)
            (fun i s => uniqueLoopU_det oc bh enc i len false keys [] acc s)]
          cases findIndex (fun i => isSufficientlyUnique oc bh keys i len false acc) 0
            (lo - len + 1) with
          | panic => rfl
          | ub => rfl
          | ok o =>
            cases o with
            | some i => rfl
            | none => exact ih _ _
        · rw [if_neg h, if_neg h]; exact ih _ _

theorem analyzeSliceKeysU_det (oc : Bool) (bh : Hasher) (enc : Bytes → List HCall)
    (keys : List Bytes) (s : σ) :
    analyzeSliceKeysU oc (HasherCode.det bh enc) keys s
      = (analyzeSliceKeys oc bh keys).map (fun v => (v, s)) := by
  unfold analyzeSliceKeysU analyzeSliceKeys
  split
  · exact subsliceLoopU_det oc bh enc keys _ _ _ _ _ s
  · rfl

omit [Target] in
theorem sliceHash_det (bh : Hasher) (enc : Bytes → List HCall) :
    (HasherCode.det bh enc : HasherCode σ).sliceHash
      = fun k i j => Call.lift (sliceHash bh k i j) := by
  funext k i j s
  unfold HasherCode.sliceHash sliceHash
  rw [Call.lift_bind]
  cases sliceUnchecked k i j <;> rfl

theorem left_fields {env : Env} {S : IdxTy} {payload : List (Bytes × V)} {a b : Nat} {bh : Hasher}
    {m : LeftSliceMap V} (h : LeftSliceMap.fromVecWithHasher env S payload a b bh = .ok m) :
    m.start = a ∧ m.stop = b := by
  unfold LeftSliceMap.fromVecWithHasher at h
  simp only [Res.bind_eq_ok, Res.pure_eq, Res.ok.injEq] at h
  obtain ⟨_, _, _, _, _, _, rfl⟩ := h
  exact ⟨rfl, rfl⟩

theorem right_fields {env : Env} {S : IdxTy} {payload : List (Bytes × V)} {a b : Nat} {bh : Hasher}
    {m : RightSliceMap V} (h : RightSliceMap.fromVecWithHasher env S payload a b bh = .ok m) :
    m.start = a ∧ m.stop = b := by
  unfold RightSliceMap.fromVecWithHasher at h
  simp only [Res.bind_eq_ok, Res.pure_eq, Res.ok.injEq] at h
  obtain ⟨_, _, _, _, _, _, rfl⟩ := h
  exact ⟨rfl, rfl⟩

/-- Construction with a hasher that is a function. -/
theorem UMap.stringFacade_det (env : Env) (bh : Hasher) (enc : Bytes → List HCall)
    (payload : List (Bytes × V)) (s : σ) :
    UMap.stringFacade env (HasherCode.det bh enc) payload s
      = (FrozenMap.new env (bytesTy enc) payload bh).map (fun m => (m.stripped, s)) := by
  unfold UMap.stringFacade FrozenMap.new
  have hid : payload.map (fun e : Bytes × V => (id e.1, e.2)) = payload := by simp
  have hcommon : ∀ S, UMap.fromVec env S (StringRep.common.code env.oc (HasherCode.det bh enc))
      payload s = (CommonMap.fromVecWithHasher env S enc payload bh).map
        (fun m => (.hashed m.table, s)) :=
    fun S => UMap.fromVec_common env S bh (⟨id, beq, enc⟩ : Probe Bytes Bytes) enc payload s
  have hleft : ∀ S a b, UMap.fromVec env S
      ((StringRep.left a b).code env.oc (HasherCode.det bh enc)) payload s
      = (LeftSliceMap.fromVecWithHasher env S payload a b bh).map
          (fun m => (.hashed m.table, s)) := by
    intro S a b
    rw [← UMap.fromVec_left]
    unfold StringRep.code
    rw [sliceHash_det]
  have hright : ∀ S a b, UMap.fromVec env S
      ((StringRep.right a b).code env.oc (HasherCode.det bh enc)) payload s
      = (RightSliceMap.fromVecWithHasher env S payload a b bh).map
          (fun m => (.hashed m.table, s)) := by
    intro S a b
    rw [← UMap.fromVec_right]
    unfold StringRep.code
    rw [sliceHash_det]
  have hlength : ∀ S, UMap.fromVec env S (StringRep.length.code env.oc (HasherCode.det bh enc))
      payload s = (LengthMap.fromVec env S List.length payload).map
        (fun m => (.hashed m.table, s)) :=
    fun S => UMap.fromVec_length env S List.length List.length beq id payload s
  split
  · rfl
  · show _ = Res.map _ (FrozenMap.newStringMap env enc id id payload bh)
    unfold FrozenMap.newStringMap
    simp only [hid]
    rw [Call.bind_apply, analyzeSliceKeysU_det]
    cases analyzeSliceKeys env.oc bh (payload.map (·.1)) with
    | panic => rfl
    | ub => rfl
    | ok v =>
      simp only [Res.map_ok, Res.ok_bind]
      by_cases h : payload.length ≤ 255
      · rw [if_pos h, if_pos h, Call.bind_apply]
        cases v with
        | normal =>
          simp only [SliceVerdict.rep, hcommon]
          cases CommonMap.fromVecWithHasher env IdxTy.u8 enc payload bh <;> rfl
        | left i l =>
          simp only [SliceVerdict.rep, hleft]
          cases hm : LeftSliceMap.fromVecWithHasher env IdxTy.u8 payload i (i + l) bh with
          | panic => rfl
          | ub => rfl
          | ok m =>
            obtain ⟨h1, h2⟩ := left_fields hm
            simp [FrozenMap.stripped, h1, h2, Call.pure_apply]
        | right i l =>
          simp only [SliceVerdict.rep, hright]
          cases hm : RightSliceMap.fromVecWithHasher env IdxTy.u8 payload i (i + l) bh with
          | panic => rfl
          | ub => rfl
          | ok m =>
            obtain ⟨h1, h2⟩ := right_fields hm
            simp [FrozenMap.stripped, h1, h2, Call.pure_apply]
        | length =>
          simp only [SliceVerdict.rep, hlength]
          cases LengthMap.fromVec env IdxTy.u8 List.length payload <;> rfl
      · rw [if_neg h, if_neg h]
        cases v with
        | normal =>
          simp only [SliceVerdict.rep, reduceCtorEq, if_false]
          rw [Call.bind_apply, hcommon]
          cases CommonMap.fromVecWithHasher env IdxTy.usize enc payload bh <;> rfl
        | left i l =>
          simp only [SliceVerdict.rep, reduceCtorEq, if_false]
          rw [Call.bind_apply, hleft]
          cases hm : LeftSliceMap.fromVecWithHasher env IdxTy.usize payload i (i + l) bh with
          | panic => rfl
          | ub => rfl
          | ok m =>
            obtain ⟨h1, h2⟩ := left_fields hm
            simp [FrozenMap.stripped, h1, h2, Call.pure_apply]
        | right i l =>
          simp only [SliceVerdict.rep, reduceCtorEq, if_false]
          rw [Call.bind_apply, hright]
          cases hm : RightSliceMap.fromVecWithHasher env IdxTy.usize payload i (i + l) bh with
          | panic => rfl
          | ub => rfl
          | ok m =>
            obtain ⟨h1, h2⟩ := right_fields hm
            simp [FrozenMap.stripped, h1, h2, Call.pure_apply]
        | length =>
          simp only [if_true]
          rw [Call.bind_apply, hcommon]
          cases CommonMap.fromVecWithHasher env IdxTy.usize enc payload bh <;> rfl

end FC
