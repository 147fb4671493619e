import Verif.Spec.IntSets
import Verif.Lemmas.IntTraitsAgree
import Verif.Lemmas.SetLookups

/-
Lemmas on sets over integer types of the caller's own.
-/

set_option autoImplicit false

namespace FC
variable {σ X M M' T Q : Type}

section
variable {A : CallApi σ M T Unit Q} {OK : M → Prop} {U p : Prop} {R : Q → T → Prop}

theorem CallApi.setGet_behaves {m : M} {q : Q} (h : Behaves U p (A.lookup m q)
      (fun o => ∀ r ∈ o, (A.entries m)[r.2.idx]? = some (r.1, r.2.val) ∧ R q r.1)) :
    Behaves U p (A.setGet m q) (fun o => ∀ x, o = some x → x ∈ (A.entries m).map (·.1) ∧ R q x) := by
  unfold CallApi.setGet
  refine h.bind (fun o ho => ?_)
  cases o with
  | none => exact .pure (by simp)
  | some r =>
    refine .pure (fun x hx => ?_)
    cases hx
    obtain ⟨h1, h2⟩ := ho r rfl
    exact ⟨List.mem_map.2 ⟨_, List.mem_of_getElem? h1, rfl⟩, h2⟩

theorem CallApi.ask_behaves {m : M} (h : ∀ q, Behaves U p (A.lookup m q)
      (fun o => ∀ r ∈ o, (A.entries m)[r.2.idx]? = some (r.1, r.2.val) ∧ R q r.1)) (a : SetAsk Q) :
    Behaves U p (A.ask m a) (SetAsk.May R ((A.entries m).map (·.1)) a) := by
  cases a with
  | get q => exact (CallApi.setGet_behaves (h q)).bind (fun o ho => .pure ho)
  | contains q =>
    refine Behaves.bind (post := fun b => b = true → ∃ x ∈ (A.entries m).map (fun e : T × Unit => e.1), R q x)
      ?_ (fun b hb => .pure hb)
    refine (CallApi.setGet_behaves (h q)).bind (fun o ho => .pure (fun hb => ?_))
    obtain ⟨x, rfl⟩ := Option.isSome_iff_exists.1 hb
    exact ⟨x, ho x rfl⟩
  | len => exact .pure (by simp [SetAsk.May])
  | isEmpty => exact .pure (by simp [SetAsk.May])
  | iter => exact .pure rfl

theorem CallApi.setSession_behaves (h : ∀ m, OK m → ∀ q, Behaves U p (A.lookup m q)
      (fun o => ∀ r ∈ o, (A.entries m)[r.2.idx]? = some (r.1, r.2.val) ∧ R q r.1))
    {build : Call σ M} {payload : List T}
    (hb : Behaves U p build (fun m => OK m ∧ (A.entries m).Perm (unitPayload payload)))
    (l : List (SetAsk Q)) :
    Behaves U p (A.setSession build l) (SetMayShow R payload l) := by
  unfold CallApi.setSession
  refine hb.bind (fun m hm => ?_)
  refine (Behaves.mapList (fun a _ => CallApi.ask_behaves (h m hm.1) a)).mono id id (fun outs ho => ?_)
  refine ⟨_, ?_, ho⟩
  have := hm.2.map (·.1)
  rwa [unitPayload_keys] at this

end

theorem STable.setSession_behaves (env : Env) {I : IdxCode σ X} (hI : I.Safe) {u : UserCode σ T Q}
    (hu : u.Safe True) (payload : List T) (asks : List (SetAsk Q)) :
    Behaves (¬ I.Honest) True
      ((STable.api I u).setSession (STable.fromVec env I u (unitPayload payload)) asks)
      (SetMayShow u.MayMatch payload asks) := by
  have hmm : ∀ q k, Behaves True True (u.isMatch q k) (fun b => b = true → u.MayMatch q k) :=
    fun q k => (u.mayMatch hu.toSafeLookup q k).mono False.elim id (fun _ h => h)
  by_cases hH : I.Honest
  · obtain ⟨Stands, max, h1, h2, h3, h4, h5⟩ := id hH
    have hC : I.Counts Stands max := ⟨h1, h2, h3, h4, h5⟩
    refine (CallApi.setSession_behaves (U := False) (p := True) (OK := STable.OK Stands)
      (fun T hT q => STable.lookup_behaves hu.toSafeLookup
        (fun code => ((STable.getHashInfo_safe hI ⟨hT.pos, hT.len⟩ code).also
          (STable.getHashInfo_inside hC hT code)).mono id id (fun _ h _ => h.2)) q (hmm q))
      (((STable.fromVec_safe env hI hu).also (STable.fromVec_inside env hC)).mono id id
        (fun T hT => ⟨⟨hT.1.1.1, hT.1.1.2, ?_⟩, hT.1.2⟩)) asks).mono False.elim id (fun _ h => h)
    rw [hT.1.2.length_eq]
    exact hT.2
  · exact CallApi.setSession_behaves
      (OK := fun T => 0 < T.numSlots ∧ T.slots.length = T.numSlots)
      (fun T hT q => STable.lookup_behaves hu.toSafeLookup
        (fun code => (STable.getHashInfo_safe hI hT code).mono id id (fun _ _ h => absurd hH h)) q (hmm q))
      ((STable.fromVec_safe env hI hu).mono False.elim id (fun T hT => hT)) asks

theorem RMap.setSession_behaves {c : RangeCode σ T Unit Q} (hc : c.Safe) (payload : List T)
    (asks : List (SetAsk Q)) :
    Behaves False True ((RMap.api c).setSession (RMap.fromVec c (unitPayload payload)) asks)
      (SetMayShow (fun _ _ => True) payload asks) :=
  CallApi.setSession_behaves (OK := fun _ => True)
    (fun m _ q => (RMap.lookup_behaves hc m q (P := fun _ => True)
      (Behaves.trivial'.mono id id (fun _ _ _ _ => trivial))).mono id id
      (fun _ h r hr => ⟨(h r hr).1, trivial⟩))
    ((RMap.fromVec_behaves hc _).mono id id (fun _ h => ⟨trivial, h⟩)) asks

theorem UMap.api_setSession (u : UserCode σ T Q) (build : Call σ (UMap T Unit)) (l : List (SetAsk Q)) :
    (UMap.api u).setSession build l = UMap.setSession u build l := by
  have : ∀ (m : UMap T Unit) a, (UMap.api u).ask m a = m.ask u a := by
    intro m a
    cases a <;> rfl
  unfold CallApi.setSession UMap.setSession UMap.asks
  simp only [funext (this _)]

theorem CallApi.Sim.setSession {A : CallApi σ M T Unit Q} {B : CallApi σ M' T Unit Q} {R : M → M' → Prop}
    (h : A.Sim B R) {build : Call σ M} {build' : Call σ M'}
    (hb : ∀ s, BuildAlike R (build s) (build' s)) (l : List (SetAsk Q)) :
    A.setSession build l = B.setSession build' l := by
  have hask : ∀ m m', R m m' → A.ask m = B.ask m' := by
    intro m m' hm
    funext a
    cases a <;> simp [CallApi.ask, CallApi.setContains, CallApi.setGet, h.lookup m m' hm,
      h.entries m m' hm]
  funext s
  have hs := hb s
  unfold CallApi.setSession
  rw [Call.bind_apply, Call.bind_apply]
  cases he : build s with
  | panic => rw [he] at hs; rw [show build' s = _ from hs]; rfl
  | ub => rw [he] at hs; rw [show build' s = _ from hs]; rfl
  | ok r =>
    rw [he] at hs
    obtain ⟨m', h1, h2⟩ := hs
    rw [h1]
    simp only [Res.ok_bind, hask _ _ h2]

theorem SetView.asks_code {A : CallApi σ M T Unit Q} {m : M} {v : SetView T Q} {s : σ}
    (h : ∀ a, A.ask m a s = (v.ask a).map (fun r => (r, s))) (l : List (SetAsk Q)) :
    Call.mapList (A.ask m) l s = (v.asks l).map (fun r => (r, s)) := by
  induction l with
  | nil => rfl
  | cons a l ih =>
    unfold Call.mapList SetView.asks
    rw [Call.bind_apply, h a]
    cases v.ask a with
    | panic => rfl
    | ub => rfl
    | ok b =>
      simp only [Res.map, Res.ok_bind]
      rw [Call.bind_apply, ih]
      cases v.asks l <;> rfl

theorem RMap.setSession_code [Target] (oc : Bool) (t : IntTy) (hb : 0 < t.bits)
    {payload : List Int} (hr : ∀ x ∈ payload, t.InRange x) (asks : List (SetAsk Int)) :
    LeavesAlone (σ := σ)
      ((RMap.api (t.rangeCode oc)).setSession (RMap.fromVec (t.rangeCode oc) (unitPayload payload)) asks)
      (SetView.session (IntegerRangeSet.view oc t) (IntegerRangeSet.fromVec oc t payload) asks) := by
  intro s
  have hA := RMap.agrees (σ := σ) (V := Unit) oc t hb
  unfold CallApi.setSession SetView.session IntegerRangeSet.fromVec
  rw [Call.bind_apply]
  rcases RMap.fromVec_code oc t hb (unitPayload payload) (fun e he => by
    obtain ⟨x, hx, rfl⟩ := List.mem_map.1 he
    exact hr x hx) s with ⟨m, m', h1, h2, hR⟩ | ⟨h1, h2⟩
  · rw [h1, h2]
    simp only [Res.ok_bind]
    refine SetView.asks_code (fun a => ?_) asks
    have hl := fun q => hA.look m m' hR q s
    have hg : ∀ q, (RMap.api (t.rangeCode oc)).setGet m' q s
        = (((⟨m⟩ : IntegerRangeSet).view oc t).get q).map (fun r => (r, s)) := by
      intro q
      unfold CallApi.setGet
      rw [Call.bind_apply, hl q]
      show _ = ((keyOf ((rangeApi oc t).getKeyValue m q)).map _)
      cases (rangeApi oc t).getKeyValue m q with
      | panic => rfl
      | ub => rfl
      | ok o => cases o <;> rfl
    have he : (RMap.api (t.rangeCode (σ := σ) oc)).entries m' = m.entries := by rw [hR.1]; rfl
    cases a with
    | get q =>
      unfold CallApi.ask SetView.ask
      simp only
      rw [Call.bind_apply, hg q]
      cases ((⟨m⟩ : IntegerRangeSet).view oc t).get q <;> rfl
    | contains q =>
      unfold CallApi.ask SetView.ask CallApi.setContains
      simp only
      rw [Call.bind_apply, Call.bind_apply, hg q]
      show _ = ((((⟨m⟩ : IntegerRangeSet).view oc t).get q).map Option.isSome >>= _).map _
      cases ((⟨m⟩ : IntegerRangeSet).view oc t).get q <;> rfl
    | len => simp only [CallApi.ask, he]; rfl
    | isEmpty => simp only [CallApi.ask, he]; rfl
    | iter =>
      simp only [CallApi.ask, he]; rfl
  · rw [h1, h2]
    rfl

end FC
