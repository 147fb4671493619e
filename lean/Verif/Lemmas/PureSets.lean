import Verif.Spec.PureSets
import Verif.Spec.SetLookups
import Verif.Lemmas.SessionAgree
import Verif.Lemmas.SetLookups
import Verif.Lemmas.SetCode
import Verif.Lemmas.Sets

/-
Sets over element types whose code happens to be pure are the sets of Model/Sets.lean.
-/

set_option autoImplicit false

namespace FC
variable [Target]
variable {σ β M T Q : Type}

/-- `um` with the code `u` answers as `v` does. -/
structure ShowsAs (u : UserCode σ T Q) (um : UMap T Unit) (v : SetView T Q) : Prop where
  look : ∀ q, ∃ r : Res (Option (T × Ref Unit)), (∀ s, um.lookup u q s = r.map (fun o => (o, s))) ∧
    v.get q = keyOf r ∧ v.contains q = (keyOf r).map Option.isSome
  len : v.len = um.len
  isEmpty : v.isEmpty = decide (um.len = 0)
  items : v.items = um.entries.map (·.1)

/-- Construction ends alike, in sets that answer alike, and keeps the state. -/
def Builds (code : β → UserCode σ T Q) (um : β → UMap T Unit) (build : Call σ β) (b : Res M)
    (view : M → SetView T Q) : Prop :=
  ∀ s, match b with
  | .ok m => ∃ x, build s = .ok (x, s) ∧ ShowsAs (code x) (um x) (view m)
  | .panic => build s = .panic
  | .ub => build s = .ub

omit [Target] in
theorem ShowsAs.setGet {u : UserCode σ T Q} {um : UMap T Unit} {v : SetView T Q} (h : ShowsAs u um v)
    (q : Q) (s : σ) : um.setGet u q s = (v.get q).map (fun o => (o, s)) := by
  obtain ⟨r, hr, hg, _⟩ := h.look q
  unfold UMap.setGet
  rw [Call.bind_apply, hr, hg]
  rcases r with ⟨_ | o⟩ | _ | _ <;> rfl

omit [Target] in
theorem ShowsAs.asks {u : UserCode σ T Q} {um : UMap T Unit} {v : SetView T Q} (h : ShowsAs u um v)
    (l : List (SetAsk Q)) : LeavesAlone (um.asks u l) (v.asks l) := by
  have hask : ∀ a s, um.ask u a s = (v.ask a).map (fun o => (o, s)) := by
    intro a s
    cases a with
    | get q =>
      unfold UMap.ask SetView.ask
      simp only
      rw [Call.bind_apply, h.setGet]
      cases v.get q <;> rfl
    | contains q =>
      unfold UMap.ask SetView.ask UMap.setContains
      simp only
      rw [Call.bind_apply, Call.bind_apply, h.setGet]
      obtain ⟨r, _, hg, hc⟩ := h.look q
      rw [hg, hc]
      cases keyOf r <;> rfl
    | len => unfold UMap.ask SetView.ask; rw [h.len]; rfl
    | isEmpty => unfold UMap.ask SetView.ask; rw [h.isEmpty]; rfl
    | iter => unfold UMap.ask SetView.ask; rw [h.items]; rfl
  intro s
  induction l with
  | nil => rfl
  | cons a l ih =>
    show Call.mapList (um.ask u) (a :: l) s = _
    unfold Call.mapList SetView.asks
    rw [Call.bind_apply, hask]
    cases v.ask a with
    | panic => rfl
    | ub => rfl
    | ok b =>
      simp only [Res.map_ok, Res.ok_bind]
      rw [Call.bind_apply, show Call.mapList (um.ask u) l s = _ from ih]
      cases v.asks l <;> rfl

omit [Target] in
theorem Builds.bind {code : β → UserCode σ T Q} {um : β → UMap T Unit} {build : Call σ β} {b : Res M}
    {view : M → SetView T Q} (h : Builds code um build b view) {α : Type} {f : β → Call σ α}
    {g : M → Res α} (hf : ∀ x m, ShowsAs (code x) (um x) (view m) → LeavesAlone (f x) (g m)) :
    LeavesAlone (build >>= f) (b >>= g) := by
  intro s
  have hs := h s
  rw [Call.bind_apply]
  cases b with
  | panic => rw [show build s = _ from hs]; rfl
  | ub => rw [show build s = _ from hs]; rfl
  | ok m =>
    obtain ⟨x, hx, hv⟩ := hs
    rw [hx]
    exact hf x m hv s

omit [Target] in
theorem Builds.session {u : UserCode σ T Q} {build : Call σ (UMap T Unit)} {b : Res M}
    {view : M → SetView T Q} (h : Builds (fun _ => u) id build b view) (asks : List (SetAsk Q)) :
    LeavesAlone (UMap.setSession u build asks) (SetView.session view b asks) :=
  h.bind (fun _ _ hv => hv.asks asks)

/-! ### Operations -/

omit [Target] in
theorem SetOp.next_det (op : SetOp) (s : BinIter T) (st : σ) :
    op.next (s.toU : UBin σ T) st = (op.pureNext s).map (fun r => ((r.1, r.2.toU), st)) := by
  cases op
  · exact UBin.unionNext_det s st
  · exact UBin.intersectionNext_det s st
  · exact UBin.differenceNext_det s st
  · exact UBin.symDiffNext_det s st

omit [Target] in
theorem ncalls_det (op : SetOp) (n : Nat) : ∀ s : BinIter T,
    LeavesAlone (do return (← ncalls op.next n (s.toU : UBin σ T)).1) (op.pureCalls n s) := by
  induction n with
  | zero => exact fun _ _ => rfl
  | succ n ih =>
    intro s st
    have ih' := fun s' => ih s' st
    simp only [Call.bind_apply] at ih'
    rw [Call.bind_apply]
    unfold ncalls SetOp.pureCalls
    rw [Call.bind_apply, SetOp.next_det]
    cases op.pureNext s with
    | panic => rfl
    | ub => rfl
    | ok r =>
      simp only [Res.map_ok, Res.ok_bind]
      have hr := ih' r.2
      rw [Call.bind_apply]
      cases hp : op.pureCalls n r.2 with
      | panic =>
        rw [hp] at hr
        cases hn : ncalls op.next n (r.2.toU : UBin σ T) st with
        | panic => rfl
        | ub => rw [hn] at hr; cases hr
        | ok x => rw [hn] at hr; cases hr
      | ub =>
        rw [hp] at hr
        cases hn : ncalls op.next n (r.2.toU : UBin σ T) st with
        | panic => rw [hn] at hr; cases hr
        | ub => rfl
        | ok x => rw [hn] at hr; cases hr
      | ok outs =>
        rw [hp] at hr
        cases hn : ncalls op.next n (r.2.toU : UBin σ T) st with
        | panic => rw [hn] at hr; cases hr
        | ub => rw [hn] at hr; cases hr
        | ok x =>
          rw [hn] at hr
          simp only [Res.ok_bind, Call.pure_apply, Res.map_ok, Res.ok.injEq, Prod.mk.injEq] at hr ⊢
          rw [hr.1, hr.2]
          rfl

omit [Target] in
theorem Feed.all_lift (p : T → Res Bool) (l : List T) (s : σ) :
    Feed.all (fun x => Call.lift (p x)) (l.map some) s = (Res.allList p l).map (fun b => (b, s)) := by
  induction l with
  | nil => rfl
  | cons x l ih =>
    show (Feed.all (fun x => Call.lift (p x)) (some x :: l.map some)) s = _
    unfold Feed.all Res.allList
    rw [Call.lift_bind]
    cases p x with
    | panic => rfl
    | ub => rfl
    | ok b =>
      cases b with
      | false => rfl
      | true => exact ih

omit [Target] in
theorem SetPred.ask_det (pred : SetPred) (a b : SetI T) :
    LeavesAlone (pred.ask (a.toU : USet σ T) b.toU) (pred.pureAsk a b) := by
  intro s
  cases pred with
  | isSubset =>
    show (if a.len ≤ b.len then Feed.all (fun x => Call.lift (b.contains x)) (a.iter.map some)
      else pure false : Call σ Bool) s = (if a.len ≤ b.len then _ else _ : Res Bool).map _
    by_cases h : a.len ≤ b.len
    · rw [if_pos h, if_pos h]; exact Feed.all_lift _ _ s
    · rw [if_neg h, if_neg h]; rfl
  | isSuperset =>
    show (if b.len ≤ a.len then Feed.all (fun x => Call.lift (a.contains x)) (b.iter.map some)
      else pure false : Call σ Bool) s = (if b.len ≤ a.len then _ else _ : Res Bool).map _
    by_cases h : b.len ≤ a.len
    · rw [if_pos h, if_pos h]; exact Feed.all_lift _ _ s
    · rw [if_neg h, if_neg h]; rfl
  | isDisjoint =>
    have hn : ∀ c : T → Res Bool, (fun v => (do return !(← Call.lift (c v)) : Call σ Bool))
        = fun v => Call.lift ((c v).map (fun b => !b)) := by
      intro c; funext v s
      show (Call.lift (c v) >>= _) s = _
      rw [Call.lift_bind]
      cases c v <;> rfl
    show (if a.len ≤ a.len then
        Feed.all (fun v => (do return !(← Call.lift (b.contains v)) : Call σ Bool)) (a.iter.map some)
      else Feed.all (fun v => (do return !(← Call.lift (a.contains v)) : Call σ Bool))
        (b.iter.map some) : Call σ Bool) s = _
    rw [if_pos (Nat.le_refl _), hn, Feed.all_lift]
    unfold SetPred.pureAsk SetI.isDisjoint
    simp
  | eq =>
    show (if a.len ≠ b.len then pure false
      else Feed.all (fun x => Call.lift (b.contains x)) (a.iter.map some) : Call σ Bool) s
        = (if a.len ≠ b.len then _ else _ : Res Bool).map _
    by_cases h : a.len ≠ b.len
    · rw [if_pos h, if_pos h]; rfl
    · rw [if_neg h, if_neg h]; exact Feed.all_lift _ _ s

omit [Target] in
theorem ShowsAs.toSet {u : UserCode σ T T} {um : UMap T Unit} {v : SetView T T} (h : ShowsAs u um v) :
    um.toSet u = (⟨v.items, v.contains, v.len⟩ : SetI T).toU := by
  unfold UMap.toSet SetI.toU
  congr 1
  · rw [h.items, List.map_map]; rfl
  · funext x s
    obtain ⟨r, hr, _, hc⟩ := h.look x
    show _ = Call.lift (v.contains x) s
    rw [Call.bind_apply, hr, hc]
    rcases r with ⟨_ | o⟩ | _ | _ <;> rfl
  · rw [h.len]

/-! ### The sets -/

omit [Target] in
theorem showsAs_of_look {u : UserCode σ T Q} {um : UMap T Unit} {kv : Q → Res (Option (T × Ref Unit))}
    (h : ∀ q s, um.lookup u q s = (kv q).map (fun o => (o, s))) :
    ShowsAs u um ⟨fun q => keyOf (kv q), fun q => (keyOf (kv q)).map Option.isSome, um.len,
      decide (um.len = 0), um.entries.map (·.1)⟩ :=
  ⟨fun q => ⟨kv q, h q, rfl, rfl⟩, rfl, rfl, rfl⟩

omit [Target] in
theorem builds_of_eq {N : Type} {u : UserCode σ T Q} {build : Call σ (UMap T Unit)} {b : Res N}
    {f : N → UMap T Unit} {mk : N → M} {view : M → SetView T Q}
    (hb : ∀ s, build s = b.map (fun m => (f m, s)))
    (hv : ∀ m, b = .ok m → ShowsAs u (f m) (view (mk m))) :
    Builds (fun _ => u) id build (b.map mk) view := by
  intro s
  have := hb s
  cases b with
  | panic => exact this
  | ub => exact this
  | ok m => exact ⟨f m, this, hv m rfl⟩

/-- A `FrozenSet` answers as the `FrozenMap` to `()` does. -/
theorem FrozenSet.view_of_look {u : UserCode σ T T} {um : UMap T Unit} {env : Env} {ty : KeyTy T}
    (s : FrozenSet T)
    (hl : ∀ q st, um.lookup u q st = (s.toMap.getKeyValue env ty q).map (fun o => (o, st)))
    (hc : ∀ q, s.contains env ty q = (s.get env ty q).map Option.isSome)
    (he : s.toMap.entries ty = um.entries) (hn : s.len = um.len) :
    ShowsAs u um (s.view env ty) := by
  refine ⟨fun q => ⟨_, hl q, FrozenSet.get_toMap env ty s q, ?_⟩, hn, ?_, ?_⟩
  · rw [← FrozenSet.get_toMap]; exact hc q
  · show decide (s.len = 0) = _
    rw [hn]
  · show (s.iter ty).items = _
    rw [FrozenSet.iter_toMap, ← he]
    rfl

theorem setFacade_builds (env : Env) (ty : KeyTy T) (hk : ty.kind = .other) (bh : Hasher)
    (payload : List T) :
    Builds (σ := σ) (fun _ => ty.pureCode bh) id (UMap.setFacade env (ty.pureCode bh) payload)
      (FrozenSet.new env ty payload bh) (FrozenSet.view env ty) := by
  intro s
  have ht := facade_tracks env ty hk bh (unitPayload payload) s
  rw [UMap.setFacade_eq]
  have hnew := FrozenSet.new_toMap env ty payload bh
  rcases Tracks.cases ht with ⟨e, e'⟩ | ⟨e, e'⟩ | ⟨m, um, e, e', hR⟩
  · rw [e] at hnew
    cases hs : FrozenSet.new env ty payload bh with
    | panic => exact e'
    | ub => rw [hs] at hnew; cases hnew
    | ok m => rw [hs] at hnew; cases hnew
  · rw [e] at hnew
    cases hs : FrozenSet.new env ty payload bh with
    | panic => rw [hs] at hnew; cases hnew
    | ub => exact e'
    | ok m => rw [hs] at hnew; cases hnew
  · rw [e] at hnew
    cases hs : FrozenSet.new env ty payload bh with
    | panic => rw [hs] at hnew; cases hnew
    | ub => rw [hs] at hnew; cases hnew
    | ok m' =>
      rw [hs] at hnew
      simp only [Res.map_ok, Res.ok.injEq] at hnew
      subst hnew
      refine ⟨um, e', FrozenSet.view_of_look m' ((facade_purely env ty bh).look _ _ hR) ?_ ?_ ?_⟩
      · intro q
        cases m' <;> first | rfl | exact hR.elim
      · have := (facade_purely (σ := σ) env ty bh).iter _ _ hR
        exact congrArg MapIter.entries this
      · rw [FrozenSet.len_toMap]
        exact (facade_purely (σ := σ) env ty bh).len _ _ hR

theorem stringSetFacade_builds (env : Env) (bh : Hasher) (enc : Bytes → List HCall)
    (payload : List Bytes) :
    Builds (σ := σ) (fun m => m.1.code env.oc (HasherCode.det bh enc)) Prod.snd
      (UMap.stringSetFacade env (HasherCode.det bh enc) payload)
      (FrozenSet.new env (bytesTy enc) payload bh) (FrozenSet.view env (bytesTy enc)) := by
  intro s
  have hdet := UMap.stringFacade_det env bh enc (unitPayload payload) s
  rw [UMap.stringSetFacade_eq]
  have hnew := FrozenSet.new_toMap env (bytesTy enc) payload bh
  rw [← hnew] at hdet
  cases hs : FrozenSet.new env (bytesTy enc) payload bh with
  | panic => rw [hs] at hdet; exact hdet
  | ub => rw [hs] at hdet; exact hdet
  | ok m =>
    rw [hs] at hdet hnew
    have hw := FrozenMap.new_stringsWith hnew.symm
    refine ⟨m.toMap.stripped, hdet, ?_⟩
    have hp := strings_purely (σ := σ) (V := Unit) env bh enc m.toMap.stripped.1
    refine FrozenSet.view_of_look m (hp.look _ _ ⟨rfl, hw⟩) ?_ ?_ ?_
    · intro q
      have hb : ∀ r : Res (Option Bytes), r.map Option.isSome
          = (r.map (bytesTy enc).ofBT).map Option.isSome := by
        rintro (⟨_ | o⟩ | _ | _) <;> rfl
      cases m <;> first | rfl | exact hb _ | exact hw.elim
    · exact congrArg MapIter.entries (hp.iter _ _ ⟨rfl, hw⟩)
    · rw [FrozenSet.len_toMap]
      exact hp.len _ _ ⟨rfl, hw⟩

end FC
