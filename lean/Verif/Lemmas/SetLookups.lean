import Verif.Lemmas.SetCode
import Verif.Lemmas.SetCalls
import Verif.Lemmas.StringCalls
import Verif.Lemmas.StringCodeAgree
import Verif.Model.FrozenSet
import Verif.Spec.SetLookups

/-
Lookups in sets whose element type or hasher is arbitrary code.
-/

set_option autoImplicit false

namespace FC
variable {σ T Q : Type}

theorem unitPayload_keys (payload : List T) : (unitPayload payload).map (·.1) = payload := by
  simp [unitPayload, Function.comp_def]

theorem unitPayload_length (payload : List T) : (unitPayload payload).length = payload.length := by
  simp [unitPayload]

theorem UMap.unit_entries (m : UMap T Unit) :
    (m.entries.map (·.1)).map (fun x => (x, ())) = m.entries := by
  simp [Function.comp_def]

theorem UMap.elems_perm {m : UMap T Unit} {payload : List T} (h : m.entries.Perm (unitPayload payload)) :
    (m.entries.map (·.1)).Perm payload := by
  have := h.map (·.1)
  rwa [unitPayload_keys] at this

theorem UMap.setContains_eq (u : UserCode σ T T) (m : UMap T Unit) (x : T) :
    m.setContains u x = (m.toSet u).contains x := by
  funext s
  unfold UMap.setContains UMap.setGet
  show _ = (m.lookup u x >>= fun o => pure o.isSome) s
  simp only [Call.bind_apply]
  cases m.lookup u x s with
  | ok r => rcases r with ⟨_ | r, s'⟩ <;> rfl
  | panic => rfl
  | ub => rfl

/-! ### Safety -/

variable [Target]

omit [Target] in
theorem UMap.setGet_behaves {p : Prop} {u : UserCode σ T Q} (hu : u.SafeLookup p)
    {m : UMap T Unit} (hm : m.OK) (q : Q) :
    Behaves False p (m.setGet u q)
      (fun o => ∀ x, o = some x → x ∈ m.entries.map (·.1) ∧ u.MayMatch q x) := by
  unfold UMap.setGet
  refine (UMap.lookup_behaves' hu hm q (P := u.MayMatch q) (fun k =>
    (u.mayMatch hu q k).mono (fun _ => trivial) (fun _ => trivial) (fun _ h => h))).bind
    (fun o ho => ?_)
  cases o with
  | none => exact .pure (by simp)
  | some r =>
    refine .pure (fun x hx => ?_)
    obtain ⟨h1, h2⟩ := ho r rfl
    cases hx
    exact ⟨List.mem_map.2 ⟨_, List.mem_of_getElem? h1, rfl⟩, h2⟩

theorem UMap.ask_behaves {p : Prop} {u : UserCode σ T Q} (hu : u.SafeLookup p)
    {m : UMap T Unit} (hm : m.OK) (a : SetAsk Q) :
    Behaves False p (m.ask u a) (SetAsk.May u.MayMatch (m.entries.map (·.1)) a) := by
  cases a with
  | get q => exact (UMap.setGet_behaves hu hm q).bind (fun o ho => .pure ho)
  | contains q =>
    refine Behaves.bind (post := fun b => b = true → ∃ x ∈ m.entries.map (fun e : T × Unit => e.1), u.MayMatch q x)
      ?_ (fun b hb => .pure hb)
    refine (UMap.setGet_behaves hu hm q).bind (fun o ho => .pure (fun hb => ?_))
    obtain ⟨x, rfl⟩ := Option.isSome_iff_exists.1 hb
    exact ⟨x, ho x rfl⟩
  | len => exact .pure (by simp [SetAsk.May, UMap.len])
  | isEmpty => exact .pure (by simp [SetAsk.May, UMap.len])
  | iter => exact .pure rfl

theorem UMap.asks_behave {p : Prop} {u : UserCode σ T Q} (hu : u.SafeLookup p)
    {m : UMap T Unit} (hm : m.OK) (l : List (SetAsk Q)) :
    Behaves False p (m.asks u l)
      (fun outs => List.Forall₂ (SetAsk.May u.MayMatch (m.entries.map (·.1))) l outs) :=
  Behaves.mapList (fun a _ => UMap.ask_behaves hu hm a)

theorem UMap.setSession_behaves {p : Prop} {u : UserCode σ T Q} (hu : u.SafeLookup p)
    {build : Call σ (UMap T Unit)} {payload : List T}
    (hb : Behaves False p build (fun m => m.OK ∧ m.entries.Perm (unitPayload payload)))
    (l : List (SetAsk Q)) :
    Behaves False p (UMap.setSession u build l) (SetMayShow u.MayMatch payload l) := by
  unfold UMap.setSession
  exact hb.bind (fun m hm => (UMap.asks_behave hu hm.1 l).mono id id
    (fun outs ho => ⟨_, UMap.elems_perm hm.2, ho⟩))

theorem UMap.setFacade_eq (env : Env) (u : UserCode σ T Q) (payload : List T) :
    UMap.setFacade env u payload = UMap.facade env u (unitPayload payload) := by
  unfold UMap.setFacade UMap.facade
  rw [unitPayload_length]

theorem UMap.stringSetFacade_eq (env : Env) (h : HasherCode σ) (payload : List Bytes) :
    UMap.stringSetFacade env h payload = UMap.stringFacade env h (unitPayload payload) := by
  funext s
  unfold UMap.stringSetFacade UMap.stringFacade
  rw [unitPayload_length, unitPayload_keys]
  by_cases h4 : payload.length < 4
  · rw [if_pos h4, if_pos h4]
  · rw [if_neg h4, if_neg h4, Call.bind_apply, Call.bind_apply]
    cases analyzeSliceKeysU env.oc h payload s with
    | panic => rfl
    | ub => rfl
    | ok r =>
      simp only [Res.ok_bind]
      by_cases h255 : payload.length ≤ 255
      · rw [if_pos h255, if_pos h255]; cases r.1 <;> rfl
      · rw [if_neg h255, if_neg h255]; cases r.1 <;> rfl

omit [Target] in
theorem SetMayShow.mono {R R' : Q → T → Prop} {payload : List T} {l : List (SetAsk Q)}
    {outs : List (SetAns T)} (h : SetMayShow R payload l outs) (hR : ∀ q x, R q x → R' q x) :
    SetMayShow R' payload l outs := by
  obtain ⟨d, h1, h2⟩ := h
  refine ⟨d, h1, h2.imp (fun a o ho => ?_)⟩
  cases a <;> cases o <;> try exact ho
  · exact fun x hx => ⟨(ho x hx).1, hR _ _ (ho x hx).2⟩
  · intro hb
    obtain ⟨x, h1, h2⟩ := ho hb
    exact ⟨x, h1, hR _ _ h2⟩

/-! ### Calls -/

omit [Target] in
theorem UMap.setGet_logs (u : UserCode σ T Q) {m : UMap T Unit} {lay : Option Layout}
    (hm : m.Laid lay) (q : Q) :
    Logs (m.setGet u.logged q) (fun o ev => ∃ o' : Option (T × Unit), o = o'.map (·.1) ∧
      Looks ((m.entries.map (·.1)).map (fun x => (x, ()))) q lay o' ev) := by
  rw [UMap.unit_entries]
  unfold UMap.setGet
  refine (UMap.lookup_logs u hm q).bind (fun o ev hev => ?_)
  cases o with
  | none => exact .pure ⟨_, rfl, by simpa using hev⟩
  | some r => exact .pure ⟨_, rfl, by simpa using hev⟩

omit [Target] in
theorem UMap.asks_logs (u : UserCode σ T Q) {m : UMap T Unit} {lay : Option Layout}
    (hm : m.Laid lay) (l : List (SetAsk Q)) :
    Logs (m.asks u.logged l) (fun outs ev => AskCalls (m.entries.map (·.1)) lay l outs ev) := by
  have hone : ∀ a, Logs (m.ask u.logged a)
      (fun o ev => a.Calls (m.entries.map (·.1)) lay o ev) := by
    intro a
    cases a with
    | get q =>
      exact (UMap.setGet_logs u hm q).bind (fun o ev ⟨o', h1, h2⟩ => .pure
        ⟨o', h1, by simpa using h2⟩)
    | contains q =>
      refine Logs.bind (P := fun b ev => ∃ o' : Option (T × Unit), b = o'.isSome ∧
        Looks ((m.entries.map (·.1)).map (fun x => (x, ()))) q lay o' ev) ?_
        (fun b ev ⟨o', h1, h2⟩ => .pure ⟨o', by rw [h1]; simp [SetAns.Found], by simpa using h2⟩)
      refine (UMap.setGet_logs u hm q).bind (fun o ev ⟨o', h1, h2⟩ => .pure
        ⟨o', by rw [h1]; simp, by simpa using h2⟩)
    | len => exact .pure rfl
    | isEmpty => exact .pure rfl
    | iter => exact .pure rfl
  unfold UMap.asks
  induction l with
  | nil => exact .pure .nil
  | cons a l ih =>
    exact (hone a).bind (fun o ev hev => ih.bind (fun os ev' hev' => .pure
      (by simpa using .cons a l o os ev ev' hev hev')))

theorem UMap.asks_hash {oc : Bool} {h : HasherCode σ} {rep : StringRep} {m : UMap Bytes Unit}
    (hm : m.OfKind rep) (l : List (SetAsk Bytes)) :
    Logs (m.asks (rep.code oc h.logged) l)
      (fun _ ev => rep.callsFor (l.filterMap SetAsk.probe) ev) := by
  have hget : ∀ q, Logs (m.setGet (rep.code oc h.logged) q) (fun _ ev => ∃ c, ev = rep.calls q c) := by
    intro q
    refine (UMap.lookup_hashes hm q).bind (fun o ev hev => ?_)
    cases o <;> exact .pure (by simpa using hev)
  unfold UMap.asks
  induction l with
  | nil => exact .pure rep.callsFor_nil
  | cons a l ih =>
    cases a with
    | get q =>
      refine ((hget q).bind (R := fun _ ev => ∃ c, ev = rep.calls q c)
        (fun o ev hev => .pure (by simpa using hev))).bind (fun o ev hev => ?_)
      obtain ⟨c, rfl⟩ := hev
      exact ih.bind (fun os ev hev => .pure (by simpa [SetAsk.probe] using StringRep.callsFor_cons (q := q) (c := c) hev))
    | contains q =>
      have hc : Logs (m.setContains (rep.code oc h.logged) q) (fun _ ev => ∃ c, ev = rep.calls q c) :=
        (hget q).bind (fun o ev hev => .pure (by simpa using hev))
      refine (hc.bind (R := fun _ ev => ∃ c, ev = rep.calls q c)
        (fun o ev hev => .pure (by simpa using hev))).bind (fun o ev hev => ?_)
      obtain ⟨c, rfl⟩ := hev
      exact ih.bind (fun os ev hev => .pure (by simpa [SetAsk.probe] using StringRep.callsFor_cons (q := q) (c := c) hev))
    | len =>
      exact (Logs.pure (P := fun _ ev => ev = []) rfl).bind (fun o ev hev => by
        subst hev; exact ih.bind (fun os ev hev => .pure (by
          rw [List.filterMap_cons_none rfl]; simpa using hev)))
    | isEmpty =>
      exact (Logs.pure (P := fun _ ev => ev = []) rfl).bind (fun o ev hev => by
        subst hev; exact ih.bind (fun os ev hev => .pure (by
          rw [List.filterMap_cons_none rfl]; simpa using hev)))
    | iter =>
      exact (Logs.pure (P := fun _ ev => ev = []) rfl).bind (fun o ev hev => by
        subst hev; exact ih.bind (fun os ev hev => .pure (by
          rw [List.filterMap_cons_none rfl]; simpa using hev)))

/-- A `FrozenSet` of strings without its hasher. -/
def FrozenSet.stripped : FrozenSet Bytes → StringRep × UMap Bytes Unit
  | .scanning s => (.scanning, .scanning s.map.entries)
  | .commonSmall s | .commonLarge s => (.common, .hashed s.map.table)
  | .leftSmall s | .leftLarge s => (.left s.map.start s.map.stop, .hashed s.map.table)
  | .rightSmall s | .rightLarge s => (.right s.map.start s.map.stop, .hashed s.map.table)
  | .lengthSmall s => (.length, .hashed s.map.table)
  | .u32Small _ | .u32Large _ | .u32Range _ => (.scanning, .scanning [])

/-- Construction of a set is construction of the map to `()`. -/
theorem FrozenSet.stripped_eq {β : Type} (env : Env) (bh : Hasher) (enc : Bytes → List HCall)
    (payload : List Bytes) (f : StringRep × UMap Bytes Unit → β) :
    (FrozenMap.new env (bytesTy enc) (unitPayload payload) bh).map (fun m => f m.stripped)
      = (FrozenSet.new env (bytesTy enc) payload bh).map (fun m => f m.stripped) := by
  unfold FrozenMap.new FrozenSet.new
  rw [unitPayload_length]
  by_cases h4 : payload.length < 4
  · rw [if_pos h4, if_pos h4]; rfl
  · rw [if_neg h4, if_neg h4]
    show Res.map _ (FrozenMap.newStringMap env enc id id (unitPayload payload) bh)
      = Res.map _ (FrozenSet.newStringSet env enc id id payload bh)
    unfold FrozenMap.newStringMap FrozenSet.newStringSet
    have hid : (unitPayload payload).map (fun e : Bytes × Unit => (id e.1, e.2))
      = unitPayload payload := by simp
    have hid' : payload.map id = payload := by simp
    simp only [hid, hid', unitPayload_length, unitPayload_keys]
    cases analyzeSliceKeys env.oc bh payload with
    | panic => rfl
    | ub => rfl
    | ok v =>
      simp only [Res.ok_bind]
      by_cases h255 : payload.length ≤ 255
      · rw [if_pos h255, if_pos h255]
        cases v with
        | normal =>
          simp only [CommonSet.fromVecWithHasher]
          cases CommonMap.fromVecWithHasher env IdxTy.u8 enc (unitPayload payload) bh <;> rfl
        | left i l =>
          simp only [LeftSliceSet.fromVecWithHasher]
          cases LeftSliceMap.fromVecWithHasher env IdxTy.u8 (unitPayload payload) i (i + l) bh <;> rfl
        | right i l =>
          simp only [RightSliceSet.fromVecWithHasher]
          cases RightSliceMap.fromVecWithHasher env IdxTy.u8 (unitPayload payload) i (i + l) bh <;> rfl
        | length =>
          simp only [LengthSet.fromVec]
          cases LengthMap.fromVec env IdxTy.u8 List.length (unitPayload payload) <;> rfl
      · rw [if_neg h255, if_neg h255]
        cases v with
        | normal =>
          simp only [CommonSet.fromVecWithHasher]
          cases CommonMap.fromVecWithHasher env IdxTy.usize enc (unitPayload payload) bh <;> rfl
        | left i l =>
          simp only [LeftSliceSet.fromVecWithHasher]
          cases LeftSliceMap.fromVecWithHasher env IdxTy.usize (unitPayload payload) i (i + l) bh <;> rfl
        | right i l =>
          simp only [RightSliceSet.fromVecWithHasher]
          cases RightSliceMap.fromVecWithHasher env IdxTy.usize (unitPayload payload) i (i + l) bh <;> rfl
        | length =>
          simp only [CommonSet.fromVecWithHasher]
          cases CommonMap.fromVecWithHasher env IdxTy.usize enc (unitPayload payload) bh <;> rfl

omit [Target] in
theorem UMap.asks_forget {E : Type} {u' : UserCode (σ × List E) T Q} {u : UserCode σ T Q}
    (hu : u'.Forgets u) (m : UMap T Unit) (l : List (SetAsk Q)) :
    Forgets (m.asks u' l) (m.asks u l) := by
  have hget : ∀ q, Forgets (m.setGet u' q) (m.setGet u q) := fun q =>
    (UMap.lookup_forgets hu m q).bind (fun o => by cases o <;> exact .pure)
  refine Forgets.mapList (fun a => ?_) l
  cases a with
  | get q => exact (hget q).bind (fun _ => .pure)
  | contains q => exact ((hget q).bind (fun _ => .pure)).bind (fun _ => .pure)
  | len => exact .pure
  | isEmpty => exact .pure
  | iter => exact .pure

end FC
