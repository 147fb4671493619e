import Verif.Spec.StringCode
import Verif.Lemmas.UserCodeAgree
import Verif.Lemmas.Slice

/-
Lemmas about maps of strings with misbehaving hashers.
-/

set_option autoImplicit false

namespace FC
variable [Target]
variable {σ K V Q : Type}

theorem uniqueLoopU_behaves {oc : Bool} {p P : Prop} {h : HasherCode σ} (hh : h.Safe p)
    {idx len : Nat} {left : Bool} {keys : List Bytes}
    (hs : ∀ k ∈ keys, (∃ sub, subSlice oc k idx len left = .ok sub) ∨
      (P ∧ subSlice oc k idx len left = .panic)) :
    ∀ (set : List Nat) (acc : Nat), Behaves False (p ∨ P)
      (uniqueLoopU oc h idx len left keys set acc) (fun _ => True) := by
  induction keys with
  | nil => exact fun _ _ => .pure trivial
  | cons k keys ih =>
    intro set acc
    have ih := ih (fun k' hk' => hs k' (by simp [hk']))
    unfold uniqueLoopU
    rcases hs k (by simp) with ⟨sub, he⟩ | ⟨hP, he⟩
    · refine (Behaves.lift (post := fun _ => True) he trivial).bind (fun sub _ => ?_)
      refine ((hh.hashSub sub).mono id Or.inl (fun _ h => h)).bind (fun code _ => ?_)
      exact .ite (fun _ => .ite (fun _ => .pure trivial) (fun _ => ih _ _)) (fun _ => ih _ _)
    · rw [he]
      exact fun s => Or.inr hP

omit [Target] in
theorem findIndexU_behaves {u p : Prop} {f : Nat → Call σ Bool} {last : Nat}
    (hf : ∀ i, i < last → Behaves u p (f i) (fun _ => True)) :
    ∀ (count idx : Nat), idx + count ≤ last → Behaves u p (findIndexU f idx count)
      (fun o => ∀ i ∈ o, i < last) := by
  intro count
  induction count with
  | zero => exact fun _ _ => .pure (by simp)
  | succ n ih =>
    intro idx hle
    unfold findIndexU
    refine (hf idx (by omega)).bind (fun b _ => .ite (fun _ => .pure ?_) (fun _ => ih _ (by omega)))
    intro i hi
    cases hi
    omega

/-- A right search for two or more bytes panics at its first step. -/
theorem rightSearchU_panics {oc : Bool} {h : HasherCode σ} {keys : List Bytes} (hne : keys ≠ [])
    {l : Nat} (h2 : 2 ≤ l) (hl : l ≤ minLen keys) (acc : Nat) :
    Behaves False True (findIndexU (fun i => uniqueLoopU oc h i l false keys [] acc)
        0 (minLen keys - l + 1)) (fun _ => False) := by
  intro s
  cases keys with
  | nil => exact absurd rfl hne
  | cons k ks =>
    have := minLen_le (keys := k :: ks) (k := k) List.mem_cons_self
    unfold findIndexU uniqueLoopU
    rw [Call.bind_apply, Call.lift_bind, subSlice_right_zero (by omega) h2]
    trivial

/-- What the searches establish about the verdict. -/
def GoodVerdict (keys : List Bytes) (v : SliceVerdict) : Prop :=
  (∀ i l, v = .left i l → ∀ k ∈ keys, i + l ≤ k.length) ∧
  (∀ i l, v = .right i l → TriesEnds keys ∧ l = 1 ∧ ∀ k ∈ keys, i + 1 ≤ k.length)

theorem subsliceLoopU_behaves {oc : Bool} {p : Prop} {h : HasherCode σ} (hh : h.Safe p)
    {keys : List Bytes} (h4 : 4 ≤ keys.length) (hns : ¬ LengthsSpread keys)
    (hlt : ∀ k ∈ keys, k.length < usz) (acc : Nat) :
    ∀ (count len : Nat), 1 ≤ len → len + count ≤ minLen keys + 1 →
      Behaves False (p ∨ TriesEnds keys)
        (subsliceLoopU oc h keys (minLen keys) (maxLen keys) acc len count) (GoodVerdict keys) := by
  have hne : keys ≠ [] := by rintro rfl; simp at h4
  intro count
  induction count with
  | zero => exact fun len _ _ => .pure ⟨fun i l h => (by cases h), fun i l h => (by cases h)⟩
  | succ n ih =>
    intro len h1 hle
    unfold subsliceLoopU
    have hleft : Behaves False (p ∨ TriesEnds keys)
        (findIndexU (fun i => uniqueLoopU oc h i len true keys [] acc) 0 (minLen keys - len + 1))
        (fun o => ∀ i ∈ o, i < minLen keys - len + 1) := by
      refine findIndexU_behaves (fun i hi => uniqueLoopU_behaves hh (fun k hk => Or.inl ?_) _ _) _ _
        (by omega)
      exact ⟨_, subSlice_left (by have := minLen_le hk; omega)⟩
    refine hleft.bind (fun o ho => ?_)
    cases o with
    | some i =>
      have := ho i rfl
      refine .ite (fun _ => .pure ⟨fun i l h => (by cases h), fun i l h => (by cases h)⟩)
        (fun _ => .pure ⟨fun i' l' h k hk => ?_, fun i l h => (by cases h)⟩)
      cases h
      have := minLen_le hk
      omega
    | none =>
      refine .ite (fun hmm => ?_) (fun _ => ih _ (by omega) (by omega))
      have hT : TriesEnds keys := by
        refine ⟨h4, hns, fun h => hmm ((minLen_eq_maxLen_iff hne hlt).2 h), ?_⟩
        rintro k hk rfl
        have := minLen_le hk
        simp at this
        omega
      by_cases hlen : len = 1
      · subst hlen
        have hright : Behaves False (p ∨ TriesEnds keys)
            (findIndexU (fun i => uniqueLoopU oc h i 1 false keys [] acc) 0
              (minLen keys - 1 + 1)) (fun o => ∀ i ∈ o, i < minLen keys - 1 + 1) := by
          refine findIndexU_behaves (fun i hi => uniqueLoopU_behaves hh (fun k hk => Or.inl ?_) _ _)
            _ _ (by omega)
          exact ⟨_, subSlice_right_one (by have := minLen_le hk; omega)⟩
        refine hright.bind (fun o ho => ?_)
        cases o with
        | some i =>
          have := ho i rfl
          refine .pure ⟨fun i l h => (by cases h), fun i' l' h => ?_⟩
          cases h
          refine ⟨hT, rfl, fun k hk => ?_⟩
          have := minLen_le hk
          omega
        | none => exact ih _ (by omega) (by omega)
      · exact ((rightSearchU_panics hne (by omega) (by omega) acc).mono id (fun _ => Or.inr hT)
          (fun _ h => h)).bind (fun _ h => h.elim)

theorem analyzeSliceKeysU_behaves {oc : Bool} {p : Prop} {h : HasherCode σ} (hh : h.Safe p)
    {keys : List Bytes} (h4 : 4 ≤ keys.length) (hlt : ∀ k ∈ keys, k.length < usz) :
    Behaves False (p ∨ TriesEnds keys) (analyzeSliceKeysU oc h keys) (GoodVerdict keys) := by
  unfold analyzeSliceKeysU
  have hl := analyzeLengths_iff keys
  refine .ite (fun hn => ?_) (fun _ => .pure ?_)
  · exact subsliceLoopU_behaves hh h4 (fun hs => by rw [hl.2 hs] at hn; cases hn) hlt _ _ _
      (Nat.le_refl _) (by omega)
  · rcases analyzeLengths_cases keys with h | h <;> rw [h] <;>
      exact ⟨fun i l h => (by cases h), fun i l h => (by cases h)⟩

omit [Target] in
theorem HasherCode.sliceHash_behaves {p : Prop} {h : HasherCode σ} (hh : h.Safe p) {s : Bytes}
    {a b : Nat} (hab : a ≤ b) (hb : b ≤ s.length) :
    Behaves False p (h.sliceHash s a b) (fun _ => True) := by
  unfold HasherCode.sliceHash
  refine (Behaves.lift (post := fun _ => True) (if_pos ⟨hab, hb⟩) trivial).bind (fun sub _ => ?_)
  exact hh.writeSub sub

omit [Target] in
theorem beq_behaves {u p : Prop} (a b : Bytes) :
    Behaves u p (pure (beq a b) : Call σ Bool) (fun _ => True) := .pure trivial

/-- Lookups of all but the maps that hash ends are safe. -/
theorem StringRep.code_safe {p : Prop} {h : HasherCode σ} (hh : h.Safe p) (oc : Bool)
    {rep : StringRep} (hr : match rep with
      | .left a b => a ≤ b
      | .right _ _ => False
      | _ => True) : (rep.code oc h).SafeLookup p := by
  cases rep with
  | scanning => exact ⟨hh.hashKey, beq_behaves, beq_behaves⟩
  | common => exact ⟨hh.hashKey, beq_behaves, beq_behaves⟩
  | left a b =>
    refine ⟨fun q => ?_, beq_behaves, beq_behaves⟩
    exact .ite (fun hq => HasherCode.sliceHash_behaves hh hr hq) (fun _ => .pure trivial)
  | right a b => exact hr.elim
  | length => exact ⟨fun q => .pure trivial, beq_behaves, beq_behaves⟩

theorem StringRep.code_eqOK (h : HasherCode σ) (oc : Bool) (rep : StringRep) :
    (rep.code oc h).EqOK := by
  have h1 : ∀ q k : Bytes, Behaves True True (pure (beq q k) : Call σ Bool)
      (fun b => b = true → q = k) := fun q k => .pure (by simp [beq])
  have h2 : ∀ q k : Bytes, Behaves True True (pure (beq q k) : Call σ Bool)
      (fun b => b = false → q ≠ k) := fun q k => .pure (by simp [beq])
  refine ⟨Bytes, id, id, fun q k => ?_, fun a b => ?_⟩
  · cases rep <;> exact h1 q k
  · cases rep <;> exact h2 a b

theorem StringRep.code_mayMatch {h : HasherCode σ} {oc : Bool} {rep : StringRep} {q k : Bytes}
    (hm : (rep.code oc h).MayMatch q k) : q = k := by
  obtain ⟨s, s', hm⟩ := hm
  have h1 : (pure (beq q k) : Call σ Bool) s = .ok (true, s') := by cases rep <;> exact hm
  rw [Call.pure_apply] at h1
  injection h1 with h1
  injection h1 with h1
  simpa [beq] using h1

/-- Building a map that hashes ends is undefined behaviour. -/
theorem fromVec_right_ub {env : Env} {S : IdxTy} {h : HasherCode σ} {i : Nat}
    {payload : List (Bytes × V)} (hne : payload ≠ []) (hb : ∀ e ∈ payload, i + 1 ≤ e.1.length) :
    Behaves True False (UMap.fromVec env S ((StringRep.right i (i + 1)).code env.oc h) payload)
      (fun _ => False) := by
  intro s
  obtain _ | ⟨e, es⟩ := payload
  · exact absurd rfl hne
  · have hlen := hb e (by simp)
    have hc : ((StringRep.right i (i + 1)).code env.oc h).sizeCode e.1 s = .ub := by
      show (do
        let n ← (pure e.1.length : Call σ Nat)
        if n ≥ i + 1 then
          rightCall env.oc i (i + 1) (fun k : Bytes => pure k.length) h.sliceHash e.1
        else pure 0) s = _
      rw [Call.pure_bind', if_pos hlen]
      unfold rightCall
      rw [Call.pure_bind', Call.lift_bind]
      unfold usub
      generalize usz = W
      rw [if_pos (by omega), Res.ok_bind, Call.pure_bind', Call.lift_bind, if_pos hlen, Res.ok_bind]
      unfold HasherCode.sliceHash
      rw [Call.lift_bind]
      unfold sliceUnchecked
      rw [if_neg (by omega)]
      rfl
    unfold UMap.fromVec
    rw [Call.bind_apply]
    unfold Call.mapList
    rw [Call.bind_apply, hc]
    trivial

theorem UMap.stringFacade_behaves (env : Env) {p : Prop} {h : HasherCode σ} (hh : h.Safe p)
    {payload : List (Bytes × V)} (hbig : 2 ^ 31 ≤ payload.length → p)
    (hlt : ∀ e ∈ payload, e.1.length < usz) :
    Behaves (TriesEnds (payload.map (·.1))) (p ∨ TriesEnds (payload.map (·.1)))
      (UMap.stringFacade env h payload)
      (fun m => (m.1.code env.oc h).SafeLookup p ∧ m.2.OK ∧ m.2.entries.Perm payload) := by
  unfold UMap.stringFacade
  refine .ite (fun _ => .pure ⟨StringRep.code_safe hh _ trivial, trivial, .refl _⟩) (fun h4 => ?_)
  have hne : payload ≠ [] := by rintro rfl; simp at h4
  have hmem : ∀ {k : Bytes → Prop}, (∀ x ∈ payload.map (·.1), k x) → ∀ e ∈ payload, k e.1 :=
    fun hk e he => hk _ (List.mem_map.2 ⟨e, he, rfl⟩)
  have hbuild : ∀ (S : IdxTy), (¬ S.Holds payload.length → p) → ∀ (v : SliceVerdict), GoodVerdict (payload.map (·.1)) v →
      ∀ rep, (rep = v.rep ∨ rep = .common) →
      Behaves (TriesEnds (payload.map (·.1))) (p ∨ TriesEnds (payload.map (·.1)))
        (do return (rep, ← UMap.fromVec env S (rep.code env.oc h) payload))
        (fun m => (m.1.code env.oc h).SafeLookup p ∧ m.2.OK ∧ m.2.entries.Perm payload) := by
    intro S hS v hv rep hrep
    have hsafe : ∀ rep : StringRep, (rep.code env.oc h).SafeLookup p →
        (∀ e ∈ payload, Behaves False p ((rep.code env.oc h).sizeCode e.1) (fun _ => True)) →
        (∀ e ∈ payload, Behaves False p ((rep.code env.oc h).slotCode e.1) (fun _ => True)) →
        Behaves (TriesEnds (payload.map (·.1))) (p ∨ TriesEnds (payload.map (·.1)))
          (do return (rep, ← UMap.fromVec env S (rep.code env.oc h) payload))
          (fun m => (m.1.code env.oc h).SafeLookup p ∧ m.2.OK ∧ m.2.entries.Perm payload) :=
      fun rep h1 h2 h3 => ((UMap.fromVec_behaves' env h2 h3 hS).mono False.elim Or.inl
        (fun _ h => h)).bind (fun m hm => .pure ⟨h1, hm⟩)
    have hcommon := hsafe .common (StringRep.code_safe hh _ trivial)
      (fun e _ => hh.hashKey e.1) (fun e _ => hh.hashKey e.1)
    rcases hrep with rfl | rfl
    · cases v with
      | normal => exact hcommon
      | left i l =>
        have hin := hmem (hv.1 i l rfl)
        refine hsafe (.left i (i + l)) (StringRep.code_safe hh _ (Nat.le_add_right _ _))
          (fun e he => ?_) (fun e he => HasherCode.sliceHash_behaves hh (by omega) (hin e he))
        exact .ite (fun _ => HasherCode.sliceHash_behaves hh (by omega) (hin e he))
          (fun _ => .pure trivial)
      | right i l =>
        obtain ⟨hT, rfl, hin⟩ := hv.2 i l rfl
        exact ((fromVec_right_ub hne (hmem hin)).mono (fun _ => hT) False.elim
          (fun _ h => h)).bind (fun _ h => h.elim)
      | length =>
        exact hsafe .length (StringRep.code_safe hh _ trivial) (fun e _ => .pure trivial)
          (fun e _ => .pure trivial)
    · exact hcommon
  refine ((analyzeSliceKeysU_behaves (keys := payload.map (·.1)) hh (by simpa using h4)
    (fun k hk => by obtain ⟨e, he, rfl⟩ := List.mem_map.1 hk; exact hlt e he)).mono False.elim id (fun _ h => h)).bind (fun v hv => ?_)
  refine .ite (fun h255 => ?_) (fun _ => ?_)
  · exact hbuild IdxTy.u8 (fun hn => absurd ⟨255, by simp, h255⟩ hn) v hv _ (Or.inl rfl)
  · refine hbuild IdxTy.usize (fun hn => hbig (Nat.le_of_not_lt (fun h =>
      hn ⟨2 ^ 31 - 1, by simp, by omega⟩))) v hv _ ?_
    by_cases hv' : v = .length
    · rw [if_pos hv']; exact Or.inr rfl
    · rw [if_neg hv']; exact Or.inl rfl

omit [Target] in
theorem Loose.Step.mono {R R' : Q → K → Prop} (hR : ∀ q k, R q k → R' q k) {d d' : List (K × V)}
    {op : MapOp V Q} {o : Out K V} (h : Loose.Step R d op o d') : Loose.Step R' d op o d' := by
  cases h with
  | getNone q => exact .getNone q
  | get q e a b => exact .get q e a (hR _ _ b)
  | kvNone q => exact .kvNone q
  | kv q e a b => exact .kv q e a (hR _ _ b)
  | contains q b a => exact .contains q b (fun h => let ⟨e, x, y⟩ := a h; ⟨e, x, hR _ _ y⟩)
  | index q e a b => exact .index q e a (hR _ _ b)
  | len => exact .len
  | iter => exact .iter
  | keys => exact .keys
  | values => exact .values
  | getMutNone q v => exact .getMutNone q v
  | getMut q v i e a b => exact .getMut q v i e a (hR _ _ b)
  | indexMut q v i e a b => exact .indexMut q v i e a (hR _ _ b)
  | manyNone qvs => exact .manyNone qvs
  | many qvs is es a b c => exact .many qvs is es a b (c.imp (fun _ _ h => hR _ _ h))

omit [Target] in
theorem Loose.Run.mono {R R' : Q → K → Prop} (hR : ∀ q k, R q k → R' q k) {d : List (K × V)}
    {ops : List (MapOp V Q)} {os : List (Out K V)} (h : Loose.Run R d ops os) :
    Loose.Run R' d ops os := by
  induction h with
  | nil d => exact .nil d
  | cons h _ ih => exact .cons (h.mono hR) ih

end FC
