import Verif.Lemmas.SelfEq
import Verif.Props.FirstMatch
import Verif.Lemmas.Slice
import Verif.Props.SetOps

/-
Sets that may repeat values.
-/

set_option autoImplicit false

namespace FC
variable [Target]
variable {T : Type}

omit [Target] in
theorem Answers.shows {eq : T → T → Bool} {s : SetI T} {p : List T} (h : Answers eq s)
    (hp : s.iter.Perm p) : Shows eq s p where
  contains x := by
    obtain ⟨b, h1, h2⟩ := h.contains x
    exact ⟨b, h1, h2.trans (has_perm hp x)⟩
  len := by rw [h.len, hp.length_eq]
  iter := hp

omit [Target] in
theorem Shows.answers {eq : T → T → Bool} {s : SetI T} {p : List T} (h : Shows eq s p) :
    Answers eq s where
  contains x := by
    obtain ⟨b, h1, h2⟩ := h.contains x
    exact ⟨b, h1, h2.trans (has_perm h.iter x).symm⟩
  len := by rw [h.len, h.iter.length_eq]

theorem SetRepeatsFine.reliable {env : Env} {ty : KeyTy T} (hty : LawfulKey ty) {p : List T}
    (hcap : p.length < 2 ^ 32) (hrep : SetRepeatsFine ty p) {bh : Hasher} {s : FrozenSet T}
    (hs : FrozenSet.new env ty p bh = .ok s) : (∀ r, s ≠ .u32Range r) ∨ Distinct ty.eq p := by
  rcases hrep with h | h | h
  · exact Or.inr h
  · left
    rintro r rfl
    have hm := FrozenSet.new_ok hs
    unfold FrozenMap.new at hm
    rw [if_pos (by rw [unitPayload_length]; exact h)] at hm
    cases hm
  · left
    rintro r rfl
    have hm := FrozenSet.new_ok hs
    obtain ⟨f, g, hk, ⟨a, ha, b, hb, hall, hd⟩, _⟩ := u32Range_spans hty
      (by rw [unitPayload_length]; exact hcap) hm
    refine h f g hk ⟨a.1, ?_, b.1, ?_, fun x hx => ?_, ?_⟩
    · obtain ⟨x, hx, rfl⟩ := List.mem_map.1 ha; exact hx
    · obtain ⟨x, hx, rfl⟩ := List.mem_map.1 hb; exact hx
    · exact hall (x, ()) (List.mem_map.2 ⟨x, hx, rfl⟩)
    · rw [hd, unitPayload_length]

theorem BagOf.shows {eq : T → T → Bool} (heq : LawfulEq eq) {s : SetI T} {p : List T}
    (h : BagOf T eq s p) : Shows eq s p := by
  cases h with
  | frozen env env₁ ty bh _ s hty hc hr hs =>
    obtain ⟨h1, h2⟩ := FrozenSet.answers env hty hc hs (hr.reliable hty hc hs)
    exact h1.shows h2
  | scanning _ enc _ =>
    have hi : ((ScanningSet.fromVec p).toSetI ⟨id, eq, enc⟩).iter
        = (unitPayload p).map (·.1) := items_new _
    refine Answers.shows (answers_of_scan (es := unitPayload p) (fun x => ?_) hi rfl) ?_
    · exact keyOf_isSome (.ok (scan eq id x 0 (unitPayload p)))
    · rw [hi, unitPayload_keys]
  | common env S cap _ enc bh _ s hS hc henc hs =>
    obtain ⟨m, h1, h2, h3, h4, _⟩ := CommonMap.fromVec_ok env hS enc (payload := unitPayload p)
      (by rw [unitPayload_length]; exact hc) bh
    unfold CommonSet.fromVecWithHasher at hs
    rw [h1] at hs
    cases hs
    have hi : ((CommonSet.mk m).toSetI ⟨id, eq, enc⟩).iter = m.table.entries.map (·.1) := items_new _
    refine Answers.shows (answers_of_scan (es := m.table.entries) (fun x => ?_) hi rfl)
      (by rw [hi]; exact unit_perm h4)
    have := CommonMap.getKV_eq (ty := ⟨eq, enc, .other⟩) ⟨heq, henc, trivial⟩ (m := m)
      (by rw [h3]; exact h2) x
    rw [← this]
    exact keyOf_isSome _
  | integer env S cap p s hS hc hs =>
    obtain ⟨m, h1, h2, h4, _⟩ := IntegerMap.fromVec_ok env hS (payload := unitPayload p)
      (by rw [unitPayload_length]; exact hc)
    unfold IntegerSet.fromVec at hs
    rw [h1] at hs
    cases hs
    have hi : (IntegerSet.mk m).toSetI.iter = m.table.entries.map (·.1) := items_new _
    refine Answers.shows (answers_of_scan (es := m.table.entries) (fun x => ?_) hi rfl)
      (by rw [hi]; exact unit_perm h4)
    rw [show (Res.ok (scan (fun a b : Int => decide (a = b)) id x 0 m.table.entries))
      = m.getKeyValue x from (IntegerMap.getKV_eq h2 x).symm]
    exact keyOf_isSome _
  | length env S cap _ lenT _ s hS hc hlen hs =>
    obtain ⟨m, h1, h2, h4, _⟩ := LengthMap.fromVec_ok env hS lenT (payload := unitPayload p)
      (by rw [unitPayload_length]; exact hc)
    unfold LengthSet.fromVec at hs
    rw [h1] at hs
    cases hs
    have hi : ((LengthSet.mk m).toSetI eq lenT).iter = m.table.entries.map (·.1) := items_new _
    refine Answers.shows (answers_of_scan (es := m.table.entries) (fun x => ?_) hi rfl)
      (by rw [hi]; exact unit_perm h4)
    have := tableLookup_eq h2 (eq := eq) (borrow := id) (code := lenT x) (q := x)
      (fun e _ h => (hlen _ _ h).symm)
    rw [← this, ← LengthMap.getKV_lookup]
    exact keyOf_isSome _
  | leftSlice env S cap a b bh p s hS hc hab hlong hs =>
    obtain ⟨m, h1, h2, _, _, _, h4, _⟩ := LeftSliceMap.fromVec_ok env hS
      (payload := unitPayload p) (by rw [unitPayload_length]; exact hc) hab
      (by
        intro e he
        obtain ⟨k, hk, rfl⟩ := List.mem_map.1 he
        exact hlong k hk) bh
    unfold LeftSliceSet.fromVecWithHasher at hs
    rw [h1] at hs
    cases hs
    have hi : (LeftSliceSet.mk m).toSetI.iter = m.table.entries.map (·.1) := items_new _
    refine Answers.shows (answers_of_scan (es := m.table.entries) (fun x => ?_) hi rfl)
      (by rw [hi]; exact unit_perm h4)
    rw [show (Res.ok (scan (fun a b : Bytes => decide (a = b)) id x 0 m.table.entries))
      = m.getKeyValue x from (LeftSliceMap.getKV_eq h2 x).symm]
    exact keyOf_isSome _
  | rightSlice env S cap oc a b bh p s hS hc hab hlong hs =>
    obtain ⟨m, h1, h2, _, _, _, h4⟩ := RightSliceMap.fromVec_ok env hS
      (payload := unitPayload p) (by rw [unitPayload_length]; exact hc) hab
      (by
        intro e he
        obtain ⟨k, hk, rfl⟩ := List.mem_map.1 he
        exact hlong k hk) bh
    unfold RightSliceSet.fromVecWithHasher at hs
    rw [h1] at hs
    cases hs
    have hi : ((RightSliceSet.mk m).toSetI oc).iter = m.table.entries.map (·.1) := items_new _
    refine Answers.shows (answers_of_scan (es := m.table.entries) (fun x => ?_) hi rfl)
      (by rw [hi]; exact unit_perm h4)
    rw [show (Res.ok (scan (fun a b : Bytes => decide (a = b)) id x 0 m.table.entries))
      = m.getKeyValue oc x from (RightSliceMap.getKV_eq h2 x).symm]
    exact keyOf_isSome _
  | integerRange oc oc' t p s hb hne hr hd h =>
    unfold IntegerRangeSet.fromVec at h
    simp only [Res.bind_eq_ok, Res.pure_eq, Res.ok.injEq] at h
    obtain ⟨m, h1, rfl⟩ := h
    obtain ⟨h2, h4⟩ := rangeFromVec_rangeOK hb (payload := unitPayload p)
      (by simpa [unitPayload] using hne)
      (by
        intro e he
        obtain ⟨k, hk, rfl⟩ := List.mem_map.1 he
        exact hr k hk)
      (by rw [unitPayload_keys]; exact hd) h1
    have hi : ((IntegerRangeSet.mk m).toSetI oc' t).iter = m.entries.map (·.1) := items_new _
    refine Answers.shows (answers_of_scan (es := m.entries) (fun x => ?_) hi rfl)
      (by rw [hi]; exact unit_perm h4)
    rw [show (Res.ok (scan (fun a b : Int => decide (a = b)) id x 0 m.entries))
      = m.getKeyValue oc' t x from (rangeKV_eq h2 x).symm]
    exact keyOf_isSome _
  | std _ s hd =>
    exact (stdSet_consistent heq hd).answers.shows (List.Perm.refl _)

/-! ### Counting -/

omit [Target] in
theorem times_pos {eq : T → T → Bool} {l : List T} {x : T} : 0 < times eq l x ↔ Has eq l x := by
  unfold times Has
  rw [List.countP_pos_iff]

omit [Target] in
theorem times_append {eq : T → T → Bool} (l l' : List T) (x : T) :
    times eq (l ++ l') x = times eq l x + times eq l' x := List.countP_append

omit [Target] in
theorem times_perm {eq : T → T → Bool} {l l' : List T} (h : l.Perm l') (x : T) :
    times eq l x = times eq l' x := h.countP_eq _

omit [Target] in
theorem times_zero {eq : T → T → Bool} {l : List T} {x : T} (h : ¬ Has eq l x) : times eq l x = 0 := by
  have := times_pos (eq := eq) (l := l) (x := x)
  by_contra h'
  exact h (this.1 (by omega))

omit [Target] in
/-- Filtering by a test that respects equality keeps all occurrences or none. -/
theorem times_filter {eq : T → T → Bool} {f : T → Bool} (hf : ∀ x y, eq x y = true → f x = f y)
    (l : List T) (x : T) : times eq (l.filter f) x = if f x = true then times eq l x else 0 := by
  unfold times
  rw [List.countP_filter]
  split
  · next h =>
    refine List.countP_congr fun y _ => ?_
    by_cases hxy : eq x y = true
    · simp [hxy, ← hf x y hxy, h]
    · simp [hxy]
  · next h =>
    rw [List.countP_eq_zero]
    intro y _ hc
    simp only [Bool.and_eq_true] at hc
    exact h (by rw [hf x y hc.1]; exact hc.2)

end FC
