import Verif.Spec.SetCode
import Verif.Lemmas.UserCodeAgree
import Verif.Model.Sets

/-
Lemmas on set operations over misbehaving operands.
-/

set_option autoImplicit false

namespace FC
variable [Target]
variable {σ T : Type}

omit [Target] in
theorem Feed.items_nil : Feed.items ([] : Feed T) = [] := rfl
omit [Target] in
theorem Feed.items_none (a : Feed T) : Feed.items (none :: a) = a.items := rfl
omit [Target] in
theorem Feed.items_some (x : T) (a : Feed T) : Feed.items (some x :: a) = x :: a.items := rfl

omit [Target] in
/-- Both facts about one call. -/
theorem USet.contains_behaves {p : Prop} {s : USet σ T} (hs : s.Safe p) {In Out : T → Prop}
    (hc : s.Claims In Out) (x : T) :
    Behaves False p (s.contains x) (fun b => if b = true then In x else Out x) :=
  ((hs.contains x).and (hc x)).mono (fun h => h.1) (fun h => h.1) (fun _ h => h.2)

omit [Target] in
/-- The skipping loop hands out the first acceptable item and leaves the items after it. -/
theorem skipToU_behaves {p : Prop} {contains : T → Call σ Bool} {In Out : T → Prop}
    (hc : ∀ x, Behaves False p (contains x) (fun b => if b = true then In x else Out x))
    (want : Bool) (as : Feed T) :
    Behaves False p (skipToU want contains as) (fun o =>
      (∀ x, o.1 = some x → (if want = true then In x else Out x) ∧
        ∃ pre, as.items = pre ++ x :: o.2.items) ∧
      (o.1 = none → ∃ pre, as.items = pre ++ o.2.items)) := by
  induction as with
  | nil => exact Behaves.pure ⟨(fun x h => by cases h), fun _ => ⟨[], rfl⟩⟩
  | cons a as ih =>
    cases a with
    | none => exact Behaves.pure ⟨(fun x h => by cases h), fun _ => ⟨[], rfl⟩⟩
    | some y =>
      unfold skipToU
      refine (hc y).bind (fun b hb => ?_)
      refine Behaves.ite (fun hw => ?_) (fun hw => ?_)
      · refine Behaves.pure ⟨?_, by rintro h; cases h⟩
        rintro x hx
        simp only [Option.some.injEq] at hx
        subst hx
        exact ⟨by rw [← hw]; exact hb, [], rfl⟩
      · refine ih.mono id id (fun o ho => ⟨fun x hx => ?_, fun hx => ?_⟩)
        · obtain ⟨h1, pre, h2⟩ := ho.1 x hx
          exact ⟨h1, y :: pre, by rw [Feed.items_some, h2]; rfl⟩
        · obtain ⟨pre, h2⟩ := ho.2 hx
          exact ⟨y :: pre, by rw [Feed.items_some, h2]; rfl⟩

/-- One step of a set-operation iterator: it yields an item of one side for which the side's
condition holds, or nothing; items passed over are gone. -/
def Draws (P Q : T → Prop) (s : UBin σ T) (r : Option T × UBin σ T) : Prop :=
  r.2.s1 = s.s1 ∧ r.2.s2 = s.s2 ∧
  ((r.1 = none ∧ r.2.it1.items <:+ s.it1.items ∧ r.2.it2.items <:+ s.it2.items) ∨
   (∃ x, r.1 = some x ∧ P x ∧ (∃ pre, s.it1.items = pre ++ x :: r.2.it1.items) ∧
      r.2.it2.items <:+ s.it2.items) ∨
   (∃ x, r.1 = some x ∧ Q x ∧ (∃ pre, s.it2.items = pre ++ x :: r.2.it2.items) ∧
      r.2.it1.items <:+ s.it1.items))

omit [Target] in
theorem Feed.next_suffix (a : Feed T) : a.next.2.items <:+ a.items := by
  cases a with
  | nil => exact List.suffix_refl _
  | cons o as => cases o with
    | none => exact List.suffix_refl _
    | some x => exact List.suffix_cons _ _

omit [Target] in
theorem Feed.next_some {a : Feed T} {x : T} {r : Feed T} (h : a.next = (some x, r)) :
    a = some x :: r := by
  cases a with
  | nil => cases h
  | cons o as => simp only [Feed.next, Prod.mk.injEq] at h; rw [h.1, h.2]

omit [Target] in
theorem Feed.next_none {a : Feed T} {r : Feed T} (h : a.next = (none, r)) :
    (a = [] ∧ r = []) ∨ a = none :: r := by
  cases a with
  | nil => simp only [Feed.next, Prod.mk.injEq] at h; exact Or.inl ⟨rfl, h.2.symm⟩
  | cons o as => simp only [Feed.next, Prod.mk.injEq] at h; rw [h.1, h.2]; exact Or.inr rfl

variable {p : Prop} {a b : USet σ T} {In1 Out1 In2 Out2 : T → Prop}

omit [Target] in
theorem UBin.unionNext_draws (ha : a.Safe p) (hb : b.Safe p) (ca : a.Claims In1 Out1)
    (cb : b.Claims In2 Out2) (s : UBin σ T) (h1 : s.s1 = a) (h2 : s.s2 = b) :
    Behaves False p s.unionNext (Draws (fun _ => True) (fun _ => True) s) := by
  unfold UBin.unionNext
  rw [h1, h2]
  refine ha.len.bind (fun l1 _ => hb.len.bind (fun l2 _ => Behaves.ite (fun _ => ?_) (fun _ => ?_)))
  · rcases hn : s.it1.next with ⟨_ | x, r⟩
    · refine (skipToU_behaves (USet.contains_behaves ha ca) false s.it2).bind (fun o ho => ?_)
      refine Behaves.pure ⟨h1.symm ▸ rfl, h2.symm ▸ rfl, ?_⟩
      have hs : r.items <:+ s.it1.items := by have := s.it1.next_suffix; rwa [hn] at this
      rcases ho1 : o.1 with _ | x
      · obtain ⟨pre, hp⟩ := ho.2 ho1
        exact Or.inl ⟨rfl, hs, ⟨pre, hp.symm⟩⟩
      · exact Or.inr (Or.inr ⟨x, rfl, trivial, (ho.1 x ho1).2, hs⟩)
    · refine Behaves.pure ⟨h1.symm ▸ rfl, h2.symm ▸ rfl, Or.inr (Or.inl ⟨x, rfl, trivial, ⟨[], ?_⟩,
        List.suffix_refl _⟩)⟩
      rw [Feed.next_some hn]
      rfl
  · rcases hn : s.it2.next with ⟨_ | x, r⟩
    · refine (skipToU_behaves (USet.contains_behaves hb cb) false s.it1).bind (fun o ho => ?_)
      refine Behaves.pure ⟨h1.symm ▸ rfl, h2.symm ▸ rfl, ?_⟩
      have hs : r.items <:+ s.it2.items := by have := s.it2.next_suffix; rwa [hn] at this
      rcases ho1 : o.1 with _ | x
      · obtain ⟨pre, hp⟩ := ho.2 ho1
        exact Or.inl ⟨rfl, ⟨pre, hp.symm⟩, hs⟩
      · exact Or.inr (Or.inl ⟨x, rfl, trivial, (ho.1 x ho1).2, hs⟩)
    · refine Behaves.pure ⟨h1.symm ▸ rfl, h2.symm ▸ rfl, Or.inr (Or.inr ⟨x, rfl, trivial, ⟨[], ?_⟩,
        List.suffix_refl _⟩)⟩
      rw [Feed.next_some hn]
      rfl

omit [Target] in
theorem UBin.symDiffNext_draws (ha : a.Safe p) (hb : b.Safe p) (ca : a.Claims In1 Out1)
    (cb : b.Claims In2 Out2) (s : UBin σ T) (h1 : s.s1 = a) (h2 : s.s2 = b) :
    Behaves False p s.symDiffNext (Draws Out2 Out1 s) := by
  unfold UBin.symDiffNext
  rw [h1, h2]
  refine (skipToU_behaves (USet.contains_behaves hb cb) false s.it1).bind (fun o ho => ?_)
  rcases ho1 : o.1 with _ | x
  · obtain ⟨pre, hp⟩ := ho.2 ho1
    refine (skipToU_behaves (USet.contains_behaves ha ca) false s.it2).bind (fun o2 ho2 => ?_)
    refine Behaves.pure ⟨h1.symm ▸ rfl, h2.symm ▸ rfl, ?_⟩
    rcases ho21 : o2.1 with _ | x
    · obtain ⟨pre2, hp2⟩ := ho2.2 ho21
      exact Or.inl ⟨rfl, ⟨pre, hp.symm⟩, ⟨pre2, hp2.symm⟩⟩
    · obtain ⟨hx, hpre⟩ := ho2.1 x ho21
      exact Or.inr (Or.inr ⟨x, rfl, hx, hpre, ⟨pre, hp.symm⟩⟩)
  · obtain ⟨hx, hpre⟩ := ho.1 x ho1
    exact Behaves.pure ⟨h1.symm ▸ rfl, h2.symm ▸ rfl,
      Or.inr (Or.inl ⟨x, rfl, hx, hpre, List.suffix_refl _⟩)⟩

omit [Target] in
theorem UBin.differenceNext_draws (hb : b.Safe p)
    (cb : b.Claims In2 Out2) (s : UBin σ T) (h2 : s.s2 = b) :
    Behaves False p s.differenceNext (Draws Out2 (fun _ => False) s) := by
  unfold UBin.differenceNext
  rw [h2]
  refine (skipToU_behaves (USet.contains_behaves hb cb) false s.it1).bind (fun o ho => ?_)
  refine Behaves.pure ⟨rfl, h2.symm ▸ rfl, ?_⟩
  rcases ho1 : o.1 with _ | x
  · obtain ⟨pre, hp⟩ := ho.2 ho1
    exact Or.inl ⟨rfl, ⟨pre, hp.symm⟩, List.suffix_refl _⟩
  · obtain ⟨hx, hpre⟩ := ho.1 x ho1
    exact Or.inr (Or.inl ⟨x, rfl, hx, hpre, List.suffix_refl _⟩)

omit [Target] in
theorem UBin.intersectionNext_draws (ha : a.Safe p) (hb : b.Safe p) (ca : a.Claims In1 Out1)
    (cb : b.Claims In2 Out2) (s : UBin σ T) (h1 : s.s1 = a) (h2 : s.s2 = b) :
    Behaves False p s.intersectionNext (Draws In2 In1 s) := by
  unfold UBin.intersectionNext
  rw [h1, h2]
  refine ha.len.bind (fun l1 _ => hb.len.bind (fun l2 _ => Behaves.ite (fun _ => ?_) (fun _ => ?_)))
  · refine (skipToU_behaves (USet.contains_behaves hb cb) true s.it1).bind (fun o ho => ?_)
    refine Behaves.pure ⟨h1.symm ▸ rfl, h2.symm ▸ rfl, ?_⟩
    rcases ho1 : o.1 with _ | x
    · obtain ⟨pre, hp⟩ := ho.2 ho1
      exact Or.inl ⟨rfl, ⟨pre, hp.symm⟩, List.suffix_refl _⟩
    · obtain ⟨hx, hpre⟩ := ho.1 x ho1
      exact Or.inr (Or.inl ⟨x, rfl, hx, hpre, List.suffix_refl _⟩)
  · refine (skipToU_behaves (USet.contains_behaves ha ca) true s.it2).bind (fun o ho => ?_)
    refine Behaves.pure ⟨h1.symm ▸ rfl, h2.symm ▸ rfl, ?_⟩
    rcases ho1 : o.1 with _ | x
    · obtain ⟨pre, hp⟩ := ho.2 ho1
      exact Or.inl ⟨rfl, List.suffix_refl _, ⟨pre, hp.symm⟩⟩
    · obtain ⟨hx, hpre⟩ := ho.1 x ho1
      exact Or.inr (Or.inr ⟨x, rfl, hx, hpre, List.suffix_refl _⟩)

omit [Target] in
/-- What one step draws, any number of steps draw. -/
theorem ncalls_draws {P Q : T → Prop} {next : UBin σ T → Call σ (Option T × UBin σ T)}
    (h : ∀ s : UBin σ T, s.s1 = a → s.s2 = b → Behaves False p (next s) (Draws P Q s)) (n : Nat) :
    ∀ s : UBin σ T, s.s1 = a → s.s2 = b →
      Behaves False p (ncalls next n s) (fun r => DrawnFrom s.it1 s.it2 P Q r.1) := by
  induction n with
  | zero =>
    intro s _ _
    exact Behaves.pure ⟨[], [], List.nil_sublist _, List.nil_sublist _, by simp, by simp, .nil⟩
  | succ n ih =>
    intro s h1 h2
    unfold ncalls
    refine (h s h1 h2).bind (fun r hr => ?_)
    obtain ⟨e1, e2, hr⟩ := hr
    refine (ih r.2 (e1.trans h1) (e2.trans h2)).bind (fun rs hrs => Behaves.pure ?_)
    obtain ⟨la, lb, sa, sb, pa, pb, hi⟩ := hrs
    rcases hr with ⟨ho, t1, t2⟩ | ⟨x, ho, hx, ⟨pre, t1⟩, t2⟩ | ⟨x, ho, hx, ⟨pre, t1⟩, t2⟩
    · refine ⟨la, lb, sa.trans t1.sublist, sb.trans t2.sublist, pa, pb, ?_⟩
      show Interleave la lb (Feed.items (r.1 :: rs.1))
      rw [ho]
      exact hi
    · refine ⟨x :: la, lb, ?_, sb.trans t2.sublist, ?_, pb, ?_⟩
      · rw [t1]
        exact (sa.cons_cons x).trans (List.sublist_append_right _ _)
      · intro y hy
        rcases List.mem_cons.1 hy with rfl | hy
        · exact hx
        · exact pa y hy
      · show Interleave (x :: la) lb (Feed.items (r.1 :: rs.1))
        rw [ho]
        exact .left hi
    · refine ⟨la, x :: lb, sa.trans t2.sublist, ?_, pa, ?_, ?_⟩
      · rw [t1]
        exact (sb.cons_cons x).trans (List.sublist_append_right _ _)
      · intro y hy
        rcases List.mem_cons.1 hy with rfl | hy
        · exact hx
        · exact pb y hy
      · show Interleave la (x :: lb) (Feed.items (r.1 :: rs.1))
        rw [ho]
        exact .right hi

/-! ### Staying exhausted -/

/-- Nothing left. -/
def Feed.Done (a : Feed T) : Prop := ∀ o ∈ a, o = none

omit [Target] in
theorem Feed.Fused.nil : Feed.Fused ([] : Feed T) := ⟨[], 0, rfl⟩

omit [Target] in
theorem Feed.Fused.of_done {a : Feed T} (h : a.Done) : a.Fused :=
  ⟨[], a.length, List.eq_replicate_iff.2 ⟨rfl, h⟩⟩

omit [Target] in
theorem Feed.Fused.cons_some {a : Feed T} (h : a.Fused) (x : T) :
    Feed.Fused (some x :: a) := by
  obtain ⟨l, n, rfl⟩ := h
  exact ⟨x :: l, n, rfl⟩

omit [Target] in
theorem Feed.Fused.of_none {a : Feed T} (h : Feed.Fused (none :: a)) : a.Done := by
  obtain ⟨l, n, h⟩ := h
  cases l with
  | cons x l => cases h
  | nil =>
    intro o ho
    have : o ∈ List.replicate n (none : Option T) := by
      have := List.mem_cons_of_mem none ho
      rw [h] at this
      exact this
    exact List.eq_of_mem_replicate this

omit [Target] in
theorem Feed.Fused.of_some {a : Feed T} {x : T} (h : Feed.Fused (some x :: a)) :
    a.Fused := by
  obtain ⟨l, n, h⟩ := h
  cases l with
  | nil => cases n <;> cases h
  | cons y l =>
    simp only [List.map_cons, List.cons_append, List.cons.injEq] at h
    exact ⟨l, n, h.2⟩

omit [Target] in
theorem Feed.Done.next {a : Feed T} (h : a.Done) : a.next.1 = none ∧ a.next.2.Done := by
  cases a with
  | nil => exact ⟨rfl, h⟩
  | cons o as => exact ⟨h o (by simp), fun o' ho => h o' (List.mem_cons_of_mem _ ho)⟩

omit [Target] in
theorem Feed.Fused.next {a : Feed T} (h : a.Fused) :
    a.next.2.Fused ∧ (a.next.1 = none → a.next.2.Done) := by
  cases a with
  | nil => exact ⟨h, fun _ => by intro o ho; cases ho⟩
  | cons o as =>
    cases o with
    | none => exact ⟨.of_done h.of_none, fun _ => h.of_none⟩
    | some x => exact ⟨h.of_some, by rintro ⟨⟩⟩

omit [Target] in
theorem skipToU_fused {contains : T → Call σ Bool} (want : Bool) (as : Feed T) (h : as.Fused) :
    Behaves True True (skipToU want contains as) (fun o => o.2.Fused ∧ (o.1 = none → o.2.Done)) := by
  induction as with
  | nil => exact Behaves.pure ⟨h, fun _ o ho => by cases ho⟩
  | cons a as ih =>
    cases a with
    | none => exact Behaves.pure ⟨.of_done h.of_none, fun _ => h.of_none⟩
    | some y =>
      unfold skipToU
      refine Behaves.bind (post := fun _ => True) (fun s => ?_) (fun b _ => ?_)
      · rcases contains y s with _ | _ | _ <;> trivial
      · exact Behaves.ite (fun _ => Behaves.pure ⟨h.of_some, by rintro ⟨⟩⟩) (fun _ => ih h.of_some)

omit [Target] in
theorem skipToU_done {contains : T → Call σ Bool} (want : Bool) (as : Feed T) (h : as.Done) :
    Behaves True True (skipToU want contains as) (fun o => o.1 = none ∧ o.2.Done) := by
  cases as with
  | nil => exact Behaves.pure ⟨rfl, h⟩
  | cons a as =>
    obtain rfl := h a (by simp)
    exact Behaves.pure ⟨rfl, fun o ho => h o (by simp [ho])⟩

omit [Target] in
theorem Behaves.any {α : Type} (c : Call σ α) : Behaves True True c (fun _ => True) := by
  intro s
  rcases c s with _ | _ | _ <;> trivial

omit [Target] in
/-- If steps keep `Inv`, and a step that yields nothing reaches `Stop`, where steps yield nothing and
stay, then the answers are fused. -/
theorem ncalls_fused {ι : Type} {next : ι → Call σ (Option T × ι)} {Inv Stop : ι → Prop}
    (hinv : ∀ s, Inv s → Behaves True True (next s) (fun r => Inv r.2 ∧ (r.1 = none → Stop r.2)))
    (hstop : ∀ s, Stop s → Behaves True True (next s) (fun r => r.1 = none ∧ Stop r.2)) (n : Nat) :
    ∀ s, Inv s → Behaves True True (ncalls next n s) (fun r => Feed.Fused r.1) := by
  have hdone : ∀ (n : Nat) (s : ι), Stop s →
      Behaves True True (ncalls next n s) (fun r => Feed.Done r.1) := by
    intro n
    induction n with
    | zero => intro s _; exact Behaves.pure (by intro o ho; cases ho)
    | succ n ih =>
      intro s hs
      unfold ncalls
      refine (hstop s hs).bind (fun r hr => (ih r.2 hr.2).bind (fun rs hrs => Behaves.pure ?_))
      intro o ho
      rcases List.mem_cons.1 ho with rfl | ho
      · exact hr.1
      · exact hrs o ho
  induction n with
  | zero => intro s _; exact Behaves.pure Feed.Fused.nil
  | succ n ih =>
    intro s hs
    unfold ncalls
    refine (hinv s hs).bind (fun r hr => ?_)
    rcases hr1 : r.1 with _ | x
    · refine (hdone n r.2 (hr.2 hr1)).bind (fun rs hrs => Behaves.pure (Feed.Fused.of_done ?_))
      intro o ho
      rcases List.mem_cons.1 ho with rfl | ho
      · rfl
      · exact hrs o ho
    · refine (ih r.2 hr.1).bind (fun rs hrs => Behaves.pure ?_)
      exact hrs.cons_some x

/-- Both inner iterators are fused. -/
def UBin.BothFused (s : UBin σ T) : Prop := s.it1.Fused ∧ s.it2.Fused
/-- Both inner iterators are exhausted. -/
def UBin.BothDone (s : UBin σ T) : Prop := s.it1.Done ∧ s.it2.Done

omit [Target] in
theorem UBin.unionNext_fused (s : UBin σ T) (h : s.BothFused) :
    Behaves True True s.unionNext (fun r => r.2.BothFused ∧ (r.1 = none → r.2.BothDone)) := by
  unfold UBin.unionNext
  refine (Behaves.any _).bind (fun l1 _ => (Behaves.any _).bind (fun l2 _ =>
    Behaves.ite (fun _ => ?_) (fun _ => ?_)))
  · have hf := h.1.next
    rcases hn : s.it1.next with ⟨_ | x, r⟩
    · rw [hn] at hf
      exact (skipToU_fused false s.it2 h.2).bind (fun o ho =>
        Behaves.pure ⟨⟨hf.1, ho.1⟩, fun h0 => ⟨hf.2 rfl, ho.2 h0⟩⟩)
    · rw [hn] at hf
      exact Behaves.pure ⟨⟨hf.1, h.2⟩, by rintro ⟨⟩⟩
  · have hf := h.2.next
    rcases hn : s.it2.next with ⟨_ | x, r⟩
    · rw [hn] at hf
      exact (skipToU_fused false s.it1 h.1).bind (fun o ho =>
        Behaves.pure ⟨⟨ho.1, hf.1⟩, fun h0 => ⟨ho.2 h0, hf.2 rfl⟩⟩)
    · rw [hn] at hf
      exact Behaves.pure ⟨⟨h.1, hf.1⟩, by rintro ⟨⟩⟩

omit [Target] in
theorem UBin.unionNext_done (s : UBin σ T) (h : s.BothDone) :
    Behaves True True s.unionNext (fun r => r.1 = none ∧ r.2.BothDone) := by
  unfold UBin.unionNext
  refine (Behaves.any _).bind (fun l1 _ => (Behaves.any _).bind (fun l2 _ =>
    Behaves.ite (fun _ => ?_) (fun _ => ?_)))
  · have hf := h.1.next
    rcases hn : s.it1.next with ⟨_ | x, r⟩
    · rw [hn] at hf
      exact (skipToU_done false s.it2 h.2).bind (fun o ho =>
        Behaves.pure ⟨ho.1, hf.2, ho.2⟩)
    · rw [hn] at hf
      cases hf.1
  · have hf := h.2.next
    rcases hn : s.it2.next with ⟨_ | x, r⟩
    · rw [hn] at hf
      exact (skipToU_done false s.it1 h.1).bind (fun o ho =>
        Behaves.pure ⟨ho.1, ho.2, hf.2⟩)
    · rw [hn] at hf
      cases hf.1

omit [Target] in
theorem UBin.symDiffNext_fused (s : UBin σ T) (h : s.BothFused) :
    Behaves True True s.symDiffNext (fun r => r.2.BothFused ∧ (r.1 = none → r.2.BothDone)) := by
  unfold UBin.symDiffNext
  refine (skipToU_fused false s.it1 h.1).bind (fun o ho => ?_)
  rcases ho1 : o.1 with _ | x
  · exact (skipToU_fused false s.it2 h.2).bind (fun o2 ho2 =>
      Behaves.pure ⟨⟨ho.1, ho2.1⟩, fun h0 => ⟨ho.2 ho1, ho2.2 h0⟩⟩)
  · exact Behaves.pure ⟨⟨ho.1, h.2⟩, by rintro ⟨⟩⟩

omit [Target] in
theorem UBin.symDiffNext_done (s : UBin σ T) (h : s.BothDone) :
    Behaves True True s.symDiffNext (fun r => r.1 = none ∧ r.2.BothDone) := by
  unfold UBin.symDiffNext
  refine (skipToU_done false s.it1 h.1).bind (fun o ho => ?_)
  rcases ho1 : o.1 with _ | x
  · exact (skipToU_done false s.it2 h.2).bind (fun o2 ho2 => Behaves.pure ⟨ho2.1, ho.2, ho2.2⟩)
  · rw [ho1] at ho; cases ho.1

omit [Target] in
theorem UBin.differenceNext_fused (s : UBin σ T) (h : s.it1.Fused) :
    Behaves True True s.differenceNext (fun r => r.2.it1.Fused ∧ (r.1 = none → r.2.it1.Done)) := by
  unfold UBin.differenceNext
  exact (skipToU_fused false s.it1 h).bind (fun o ho => Behaves.pure ⟨ho.1, ho.2⟩)

omit [Target] in
theorem UBin.differenceNext_done (s : UBin σ T) (h : s.it1.Done) :
    Behaves True True s.differenceNext (fun r => r.1 = none ∧ r.2.it1.Done) := by
  unfold UBin.differenceNext
  exact (skipToU_done false s.it1 h).bind (fun o ho => Behaves.pure ⟨ho.1, ho.2⟩)

omit [Target] in
theorem UBin.intersectionNext_fused {n1 n2 : Nat} (s : UBin σ T) (h1 : s.s1.LenIs n1)
    (h2 : s.s2.LenIs n2) (h : s.BothFused) :
    Behaves True True s.intersectionNext (fun r => (r.2.s1 = s.s1 ∧ r.2.s2 = s.s2 ∧ r.2.BothFused) ∧
      (r.1 = none → if n1 < n2 then r.2.it1.Done else r.2.it2.Done)) := by
  unfold UBin.intersectionNext
  refine h1.bind (fun l1 hl1 => h2.bind (fun l2 hl2 => ?_))
  subst hl1 hl2
  split
  · exact (skipToU_fused true s.it1 h.1).bind (fun o ho =>
      Behaves.pure ⟨⟨rfl, rfl, ho.1, h.2⟩, ho.2⟩)
  · exact (skipToU_fused true s.it2 h.2).bind (fun o ho =>
      Behaves.pure ⟨⟨rfl, rfl, h.1, ho.1⟩, ho.2⟩)

omit [Target] in
theorem UBin.intersectionNext_done {n1 n2 : Nat} (s : UBin σ T) (h1 : s.s1.LenIs n1)
    (h2 : s.s2.LenIs n2) (h : if n1 < n2 then s.it1.Done else s.it2.Done) :
    Behaves True True s.intersectionNext (fun r => r.1 = none ∧ r.2.s1 = s.s1 ∧ r.2.s2 = s.s2 ∧
      if n1 < n2 then r.2.it1.Done else r.2.it2.Done) := by
  unfold UBin.intersectionNext
  refine h1.bind (fun l1 hl1 => h2.bind (fun l2 hl2 => ?_))
  subst hl1 hl2
  split
  · rename_i hlt
    rw [if_pos hlt] at h
    exact (skipToU_done true s.it1 h).bind (fun o ho => Behaves.pure ⟨ho.1, rfl, rfl, ho.2⟩)
  · rename_i hlt
    rw [if_neg hlt] at h
    exact (skipToU_done true s.it2 h).bind (fun o ho => Behaves.pure ⟨ho.1, rfl, rfl, ho.2⟩)

/-! ### Predicates -/

omit [Target] in
theorem Feed.all_behaves {f : T → Call σ Bool} {P N : T → Prop}
    (h : ∀ x, Behaves False p (f x) (fun b => if b = true then P x else N x)) (as : Feed T) :
    Behaves False p (as.all f) (fun b => if b = true then ∀ x ∈ as.upToNone, P x
      else ∃ x ∈ as.upToNone, N x) := by
  induction as with
  | nil => exact Behaves.pure (by simp [Feed.upToNone])
  | cons a as ih =>
    cases a with
    | none => exact Behaves.pure (by simp [Feed.upToNone])
    | some y =>
      unfold Feed.all
      refine (h y).bind (fun b hb => Behaves.ite (fun hw => ?_) (fun hw => ?_))
      · subst hw
        refine ih.mono id id (fun b' hb' => ?_)
        cases b' with
        | true =>
          simp only [if_true] at hb hb' ⊢
          intro x hx
          rcases List.mem_cons.1 hx with rfl | hx
          · exact hb
          · exact hb' x hx
        | false =>
          simp only [Bool.false_eq_true, if_false] at hb' ⊢
          obtain ⟨x, hx, hn⟩ := hb'
          exact ⟨x, List.mem_cons_of_mem _ hx, hn⟩
      · have hbf : b = false := by simpa using hw
        subst hbf
        exact Behaves.pure (by
          simp only [Bool.false_eq_true, if_false] at hb ⊢
          exact ⟨y, List.mem_cons_self, hb⟩)

/-! ### The library's own sets -/

omit [Target] in
theorem UMap.toSet_safe {u : UserCode σ T T} (hu : u.Safe p) {m : UMap T Unit} (hm : m.OK) :
    (m.toSet u).Safe p :=
  ⟨fun x => ((UMap.lookup_behaves hu.toSafeLookup hm x).mono id id (fun _ _ => trivial)).bind
    (fun _ _ => Behaves.pure trivial), Behaves.pure trivial⟩

omit [Target] in
theorem UMap.toSet_items (u : UserCode σ T T) (m : UMap T Unit) :
    (m.toSet u).iter.items = m.entries.map (·.1) := by
  show Feed.items (m.entries.map (fun e => some e.1)) = _
  unfold Feed.items
  induction m.entries with
  | nil => rfl
  | cons e es ih => simp

omit [Target] in
theorem UMap.toSet_fused (u : UserCode σ T T) (m : UMap T Unit) : (m.toSet u).iter.Fused :=
  ⟨m.entries.map (·.1), 0, by simp [UMap.toSet, Function.comp_def]⟩

/-! ### Agreement with the functional model -/

/-- An operand given by functions. -/
def SetI.toU (s : SetI T) : USet σ T := ⟨s.iter.map some, fun x => Call.lift (s.contains x), pure s.len⟩

/-- A functional iterator state. -/
def BinIter.toU (s : BinIter T) : UBin σ T := ⟨s.s1.toU, s.it1.map some, s.s2.toU, s.it2.map some⟩

omit [Target] in
theorem skipToU_lift (want : Bool) (contains : T → Res Bool) (l : List T) (s : σ) :
    skipToU want (fun x => Call.lift (contains x)) (l.map some) s
      = (skipTo want contains l).map (fun r => ((r.1, r.2.map some), s)) := by
  induction l with
  | nil => rfl
  | cons x xs ih =>
    simp only [List.map_cons, skipToU, skipTo]
    rw [Call.lift_bind]
    cases contains x with
    | panic => rfl
    | ub => rfl
    | ok b =>
      show (if b = want then _ else _ : Call σ _) s = _
      by_cases hb : b = want
      · rw [if_pos hb]; simp only [hb, if_true]; rfl
      · rw [if_neg hb]; simp only [hb, if_false]; exact ih

omit [Target] in
theorem Feed.next_map_some (l : List T) :
    Feed.next (l.map some) = (l.head?, l.tail.map some) := by
  cases l <;> rfl

omit [Target] in
theorem UBin.unionNext_det (s : BinIter T) (st : σ) :
    (s.toU : UBin σ T).unionNext st = s.unionNext.map (fun r => ((r.1, r.2.toU), st)) := by
  unfold UBin.unionNext BinIter.unionNext
  show (if s.s1.len > s.s2.len then _ else _ : Call σ _) st = _
  by_cases hl : s.s1.len > s.s2.len
  · rw [if_pos hl, if_pos hl]
    show (match Feed.next (s.it1.map some) with | (some x, r) => _ | (none, r) => _ : Call σ _) st = _
    rw [Feed.next_map_some]
    rcases h1 : s.it1 with _ | ⟨x, xs⟩
    · show (skipToU false (fun x => Call.lift (s.s1.contains x)) (s.it2.map some) >>= _) st = _
      rw [Call.bind_apply, skipToU_lift]
      rcases skipTo false s.s1.contains s.it2 with ⟨o, r⟩ | _ | _
      · simp [Res.map, BinIter.toU, h1, Call.pure_apply]
      · rfl
      · rfl
    · simp [Res.map, BinIter.toU, Call.pure_apply]
  · rw [if_neg hl, if_neg hl]
    show (match Feed.next (s.it2.map some) with | (some x, r) => _ | (none, r) => _ : Call σ _) st = _
    rw [Feed.next_map_some]
    rcases h1 : s.it2 with _ | ⟨x, xs⟩
    · show (skipToU false (fun x => Call.lift (s.s2.contains x)) (s.it1.map some) >>= _) st = _
      rw [Call.bind_apply, skipToU_lift]
      rcases skipTo false s.s2.contains s.it1 with ⟨o, r⟩ | _ | _
      · simp [Res.map, BinIter.toU, h1, Call.pure_apply]
      · rfl
      · rfl
    · simp [Res.map, BinIter.toU, Call.pure_apply]

omit [Target] in
theorem UBin.symDiffNext_det (s : BinIter T) (st : σ) :
    (s.toU : UBin σ T).symDiffNext st = s.symDiffNext.map (fun r => ((r.1, r.2.toU), st)) := by
  unfold UBin.symDiffNext BinIter.symDiffNext
  show (skipToU false (fun x => Call.lift (s.s2.contains x)) (s.it1.map some) >>= _) st = _
  rw [Call.bind_apply, skipToU_lift]
  rcases skipTo false s.s2.contains s.it1 with ⟨_ | x, r⟩ | _ | _
  · simp only [Res.map_ok, Res.ok_bind]
    show (skipToU false (fun x => Call.lift (s.s1.contains x)) (s.it2.map some) >>= _) st = _
    rw [Call.bind_apply, skipToU_lift]
    rcases skipTo false s.s1.contains s.it2 with ⟨o, r2⟩ | _ | _ <;> rfl
  · rfl
  · rfl
  · rfl

omit [Target] in
theorem UBin.differenceNext_det (s : BinIter T) (st : σ) :
    (s.toU : UBin σ T).differenceNext st = s.differenceNext.map (fun r => ((r.1, r.2.toU), st)) := by
  unfold UBin.differenceNext BinIter.differenceNext
  show (skipToU false (fun x => Call.lift (s.s2.contains x)) (s.it1.map some) >>= _) st = _
  rw [Call.bind_apply, skipToU_lift]
  rcases skipTo false s.s2.contains s.it1 with ⟨o, r⟩ | _ | _ <;> rfl

omit [Target] in
theorem UBin.intersectionNext_det (s : BinIter T) (st : σ) :
    (s.toU : UBin σ T).intersectionNext st
      = s.intersectionNext.map (fun r => ((r.1, r.2.toU), st)) := by
  unfold UBin.intersectionNext BinIter.intersectionNext
  show (if s.s1.len < s.s2.len then _ else _ : Call σ _) st = _
  by_cases hl : s.s1.len < s.s2.len
  · rw [if_pos hl, if_pos hl]
    show (skipToU true (fun x => Call.lift (s.s2.contains x)) (s.it1.map some) >>= _) st = _
    rw [Call.bind_apply, skipToU_lift]
    rcases skipTo true s.s2.contains s.it1 with ⟨o, r⟩ | _ | _ <;> rfl
  · rw [if_neg hl, if_neg hl]
    show (skipToU true (fun x => Call.lift (s.s1.contains x)) (s.it2.map some) >>= _) st = _
    rw [Call.bind_apply, skipToU_lift]
    rcases skipTo true s.s1.contains s.it2 with ⟨o, r⟩ | _ | _ <;> rfl

omit [Target] in
theorem Behaves.and' {u p : Prop} {α : Type} {c : Call σ α} {post post' : α → Prop}
    (h : Behaves u p c post) (h' : Behaves True True c post') :
    Behaves u p c (fun a => post a ∧ post' a) :=
  (h.and h').mono (fun h => h.1) (fun h => h.1) (fun _ h => h)

omit [Target] in
theorem Interleave.perm {a b l : List T} (h : Interleave a b l) : l.Perm (a ++ b) := by
  induction h with
  | nil => exact List.Perm.refl _
  | left _ ih => exact ih.cons _
  | right _ ih => exact (ih.cons _).trans (List.perm_middle.symm)

omit [Target] in
theorem perm_of_sublists {a b la lb d₁ d₂ l : List T} (hi : Interleave la lb l)
    (ha : la.Sublist d₁) (hb : lb.Sublist d₂) (h₁ : d₁.Perm a) (h₂ : d₂.Perm b) :
    l.Subperm (a ++ b) :=
  hi.perm.subperm.trans ((ha.append hb).subperm.trans (h₁.append h₂).subperm)

end FC
