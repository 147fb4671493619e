import Verif.Spec.SameRuns
import Verif.Lemmas.Programs

/-
Two runs of a program, for C99: both are compared with the same plain lists.
-/

set_option autoImplicit false

namespace FC
variable {K V : Type}

theorem forall₂_last {α β : Type} {R : α → β → Prop} {b b' : β} (hb : ∀ a, R a b → R a b') :
    ∀ {l' : List β} {l : List α}, List.Forall₂ R l (l' ++ [b]) → List.Forall₂ R l (l' ++ [b'])
  | [], _, .cons h .nil => .cons (hb _ h) .nil
  | _ :: _, _, .cons h t => .cons h (forall₂_last hb t)

theorem MapLike.other_order (t : Target) {ty : KeyTy K} (hty : LawfulKey ty) {m : FrozenMap K V}
    {p q : List (K × V)} (hp : p.Perm q) (h : MapLike ty m q) : MapLike ty m p :=
  ⟨h.inv, h.perm.trans hp.symm, DistinctKeys.perm hty.eq hp.symm h.distinct⟩

/-- On plain lists an action that does not list shows one thing only. -/
theorem PlainLists.Does.unique {eq : K → K → Bool} {ck : K → K} {cv : V → V} {veq : V → V → Bool}
    {w w₁ w₂ : PlainLists K V} {c : Cmd K V} {r₁ r₂ : Reply K V} (hc : ¬ c.Lists)
    (h₁ : w.Does eq ck cv veq c r₁ w₁) (h₂ : w.Does eq ck cv veq c r₂ w₂) : r₁ = r₂ ∧ w₁ = w₂ := by
  have biff : ∀ {b b' : Bool} {P : Prop}, (b = true ↔ P) → (b' = true ↔ P) → b = b' := by
    intro b b' P h h'
    have := h.trans h'.symm
    cases b <;> cases b' <;> simp_all
  cases h₁ with
  | newMap | newSet => cases h₂ <;> simp_all
  | onMap i op d d' o o' hd hs hag =>
    cases h₂ with
    | onMap _ _ e e' x x' he hs' hag' =>
      rw [hd] at he; cases he
      rw [hs] at hs'; cases hs'
      refine ⟨?_, rfl⟩
      congr 1
      cases op <;> (first | exact absurd trivial hc | skip) <;> simp only [Dict.step] at hs <;>
        (try split at hs) <;> (try cases hs) <;> (cases hag; cases hag'; rfl)
    | _ => simp_all
  | cloneMap i d hd =>
    cases h₂ with
    | cloneMap _ e he => rw [hd] at he; cases he; exact ⟨rfl, rfl⟩
    | _ => simp_all
  | sameMaps i j d d' b hd hd' hb =>
    cases h₂ with
    | sameMaps _ _ e e' b' he he' hb' =>
      rw [hd] at he; cases he
      rw [hd'] at he'; cases he'
      rw [biff hb hb']; exact ⟨rfl, rfl⟩
    | noMap k _ hk h =>
      simp_all
      rcases h with ⟨j, ⟨rfl, rfl⟩ | ⟨rfl, rfl⟩⟩ <;> simp_all
    | _ => simp_all
  | contains i x l b hl hb =>
    cases h₂ with
    | contains _ _ l' b' hl' hb' => rw [hl] at hl'; cases hl'; rw [biff hb hb']; exact ⟨rfl, rfl⟩
    | _ => simp_all
  | getIn i x l hl =>
    cases h₂ with
    | getIn _ _ l' hl' => rw [hl] at hl'; cases hl'; exact ⟨rfl, rfl⟩
    | _ => simp_all
  | setLen i l hl =>
    cases h₂ with
    | setLen _ l' hl' => rw [hl] at hl'; cases hl'; exact ⟨rfl, rfl⟩
    | _ => simp_all
  | listSet | combine | visit => exact absurd trivial hc
  | cloneSet i l hl =>
    cases h₂ with
    | cloneSet _ l' hl' => rw [hl] at hl'; cases hl'; exact ⟨rfl, rfl⟩
    | _ => simp_all
  | ask q i j l l' b hl hl' hb =>
    cases h₂ with
    | ask _ _ _ m m' b' hm hm' hb' =>
      rw [hl] at hm; cases hm
      rw [hl'] at hm'; cases hm'
      rw [biff hb hb']; exact ⟨rfl, rfl⟩
    | noSet k _ hk h =>
      simp only [reduceCtorEq, Cmd.ask.injEq, exists_false, false_or, or_false, or_self] at h
      obtain ⟨q', j', ⟨_, rfl, _⟩ | ⟨_, _, rfl⟩⟩ := h
      · rw [hk] at hl; cases hl
      · rw [hk] at hl'; cases hl'
    | _ => simp_all
  | noMap i c hi h =>
    rcases h with ⟨op, rfl⟩ | rfl | ⟨j, rfl | rfl⟩ <;> cases h₂ <;> simp_all
  | noSet i c hi h =>
    rcases h with ⟨x, rfl | rfl⟩ | rfl | rfl | rfl | ⟨q, j, rfl | rfl⟩ | ⟨o, j, rfl | rfl⟩ | ⟨o, j, rfl | rfl⟩ <;> cases h₂ <;>
      simp_all

theorem PlainLists.Does.not_panics {eq : K → K → Bool} {ck : K → K} {cv : V → V} {veq : V → V → Bool}
    {w w₁ : PlainLists K V} {c : Cmd K V} {r₁ : Reply K V}
    (h₁ : w.Does eq ck cv veq c r₁ w₁) : ¬ w.Panics eq c := by
  rintro ⟨i, d, q, hi, hq, hop⟩
  have hn : Dict.find eq id d q = none := by
    refine List.find?_eq_none.2 fun e he h => hq ⟨e, he, h⟩
  rcases hop with rfl | ⟨v, rfl⟩
  all_goals
    cases h₁ with
    | onMap _ _ e e' o o' he hs _ =>
      rw [hi] at he; cases he
      simp only [Dict.step, hn] at hs
      cases hs
    | _ => simp_all

theorem Out.Agree.both {o a b : Out K V} (ha : o.Agree a) (hb : o.Agree b) : a.Agree b := by
  cases o <;> cases a <;> cases b <;> simp_all [Out.Agree]
  all_goals exact ha.symm.trans hb

/-- Any action, also one that lists. -/
theorem PlainLists.Does.says_same {eq : K → K → Bool} (heq : LawfulEq eq) {ck : K → K} {cv : V → V}
    {veq : V → V → Bool} {w w₁ w₂ : PlainLists K V} {c : Cmd K V} {r₁ r₂ : Reply K V}
    (h₁ : w.Does eq ck cv veq c r₁ w₁) (h₂ : w.Does eq ck cv veq c r₂ w₂) :
    Reply.SaysSame eq c r₁ r₂ := by
  have dull : ¬ c.Lists → r₁ = r₂ := fun h => (h₁.unique h h₂).1
  cases c with
  | onMap i op =>
    cases h₁ with
    | onMap _ _ d d' o o' hd hs hag =>
      cases h₂ with
      | onMap _ _ e e' x x' he hs' hag' =>
        rw [hd] at he; cases he
        rw [hs] at hs'; cases hs'
        exact hag.both hag'
      | _ => simp_all
    | noMap =>
      cases h₂ with
      | onMap => simp_all
      | noMap => rfl
      | noSet => simp_all
    | noSet => simp_all
  | listSet i =>
    cases h₁ with
    | listSet _ l l' hl hp =>
      cases h₂ with
      | listSet _ k k' hk hp' =>
        rw [hl] at hk; cases hk
        exact hp.trans hp'.symm
      | _ => simp_all
    | noSet =>
      cases h₂ with
      | listSet => simp_all
      | noMap => simp_all
      | noSet => rfl
    | noMap => simp_all
  | combine o i j =>
    cases h₁ with
    | combine _ _ _ l l' r hl hl' hd hr =>
      cases h₂ with
      | combine _ _ _ k k' r' hk hk' hd' hr' =>
        rw [hl] at hk; cases hk
        rw [hl'] at hk'; cases hk'
        have hsame : ∀ x, Has eq r x ↔ Has eq r' x := fun x => (hr x).trans (hr' x).symm
        refine ⟨le_antisymm (length_le_of_match heq hd fun a ha => (hsame a).1 ⟨a, ha, heq.refl a⟩)
          (length_le_of_match heq hd' fun a ha => (hsame a).2 ⟨a, ha, heq.refl a⟩), hsame⟩
      | noSet k _ hk h =>
        simp only [reduceCtorEq, Cmd.combine.injEq, exists_false, false_or, or_false, or_self] at h
        obtain ⟨q', j', ⟨_, rfl, _⟩ | ⟨_, _, rfl⟩⟩ := h
        · rw [hk] at hl; cases hl
        · rw [hk] at hl'; cases hl'
      | noMap => simp_all
    | noSet k _ hk h =>
      cases h₂ with
      | combine _ _ _ l l' r hl hl' hd hr =>
        simp only [reduceCtorEq, Cmd.combine.injEq, exists_false, false_or, or_false, or_self] at h
        obtain ⟨q', j', ⟨_, rfl, _⟩ | ⟨_, _, rfl⟩⟩ := h
        · rw [hk] at hl; cases hl
        · rw [hk] at hl'; cases hl'
      | noMap => simp_all
      | noSet => rfl
    | noMap => simp_all
  | visit o i j =>
    cases h₁ with
    | visit _ _ _ l l' r hl hl' hd hr _ =>
      cases h₂ with
      | visit _ _ _ k k' r' hk hk' hd' hr' _ =>
        rw [hl] at hk; cases hk
        rw [hl'] at hk'; cases hk'
        have hsame : ∀ x, Has eq r x ↔ Has eq r' x := fun x => (hr x).trans (hr' x).symm
        refine ⟨le_antisymm (length_le_of_match heq hd fun a ha => (hsame a).1 ⟨a, ha, heq.refl a⟩)
          (length_le_of_match heq hd' fun a ha => (hsame a).2 ⟨a, ha, heq.refl a⟩), hsame⟩
      | noSet k _ hk h =>
        simp only [reduceCtorEq, Cmd.visit.injEq, exists_false, false_or, or_false, or_self] at h
        obtain ⟨q', j', ⟨_, rfl, _⟩ | ⟨_, _, rfl⟩⟩ := h
        · rw [hk] at hl; cases hl
        · rw [hk] at hl'; cases hl'
      | noMap => simp_all
    | noSet k _ hk h =>
      cases h₂ with
      | visit _ _ _ l l' r hl hl' hd hr _ =>
        simp only [reduceCtorEq, Cmd.visit.injEq, exists_false, false_or, or_false, or_self] at h
        obtain ⟨q', j', ⟨_, rfl, _⟩ | ⟨_, _, rfl⟩⟩ := h
        · rw [hk] at hl; cases hl
        · rw [hk] at hl'; cases hl'
      | noMap => simp_all
      | noSet => rfl
    | noMap => simp_all
  | _ => exact dull (fun h => h)

/-- Any action leaves the same lists. -/
theorem PlainLists.Does.same_lists {eq : K → K → Bool} {ck : K → K} {cv : V → V} {veq : V → V → Bool}
    {w w₁ w₂ : PlainLists K V} {c : Cmd K V} {r₁ r₂ : Reply K V}
    (h₁ : w.Does eq ck cv veq c r₁ w₁) (h₂ : w.Does eq ck cv veq c r₂ w₂) : w₁ = w₂ := by
  have dull : ¬ c.Lists → w₁ = w₂ := fun h => (h₁.unique h h₂).2
  cases c with
  | onMap i op =>
    cases h₁ with
    | onMap _ _ d d' o o' hd hs hag =>
      cases h₂ with
      | onMap _ _ e e' x x' he hs' hag' =>
        rw [hd] at he; cases he
        rw [hs] at hs'; cases hs'
        rfl
      | _ => simp_all
    | noMap => cases h₂ <;> first | rfl | simp_all
    | noSet => simp_all
  | listSet i => cases h₁ <;> cases h₂ <;> rfl
  | combine o i j => cases h₁ <;> cases h₂ <;> rfl
  | visit o i j => cases h₁ <;> cases h₂ <;> rfl
  | _ => exact dull (fun h => h)

/-- One action, of any kind, in both runs. -/
theorem same_step_any (t₁ t₂ : Target) (u₁ u₂ : Surround K V) (hu : u₁.SameData u₂)
    (hty₁ : @LawfulKey t₁ K u₁.ty) (hty₂ : @LawfulKey t₂ K u₂.ty)
    (hck : ∀ k, u₁.ty.eq (u₁.ck k) k = true) (hord₁ : ∀ l, (u₁.order l).Perm l)
    (hord₂ : ∀ l, (u₂.order l).Perm l) {c₁ c₂ : Cmd K V} (hp : c₁.SameBut c₂)
    (hf₁ : c₁.Fine u₁.ty) (hf₂ : c₂.Fine u₂.ty) {h₁ h₂ : Shelf K V} {w : PlainLists K V}
    (hl₁ : @Shelf.Like t₁ K V u₁.ty h₁ w) (hl₂ : @Shelf.Like t₂ K V u₂.ty h₂ w) :
    (@Shelf.perform K V t₁ u₁ h₁ c₁ = .panic ∧ @Shelf.perform K V t₂ u₂ h₂ c₂ = .panic) ∨
    ∃ r₁ r₂ h₁' h₂' w', @Shelf.perform K V t₁ u₁ h₁ c₁ = .ok (r₁, h₁') ∧
      @Shelf.perform K V t₂ u₂ h₂ c₂ = .ok (r₂, h₂') ∧ Reply.SaysSame u₁.ty.eq c₁ r₁ r₂ ∧
      (¬ c₁.Lists → r₁ = r₂) ∧
      @Shelf.Like t₁ K V u₁.ty h₁' w' ∧ @Shelf.Like t₂ K V u₂.ty h₂' w' := by
  have s₁ := @Shelf.Like.perform t₁ K V u₁ hty₁ hck hord₁ h₁ w hl₁ c₁ hf₁
  have s₂ := @Shelf.Like.perform t₂ K V u₂ hty₂ (by rw [← hu.eq, ← hu.ck]; exact hck) hord₂ h₂ w hl₂
    c₂ hf₂
  rw [← hu.eq, ← hu.ck, ← hu.cv, ← hu.veq] at s₂
  -- an action of the second run, seen from the first
  have key : ∀ {r₁ r₂ : Reply K V} {w₁ w₂ : PlainLists K V} {h : Shelf K V},
      w.Does u₁.ty.eq u₁.ck u₁.cv u₁.veq c₁ r₁ w₁ → w.Does u₁.ty.eq u₁.ck u₁.cv u₁.veq c₂ r₂ w₂ →
      @Shelf.Like t₂ K V u₂.ty h w₂ →
      Reply.SaysSame u₁.ty.eq c₁ r₁ r₂ ∧ (¬ c₁.Lists → r₁ = r₂) ∧ @Shelf.Like t₂ K V u₂.ty h w₁ := by
    intro r₁ r₂ w₁ w₂ h d₁ d₂ hl
    clear s₁ s₂
    cases hp with
    | newMap p q bh bh' hpq =>
      cases d₁ with
      | newMap =>
        cases d₂ with
        | newMap =>
          exact ⟨rfl, fun _ => rfl,
            forall₂_last (fun _ hm => MapLike.other_order t₂ hty₂ hpq hm) hl.maps, hl.sets⟩
        | _ => simp_all
      | _ => simp_all
    | newSet p q bh bh' hpq =>
      cases d₁ with
      | newSet =>
        cases d₂ with
        | newSet =>
          refine ⟨rfl, fun _ => rfl, hl.maps,
            forall₂_last (R := SetLike u₂.ty) (b := q) (b' := p) (fun s hm => ?_) hl.sets⟩
          exact MapLike.other_order t₂ hty₂ (p := unitPayload p) (q := unitPayload q) (hpq.map _) hm
        | _ => simp_all
      | _ => simp_all
    | other =>
      exact ⟨d₁.says_same (@LawfulKey.eq t₁ _ _ hty₁) d₂, fun hn => (d₁.unique hn d₂).1,
        d₁.same_lists d₂ ▸ hl⟩
  have pan : w.Panics u₁.ty.eq c₁ ↔ w.Panics u₁.ty.eq c₂ := by
    clear s₁ s₂ key
    cases hp with
    | other => exact Iff.rfl
    | _ => constructor <;> · rintro ⟨i, d, q, _, _, h | ⟨v, h⟩⟩ <;> cases h
  cases hp₁ : @Shelf.perform K V t₁ u₁ h₁ c₁ with
  | ub => rw [hp₁] at s₁; exact s₁.elim
  | panic =>
    rw [hp₁] at s₁
    cases hp₂ : @Shelf.perform K V t₂ u₂ h₂ c₂ with
    | ub => rw [hp₂] at s₂; exact s₂.elim
    | panic => exact Or.inl ⟨rfl, rfl⟩
    | ok y =>
      rw [hp₂] at s₂
      obtain ⟨w₂, d₂, _⟩ := s₂
      exact (d₂.not_panics (pan.1 s₁)).elim
  | ok x =>
    rw [hp₁] at s₁
    obtain ⟨w₁, d₁, l₁⟩ := s₁
    cases hp₂ : @Shelf.perform K V t₂ u₂ h₂ c₂ with
    | ub => rw [hp₂] at s₂; exact s₂.elim
    | panic =>
      rw [hp₂] at s₂
      exact (d₁.not_panics (pan.2 s₂)).elim
    | ok y =>
      rw [hp₂] at s₂
      obtain ⟨w₂, d₂, l₂⟩ := s₂
      obtain ⟨hs, hr, l₂'⟩ := key d₁ d₂ l₂
      exact Or.inr ⟨x.1, y.1, x.2, y.2, w₁, rfl, rfl, hs, hr, l₁, l₂'⟩

/-- Programs that list, but go on in the same way whatever the order of what they listed. -/
theorem same_runs_listing (t₁ t₂ : Target) (u₁ u₂ : Surround K V) (hu : u₁.SameData u₂)
    (hty₁ : @LawfulKey t₁ K u₁.ty) (hty₂ : @LawfulKey t₂ K u₂.ty)
    (hck : ∀ k, u₁.ty.eq (u₁.ck k) k = true) (hord₁ : ∀ l, (u₁.order l).Perm l)
    (hord₂ : ∀ l, (u₂.order l).Perm l) (prog₁ prog₂ : List (Reply K V) → Cmd K V)
    (hp : ∀ seen₁ seen₂, SameSeen u₁.ty.eq prog₁ seen₁ seen₂ → (prog₁ seen₁).SameBut (prog₂ seen₂))
    (hf₁ : ∀ seen, (prog₁ seen).Fine u₁.ty) (hf₂ : ∀ seen, (prog₂ seen).Fine u₂.ty) (n : Nat) :
    ∀ {seen₁ seen₂ : List (Reply K V)} {h₁ h₂ : Shelf K V} {w : PlainLists K V},
      SameSeen u₁.ty.eq prog₁ seen₁ seen₂ →
      @Shelf.Like t₁ K V u₁.ty h₁ w → @Shelf.Like t₂ K V u₂.ty h₂ w →
      (@Shelf.run K V t₁ u₁ prog₁ n seen₁ h₁ = .panic ∧ @Shelf.run K V t₂ u₂ prog₂ n seen₂ h₂ = .panic) ∨
      ∃ seen₁' seen₂' h₁' h₂', @Shelf.run K V t₁ u₁ prog₁ n seen₁ h₁ = .ok (seen₁', h₁') ∧
        @Shelf.run K V t₂ u₂ prog₂ n seen₂ h₂ = .ok (seen₂', h₂') ∧
        SameSeen u₁.ty.eq prog₁ seen₁' seen₂' := by
  induction n with
  | zero =>
    intro seen₁ seen₂ h₁ h₂ w hs hl₁ hl₂
    exact Or.inr ⟨seen₁, seen₂, h₁, h₂, rfl, rfl, hs⟩
  | succ n ih =>
    intro seen₁ seen₂ h₁ h₂ w hs hl₁ hl₂
    unfold Shelf.run
    rcases same_step_any t₁ t₂ u₁ u₂ hu hty₁ hty₂ hck hord₁ hord₂ (hp _ _ hs) (hf₁ seen₁) (hf₂ seen₂)
        hl₁ hl₂ with ⟨e₁, e₂⟩ | ⟨r₁, r₂, h₁', h₂', w', e₁, e₂, hr, _, l₁, l₂⟩
    · rw [e₁, e₂]; exact Or.inl ⟨rfl, rfl⟩
    · rw [e₁, e₂]
      simp only [Res.ok_bind]
      exact ih (.snoc hs hr) l₁ l₂

/-- One action in both runs. -/
theorem same_step (t₁ t₂ : Target) (u₁ u₂ : Surround K V) (hu : u₁.SameData u₂)
    (hty₁ : @LawfulKey t₁ K u₁.ty) (hty₂ : @LawfulKey t₂ K u₂.ty)
    (hck : ∀ k, u₁.ty.eq (u₁.ck k) k = true) (hord₁ : ∀ l, (u₁.order l).Perm l)
    (hord₂ : ∀ l, (u₂.order l).Perm l) {c₁ c₂ : Cmd K V} (hp : c₁.SameBut c₂) (hn : ¬ c₁.Lists)
    (hf₁ : c₁.Fine u₁.ty) (hf₂ : c₂.Fine u₂.ty) {h₁ h₂ : Shelf K V} {w : PlainLists K V}
    (hl₁ : @Shelf.Like t₁ K V u₁.ty h₁ w) (hl₂ : @Shelf.Like t₂ K V u₂.ty h₂ w) :
    (@Shelf.perform K V t₁ u₁ h₁ c₁ = .panic ∧ @Shelf.perform K V t₂ u₂ h₂ c₂ = .panic) ∨
    ∃ r h₁' h₂' w', @Shelf.perform K V t₁ u₁ h₁ c₁ = .ok (r, h₁') ∧
      @Shelf.perform K V t₂ u₂ h₂ c₂ = .ok (r, h₂') ∧
      @Shelf.Like t₁ K V u₁.ty h₁' w' ∧ @Shelf.Like t₂ K V u₂.ty h₂' w' := by
  rcases same_step_any t₁ t₂ u₁ u₂ hu hty₁ hty₂ hck hord₁ hord₂ hp hf₁ hf₂ hl₁ hl₂ with
    h | ⟨r₁, r₂, h₁', h₂', w', e₁, e₂, _, hr, l₁, l₂⟩
  · exact Or.inl h
  · cases hr hn
    exact Or.inr ⟨r₁, h₁', h₂', w', e₁, e₂, l₁, l₂⟩

/-- Both runs, step by step. -/
theorem same_runs (t₁ t₂ : Target) (u₁ u₂ : Surround K V) (hu : u₁.SameData u₂)
    (hty₁ : @LawfulKey t₁ K u₁.ty) (hty₂ : @LawfulKey t₂ K u₂.ty)
    (hck : ∀ k, u₁.ty.eq (u₁.ck k) k = true) (hord₁ : ∀ l, (u₁.order l).Perm l)
    (hord₂ : ∀ l, (u₂.order l).Perm l) (prog₁ prog₂ : List (Reply K V) → Cmd K V)
    (hp : ∀ seen, (prog₁ seen).SameBut (prog₂ seen)) (hn : ∀ seen, ¬ (prog₁ seen).Lists)
    (hf₁ : ∀ seen, (prog₁ seen).Fine u₁.ty) (hf₂ : ∀ seen, (prog₂ seen).Fine u₂.ty) (n : Nat) :
    ∀ {seen : List (Reply K V)} {h₁ h₂ : Shelf K V} {w : PlainLists K V},
      @Shelf.Like t₁ K V u₁.ty h₁ w → @Shelf.Like t₂ K V u₂.ty h₂ w →
      (@Shelf.run K V t₁ u₁ prog₁ n seen h₁ = .panic ∧ @Shelf.run K V t₂ u₂ prog₂ n seen h₂ = .panic) ∨
      ∃ seen' h₁' h₂' w', @Shelf.run K V t₁ u₁ prog₁ n seen h₁ = .ok (seen', h₁') ∧
        @Shelf.run K V t₂ u₂ prog₂ n seen h₂ = .ok (seen', h₂') ∧
        @Shelf.Like t₁ K V u₁.ty h₁' w' ∧ @Shelf.Like t₂ K V u₂.ty h₂' w' := by
  induction n with
  | zero =>
    intro seen h₁ h₂ w hl₁ hl₂
    exact Or.inr ⟨seen, h₁, h₂, w, rfl, rfl, hl₁, hl₂⟩
  | succ n ih =>
    intro seen h₁ h₂ w hl₁ hl₂
    unfold Shelf.run
    rcases same_step t₁ t₂ u₁ u₂ hu hty₁ hty₂ hck hord₁ hord₂ (hp seen) (hn seen) (hf₁ seen) (hf₂ seen)
        hl₁ hl₂ with ⟨e₁, e₂⟩ | ⟨r, h₁', h₂', w', e₁, e₂, l₁, l₂⟩
    · rw [e₁, e₂]; exact Or.inl ⟨rfl, rfl⟩
    · rw [e₁, e₂]
      simp only [Res.ok_bind]
      exact ih l₁ l₂

/-- Both runs with panics caught. -/
theorem same_runs_caught (t₁ t₂ : Target) (u₁ u₂ : Surround K V) (hu : u₁.SameData u₂)
    (hty₁ : @LawfulKey t₁ K u₁.ty) (hty₂ : @LawfulKey t₂ K u₂.ty)
    (hck : ∀ k, u₁.ty.eq (u₁.ck k) k = true) (hord₁ : ∀ l, (u₁.order l).Perm l)
    (hord₂ : ∀ l, (u₂.order l).Perm l) (prog₁ prog₂ : List (Option (Reply K V)) → Cmd K V)
    (hp : ∀ seen, (prog₁ seen).SameBut (prog₂ seen)) (hn : ∀ seen, ¬ (prog₁ seen).Lists)
    (hf₁ : ∀ seen, (prog₁ seen).Fine u₁.ty) (hf₂ : ∀ seen, (prog₂ seen).Fine u₂.ty) (n : Nat) :
    ∀ {seen : List (Option (Reply K V))} {h₁ h₂ : Shelf K V} {w : PlainLists K V},
      @Shelf.Like t₁ K V u₁.ty h₁ w → @Shelf.Like t₂ K V u₂.ty h₂ w →
      ∃ seen' h₁' h₂' w', @Shelf.runCaught K V t₁ u₁ prog₁ n seen h₁ = .ok (seen', h₁') ∧
        @Shelf.runCaught K V t₂ u₂ prog₂ n seen h₂ = .ok (seen', h₂') ∧
        @Shelf.Like t₁ K V u₁.ty h₁' w' ∧ @Shelf.Like t₂ K V u₂.ty h₂' w' := by
  induction n with
  | zero =>
    intro seen h₁ h₂ w hl₁ hl₂
    exact ⟨seen, h₁, h₂, w, rfl, rfl, hl₁, hl₂⟩
  | succ n ih =>
    intro seen h₁ h₂ w hl₁ hl₂
    unfold Shelf.runCaught
    rcases same_step t₁ t₂ u₁ u₂ hu hty₁ hty₂ hck hord₁ hord₂ (hp seen) (hn seen) (hf₁ seen) (hf₂ seen)
        hl₁ hl₂ with ⟨e₁, e₂⟩ | ⟨r, h₁', h₂', w', e₁, e₂, l₁, l₂⟩
    · rw [e₁, e₂]; exact ih hl₁ hl₂
    · rw [e₁, e₂]; exact ih l₁ l₂

/-- Programs that list and catch panics. -/
theorem same_runs_listing_caught (t₁ t₂ : Target) (u₁ u₂ : Surround K V) (hu : u₁.SameData u₂)
    (hty₁ : @LawfulKey t₁ K u₁.ty) (hty₂ : @LawfulKey t₂ K u₂.ty)
    (hck : ∀ k, u₁.ty.eq (u₁.ck k) k = true) (hord₁ : ∀ l, (u₁.order l).Perm l)
    (hord₂ : ∀ l, (u₂.order l).Perm l) (prog₁ prog₂ : List (Option (Reply K V)) → Cmd K V)
    (hp : ∀ seen₁ seen₂, SameSeenCaught u₁.ty.eq prog₁ seen₁ seen₂ →
      (prog₁ seen₁).SameBut (prog₂ seen₂))
    (hf₁ : ∀ seen, (prog₁ seen).Fine u₁.ty) (hf₂ : ∀ seen, (prog₂ seen).Fine u₂.ty) (n : Nat) :
    ∀ {seen₁ seen₂ : List (Option (Reply K V))} {h₁ h₂ : Shelf K V} {w : PlainLists K V},
      SameSeenCaught u₁.ty.eq prog₁ seen₁ seen₂ →
      @Shelf.Like t₁ K V u₁.ty h₁ w → @Shelf.Like t₂ K V u₂.ty h₂ w →
      ∃ seen₁' seen₂' h₁' h₂', @Shelf.runCaught K V t₁ u₁ prog₁ n seen₁ h₁ = .ok (seen₁', h₁') ∧
        @Shelf.runCaught K V t₂ u₂ prog₂ n seen₂ h₂ = .ok (seen₂', h₂') ∧
        SameSeenCaught u₁.ty.eq prog₁ seen₁' seen₂' := by
  induction n with
  | zero =>
    intro seen₁ seen₂ h₁ h₂ w hs hl₁ hl₂
    exact ⟨seen₁, seen₂, h₁, h₂, rfl, rfl, hs⟩
  | succ n ih =>
    intro seen₁ seen₂ h₁ h₂ w hs hl₁ hl₂
    unfold Shelf.runCaught
    rcases same_step_any t₁ t₂ u₁ u₂ hu hty₁ hty₂ hck hord₁ hord₂ (hp _ _ hs) (hf₁ seen₁) (hf₂ seen₂)
        hl₁ hl₂ with ⟨e₁, e₂⟩ | ⟨r₁, r₂, h₁', h₂', w', e₁, e₂, hr, _, l₁, l₂⟩
    · rw [e₁, e₂]; exact ih (.panicked hs) hl₁ hl₂
    · rw [e₁, e₂]; exact ih (.snoc hs hr) l₁ l₂

end FC
