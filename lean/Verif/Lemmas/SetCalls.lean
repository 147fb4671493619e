import Verif.Spec.SetCalls
import Verif.Lemmas.Calls

/-
Lemmas about the membership tests of set operations.
-/

set_option autoImplicit false

namespace FC
variable {σ T E α β : Type} {who : Operand} {want : Bool} {R : Test T → List E → Prop}

theorem Call.pure_bind {x : α} {f : α → Call σ β} : (Pure.pure x >>= f) = f x := rfl

/-! ### Tests and what they are made of -/

/-- Whenever `c` returns, the events it has added to the log are those of some tests that satisfy `P`,
together with its result. -/
def LogsVia (R : Test T → List E → Prop) (c : Call (σ × List E) α) (P : α → List (Test T) → Prop) :
    Prop :=
  Logs c (fun a ev => ∃ tests, Details R tests ev ∧ P a tests)

theorem Details.nil : Details R [] [] := ⟨[], .nil, rfl⟩

theorem Details.append {t₁ t₂ : List (Test T)} {e₁ e₂ : List E} (h₁ : Details R t₁ e₁)
    (h₂ : Details R t₂ e₂) : Details R (t₁ ++ t₂) (e₁ ++ e₂) := by
  obtain ⟨l₁, a₁, rfl⟩ := h₁
  obtain ⟨l₂, a₂, rfl⟩ := h₂
  exact ⟨l₁ ++ l₂, List.rel_append a₁ a₂, by simp⟩

theorem Details.one {t : Test T} {e : List E} (h : R t e) : Details R [t] e :=
  ⟨[e], .cons h .nil, by simp⟩

/-- Tests that are logged as such. -/
theorem Details.self {t ev : List (Test T)} (h : Details (fun t ev => ev = [t]) t ev) : t = ev := by
  obtain ⟨l, h, rfl⟩ := h
  induction h with
  | nil => rfl
  | cons h _ ih => subst h; simpa using ih

theorem LogsVia.pure {a : α} {P : α → List (Test T) → Prop} (h : P a []) :
    LogsVia R (pure a : Call (σ × List E) α) P := Logs.pure ⟨[], .nil, h⟩

theorem LogsVia.bind {c : Call (σ × List E) α} {f : α → Call (σ × List E) β}
    {P : α → List (Test T) → Prop} {Q : β → List (Test T) → Prop} (hc : LogsVia R c P)
    (hf : ∀ a t, P a t → LogsVia R (f a) (fun b t' => Q b (t ++ t'))) : LogsVia R (c >>= f) Q := by
  refine Logs.bind hc ?_
  rintro a ev ⟨t, hd, hP⟩
  exact (hf a t hP).mono (fun b ev' ⟨t', hd', hQ⟩ => ⟨t ++ t', hd.append hd', hQ⟩)

theorem LogsVia.mono {c : Call (σ × List E) α} {P P' : α → List (Test T) → Prop} (h : LogsVia R c P)
    (hP : ∀ a t, P a t → P' a t) : LogsVia R c P' :=
  Logs.mono h (fun a _ ⟨t, hd, h⟩ => ⟨t, hd, hP a t h⟩)

/-- The events of a membership test. -/
def TestLogs (R : Test T → List E → Prop) (who : Operand) (contains : T → Call (σ × List E) Bool) :
    Prop :=
  ∀ x, LogsVia R (contains x) (fun b t => t = [⟨who, x, b⟩])

/-- A set that hands out `xs` and reports their number. -/
structure USet.HandsOut (s : USet σ T) (xs : List T) : Prop where
  iter : s.iter = xs.map some
  len : s.len = Pure.pure xs.length

/-! ### Searches -/

theorem Sifts.nil (n : Nat) : Sifts (T := T) who want [] n [] [] := by
  refine ⟨by simp, by simp, by simp, ?_⟩
  cases n <;> simp

theorem Sifts.zero (xs : List T) : Sifts who want xs 0 [] [] :=
  ⟨by simp, by simp, by simp, Or.inl ⟨rfl, by simp⟩⟩

/-- What one search of the loop in `next` does. -/
def Skips (who : Operand) (want : Bool) (xs : List T) (r : Option T × Feed T) (ev : List (Test T)) :
    Prop :=
  (∃ pre x post, xs = pre ++ x :: post ∧ r = (some x, post.map some) ∧
    ev = pre.map (⟨who, ·, !want⟩) ++ [⟨who, x, want⟩]) ∨
  (r = (none, []) ∧ ev = xs.map (⟨who, ·, !want⟩))

theorem skipToU_logs {g : T → Call (σ × List E) Bool} (hg : TestLogs R who g) (xs : List T) :
    LogsVia R (skipToU want g (xs.map some)) (Skips who want xs) := by
  induction xs with
  | nil => exact .pure (Or.inr ⟨rfl, rfl⟩)
  | cons x xs ih =>
    simp only [List.map_cons, skipToU]
    refine (hg x).bind (fun b ev hev => ?_)
    subst hev
    by_cases hb : b = want
    · rw [if_pos hb]
      subst hb
      exact .pure (Or.inl ⟨[], x, xs, rfl, rfl, by simp⟩)
    · rw [if_neg hb]
      have hb' : b = !want := by cases b <;> cases want <;> simp_all
      subst hb'
      refine ih.mono (fun r ev h => ?_)
      rcases h with ⟨pre, y, post, rfl, rfl, rfl⟩ | ⟨rfl, rfl⟩
      · exact Or.inl ⟨x :: pre, y, post, rfl, rfl, by simp⟩
      · exact Or.inr ⟨rfl, by simp⟩

theorem Sifts.miss (xs : List T) (n : Nat) :
    Sifts who want xs (n + 1) [] (xs.map (⟨who, ·, !want⟩)) := by
  refine ⟨by simp, by simp [Function.comp_def], ?_, Or.inr ⟨by simp, by simp [Function.comp_def]⟩⟩
  rw [List.filter_eq_nil_iff.mpr]
  · rfl
  · intro e he
    obtain ⟨x, _, rfl⟩ := List.mem_map.mp he
    cases want <;> simp

theorem Sifts.hit {pre post : List T} {x : T} {n : Nat} {found : List T} {ev : List (Test T)}
    (h : Sifts who want post n found ev) :
    Sifts who want (pre ++ x :: post) (n + 1) (x :: found)
      ((pre.map (⟨who, ·, !want⟩) ++ [⟨who, x, want⟩]) ++ ev) := by
  obtain ⟨h1, h2, h3, h4⟩ := h
  have hf : (pre.map (fun y => (⟨who, y, !want⟩ : Test T))).filter
      (fun e => decide (e.answer = want)) = [] := by
    rw [List.filter_eq_nil_iff]
    intro e he
    obtain ⟨y, _, rfl⟩ := List.mem_map.mp he
    cases want <;> simp
  refine ⟨?_, ?_, ?_, ?_⟩
  · intro e he
    simp only [List.mem_append, List.mem_map, List.mem_singleton] at he
    rcases he with (⟨y, _, rfl⟩ | rfl) | he
    · rfl
    · rfl
    · exact h1 e he
  · obtain ⟨t, ht⟩ := h2
    exact ⟨t, by simp [Function.comp_def, ← ht]⟩
  · rw [List.filter_append, List.filter_append, hf, h3]
    simp
  · rcases h4 with ⟨h4, h5⟩ | ⟨h4, h5⟩
    · refine Or.inl ⟨by simp [h4], fun e he => ?_⟩
      cases ev using List.reverseRecOn with
      | nil =>
        simp only [List.append_nil, List.getLast?_concat, Option.some.injEq] at he
        exact he ▸ rfl
      | append_singleton l a _ =>
        rw [← List.append_assoc, List.getLast?_concat] at he
        exact h5 e (by rw [List.getLast?_concat]; exact he)
    · exact Or.inr ⟨by simpa using h4, by simp [Function.comp_def, h5]⟩

theorem Sifts.length_le {xs : List T} {n : Nat} {found : List T} {ev : List (Test T)}
    (h : Sifts who want xs n found ev) : ev.length ≤ xs.length := by
  simpa using h.inOrder.length_le

theorem Sifts.found_le {xs : List T} {n : Nat} {found : List T} {ev : List (Test T)}
    (h : Sifts who want xs n found ev) : found.length ≤ n := by
  rcases h.stops with h | h <;> omega

theorem answers_cons (n : Nat) (x : T) (l : List T) : answers (n + 1) (x :: l) = some x :: answers n l := by
  simp [answers]

theorem answers_nil_succ (n : Nat) : answers (n + 1) ([] : List T) = none :: answers n [] := by
  simp [answers, List.replicate_succ]

theorem answers_zero : answers 0 ([] : List T) = [] := rfl

theorem AsksUntil.cons {x : T} {xs : List T} {r : Bool} {ev : List (Test T)}
    (h : AsksUntil who want xs r ev) : AsksUntil who want (x :: xs) r (⟨who, x, want⟩ :: ev) := by
  obtain ⟨h1, h2, h3, h4, h5⟩ := h
  refine ⟨?_, ?_, ?_, ?_, ?_⟩
  · intro e he
    rcases List.mem_cons.mp he with rfl | he
    · rfl
    · exact h1 e he
  · obtain ⟨t, ht⟩ := h2; exact ⟨t, by simp [← ht]⟩
  · intro e he
    cases ev with
    | nil => simp at he
    | cons a l =>
      rw [List.dropLast_cons_of_ne_nil (by simp)] at he
      rcases List.mem_cons.mp he with rfl | he
      · rfl
      · exact h3 e he
  · intro hr
    obtain ⟨h6, h7⟩ := h4 hr
    refine ⟨by simp [h6], fun e he => ?_⟩
    rcases List.mem_cons.mp he with rfl | he
    · rfl
    · exact h7 e he
  · intro hr
    obtain ⟨e, h6, h7⟩ := h5 hr
    refine ⟨e, ?_, h7⟩
    cases ev with
    | nil => simp at h6
    | cons a l => simpa [List.getLast?_cons] using h6

theorem AsksUntil.length_le {xs : List T} {r : Bool} {ev : List (Test T)}
    (h : AsksUntil who want xs r ev) : ev.length ≤ xs.length := by
  simpa using h.inOrder.length_le

theorem Feed.all_logs {q : T → Call (σ × List E) Bool} (xs : List T)
    (hq : ∀ x, LogsVia R (q x) (fun b ev => ev = [⟨who, x, if b then want else !want⟩])) :
    LogsVia R (Feed.all q (xs.map some)) (AsksUntil who want xs) := by
  induction xs with
  | nil => exact .pure ⟨by simp, by simp, by simp, by simp, by simp⟩
  | cons x xs ih =>
    simp only [List.map_cons, Feed.all]
    refine (hq x).bind (fun b ev hev => ?_)
    subst hev
    cases b with
    | true => exact ih.mono (fun r ev h => by simpa using h.cons)
    | false =>
      refine .pure ⟨by simp, by simp, by simp, by simp, ?_⟩
      intro _
      exact ⟨⟨who, x, !want⟩, by simp, by cases want <;> simp⟩

/-! ### The operations -/

/-- An iterator whose `next` is one search. -/
theorem sift_tests {ι : Type} {next : ι → Call (σ × List E) (Option T × ι)} {st : Feed T → ι}
    {g : T → Call (σ × List E) Bool} (hg : TestLogs R who g)
    (hn : ∀ a, next (st a) = (do
      let o ← skipToU want g a
      return (o.1, st o.2))) (n : Nat) : ∀ xs : List T,
    LogsVia R (ncalls next n (st (xs.map some)))
      (fun r ev => ∃ found, Sifts who want xs n found ev ∧ r.1 = answers n found) := by
  induction n with
  | zero => exact fun xs => .pure ⟨[], Sifts.zero xs, rfl⟩
  | succ n ih =>
    intro xs
    unfold ncalls
    rw [hn]
    refine LogsVia.bind (P := fun r ev => ∃ o, Skips who want xs o ev ∧ r = (o.1, st o.2))
      ((skipToU_logs hg xs).bind (fun o ev h => .pure ⟨o, by simpa using h, rfl⟩)) ?_
    rintro r ev ⟨o, hs, rfl⟩
    rcases hs with ⟨pre, x, post, rfl, rfl, rfl⟩ | ⟨rfl, rfl⟩
    · refine (ih post).bind (fun rs ev' h => .pure ?_)
      obtain ⟨found, h1, h2⟩ := h
      rw [List.append_nil]
      exact ⟨x :: found, h1.hit, by rw [answers_cons, ← h2]⟩
    · refine (ih []).bind (fun rs ev' h => .pure ?_)
      obtain ⟨found, h1, h2⟩ := h
      have he : ev' = [] := by simpa using h1.inOrder
      have hf : found = [] := by rw [h1.found_eq, he]; rfl
      subst he hf
      rw [List.append_nil, List.append_nil]
      exact ⟨[], Sifts.miss xs n, by rw [answers_nil_succ, ← h2]⟩

variable {a b : USet (σ × List E) T} {xs ys : List T}

theorem difference_tests (ha : a.HandsOut xs) (hb : b.HandsOut ys)
    (ta : TestLogs R .first a.contains) (tb : TestLogs R .second b.contains) (n : Nat) :
    LogsVia R (ncalls UBin.differenceNext n (UBin.new a b))
      (fun r ev => OpTests xs ys n .difference r.1 ev) := by
  unfold UBin.new
  rw [ha.iter, hb.iter]
  exact sift_tests tb (next := UBin.differenceNext) (st := fun i => UBin.mk a i b (ys.map some))
    (fun _ => rfl) n xs

theorem intersection_tests (ha : a.HandsOut xs) (hb : b.HandsOut ys)
    (ta : TestLogs R .first a.contains) (tb : TestLogs R .second b.contains) (n : Nat) :
    LogsVia R (ncalls UBin.intersectionNext n (UBin.new a b))
      (fun r ev => OpTests xs ys n .intersection r.1 ev) := by
  unfold OpTests UBin.new
  rw [ha.iter, hb.iter]
  by_cases h : xs.length < ys.length
  · simp only [if_pos h]
    refine sift_tests tb (next := UBin.intersectionNext)
      (st := fun i => UBin.mk a i b (ys.map some)) ?_ n xs
    intro i
    funext s
    simp only [UBin.intersectionNext, ha.len, hb.len, Call.bind_apply, Call.pure_apply, Res.ok_bind, if_pos h]
  · simp only [if_neg h]
    refine sift_tests ta (next := UBin.intersectionNext)
      (st := fun i => UBin.mk a (xs.map some) b i) ?_ n ys
    intro i
    funext s
    simp only [UBin.intersectionNext, ha.len, hb.len, Call.bind_apply, Call.pure_apply, Res.ok_bind, if_neg h]

/-- An iterator that first hands out `l` untested. -/
theorem prefix_tests {ι : Type} {next : ι → Call (σ × List E) (Option T × ι)}
    {st : Feed T → ι} {Q : Nat → List T → List (Test T) → Prop}
    (hn : ∀ x a, next (st (some x :: a)) = pure (some x, st a))
    (h0 : ∀ n, LogsVia R (ncalls next n (st [])) (fun r ev => ∃ found, Q n found ev ∧
      r.1 = answers n found)) (hQ : Q 0 [] []) (n : Nat) : ∀ l : List T,
    LogsVia R (ncalls next n (st (l.map some))) (fun r ev => ∃ found, Q (n - l.length) found ev ∧
      r.1 = answers n (l.take n ++ found)) := by
  induction n with
  | zero => exact fun l => .pure ⟨[], by simpa using hQ, by simp [answers]⟩
  | succ n ih =>
    intro l
    cases l with
    | nil => simpa using h0 (n + 1)
    | cons x l =>
      unfold ncalls
      rw [List.map_cons, hn]
      refine LogsVia.bind (P := fun r ev => ev = [] ∧ r = (some x, st (l.map some))) (.pure ⟨rfl, rfl⟩) ?_
      rintro r ev ⟨rfl, rfl⟩
      refine (ih l).bind (fun rs ev' h => .pure ?_)
      obtain ⟨found, h1, h2⟩ := h
      refine ⟨found, by simpa using h1, ?_⟩
      rw [List.take_succ_cons, List.cons_append, answers_cons, ← h2]

theorem union_tests (ha : a.HandsOut xs) (hb : b.HandsOut ys)
    (ta : TestLogs R .first a.contains) (tb : TestLogs R .second b.contains) (n : Nat) :
    LogsVia R (ncalls UBin.unionNext n (UBin.new a b))
      (fun r ev => OpTests xs ys n .union r.1 ev) := by
  unfold OpTests UBin.new
  rw [ha.iter, hb.iter]
  by_cases h : xs.length > ys.length
  · simp only [if_pos h]
    refine prefix_tests (next := UBin.unionNext) (Q := fun n found ev => Sifts .first false ys n found ev)
      (st := fun i => UBin.mk a i b (ys.map some)) ?_ ?_
      (Sifts.zero ys) n xs
    · intro x i
      funext s
      simp only [UBin.unionNext, ha.len, hb.len, Call.bind_apply, Call.pure_apply, Res.ok_bind, if_pos h, Feed.next]
    · intro n
      refine sift_tests ta (next := UBin.unionNext) (st := fun i => UBin.mk a [] b i) ?_ n ys
      intro i
      funext s
      simp only [UBin.unionNext, ha.len, hb.len, Call.bind_apply, Call.pure_apply, Res.ok_bind, if_pos h, Feed.next]
  · simp only [if_neg h]
    refine prefix_tests (next := UBin.unionNext) (Q := fun n found ev => Sifts .second false xs n found ev)
      (st := fun i => UBin.mk a (xs.map some) b i) ?_ ?_
      (Sifts.zero xs) n ys
    · intro x i
      funext s
      simp only [UBin.unionNext, ha.len, hb.len, Call.bind_apply, Call.pure_apply, Res.ok_bind, if_neg h, Feed.next]
    · intro n
      refine sift_tests tb (next := UBin.unionNext) (st := fun i => UBin.mk a i b []) ?_ n xs
      intro i
      funext s
      simp only [UBin.unionNext, ha.len, hb.len, Call.bind_apply, Call.pure_apply, Res.ok_bind, if_neg h, Feed.next]

theorem symDiff_tests (ta : TestLogs R .first a.contains)
    (tb : TestLogs R .second b.contains) (n : Nat) : ∀ xs : List T,
    LogsVia R (ncalls UBin.symDiffNext n
        ⟨a, xs.map some, b, ys.map some⟩)
      (fun r ev => OpTests xs ys n .symmetricDifference r.1 ev) := by
  have h2 : ∀ n (zs : List T), LogsVia R (ncalls UBin.symDiffNext n
        ⟨a, [], b, zs.map some⟩)
      (fun r ev => ∃ found, Sifts .first false zs n found ev ∧ r.1 = answers n found) := by
    intro n zs
    exact sift_tests ta (next := UBin.symDiffNext) (st := fun i => UBin.mk a [] b i)
      (fun _ => rfl) n zs
  induction n with
  | zero => exact fun xs => .pure ⟨[], [], [], [], rfl, Sifts.zero xs, Sifts.zero ys, rfl⟩
  | succ n ih =>
    intro xs
    unfold ncalls UBin.symDiffNext
    refine LogsVia.bind (P := fun r ev => (∃ pre x post, xs = pre ++ x :: post ∧
        r = (some x, ⟨a, post.map some, b, ys.map some⟩) ∧
        ev = pre.map (⟨.second, ·, !false⟩) ++ [⟨.second, x, false⟩]) ∨
      (∃ o ev₂, Skips .first false ys o ev₂ ∧
        r = (o.1, ⟨a, [], b, o.2⟩) ∧
        ev = xs.map (⟨.second, ·, !false⟩) ++ ev₂))
      ((skipToU_logs tb xs).bind (fun o ev h => ?_)) ?_
    · rcases h with ⟨pre, x, post, rfl, rfl, rfl⟩ | ⟨rfl, rfl⟩
      · exact .pure (Or.inl ⟨pre, x, post, rfl, rfl, by simp⟩)
      · exact (skipToU_logs ta ys).bind (fun o ev' h => .pure (Or.inr ⟨o, ev', h, rfl, by simp⟩))
    · rintro r ev (⟨pre, x, post, rfl, rfl, rfl⟩ | ⟨o, ev₂, hs, rfl, rfl⟩)
      · refine (ih post).bind (fun rs ev' h => .pure ?_)
        obtain ⟨f₁, f₂, e₁, e₂, rfl, h3, h4, h5⟩ := h
        refine ⟨x :: f₁, f₂, _, e₂, ?_, h3.hit, by simpa using h4, ?_⟩
        · rw [List.append_nil, List.append_assoc]
          simp
        · rw [List.cons_append, answers_cons, ← h5]
      · rcases hs with ⟨pre, x, post, rfl, rfl, rfl⟩ | ⟨rfl, rfl⟩
        · refine (h2 n post).bind (fun rs ev' h => .pure ?_)
          obtain ⟨found, h3, h4⟩ := h
          refine ⟨[], x :: found, _, _, ?_, Sifts.miss xs n, h3.hit, ?_⟩
          · rw [List.append_nil, List.append_assoc]
          · rw [List.nil_append, answers_cons, ← h4]
        · refine (h2 n []).bind (fun rs ev' h => .pure ?_)
          obtain ⟨found, h3, h4⟩ := h
          have he : ev' = [] := by simpa using h3.inOrder
          have hf : found = [] := by rw [h3.found_eq, he]; rfl
          subst he hf
          refine ⟨[], [], _, _, ?_, Sifts.miss xs n, Sifts.miss ys n, ?_⟩
          · rw [List.append_nil, List.append_nil]
          · rw [List.nil_append, answers_nil_succ, ← h4]

/-- All four. -/
theorem operation_tests (ha : a.HandsOut xs) (hb : b.HandsOut ys)
    (ta : TestLogs R .first a.contains) (tb : TestLogs R .second b.contains) (op : SetOp) (n : Nat) :
    LogsVia R (ncalls op.next n (UBin.new a b)) (fun r t => OpTests xs ys n op r.1 t) := by
  cases op with
  | union => exact union_tests ha hb ta tb n
  | intersection => exact intersection_tests ha hb ta tb n
  | difference => exact difference_tests ha hb ta tb n
  | symmetricDifference =>
    unfold UBin.new
    rw [ha.iter, hb.iter]
    exact symDiff_tests ta tb n xs

/-! ### The predicates -/

theorem contains_tests (tb : TestLogs R who b.contains) (x : T) :
    LogsVia R (b.contains x) (fun c t => t = [⟨who, x, if c then true else !true⟩]) :=
  (tb x).mono (fun c t h => by subst h; cases c <;> rfl)

theorem predicate_tests (ha : a.HandsOut xs) (hb : b.HandsOut ys)
    (ta : TestLogs R .first a.contains) (tb : TestLogs R .second b.contains) (pred : SetPred) :
    LogsVia R (pred.ask a b) (fun r t => PredTests xs ys pred r t) := by
  cases pred with
  | isSubset =>
    simp only [SetPred.ask, USet.isSubset, PredTests]
    rw [ha.len, hb.len, ha.iter]
    simp only [Call.pure_bind]
    by_cases h : xs.length ≤ ys.length
    · simp only [if_pos h]
      exact Feed.all_logs xs (contains_tests tb)
    · simp only [if_neg h]
      exact .pure ⟨rfl, rfl⟩
  | isSuperset =>
    simp only [SetPred.ask, USet.isSuperset, PredTests]
    rw [ha.len, hb.len, hb.iter]
    simp only [Call.pure_bind]
    by_cases h : ys.length ≤ xs.length
    · simp only [if_pos h]
      exact Feed.all_logs ys (contains_tests ta)
    · simp only [if_neg h]
      exact .pure ⟨rfl, rfl⟩
  | isDisjoint =>
    simp only [SetPred.ask, USet.isDisjoint, PredTests]
    rw [ha.len, ha.iter]
    simp only [Call.pure_bind, le_refl, if_true]
    exact Feed.all_logs xs (fun x => (tb x).bind (fun c t h => .pure (by subst h; cases c <;> rfl)))
  | eq =>
    simp only [SetPred.ask, USet.eq, PredTests]
    rw [ha.len, hb.len, ha.iter]
    simp only [Call.pure_bind]
    by_cases h : xs.length = ys.length
    · simp only [if_neg (not_not.mpr h), if_pos h]
      exact Feed.all_logs xs (contains_tests tb)
    · simp only [if_pos h, if_neg h]
      exact .pure ⟨rfl, rfl⟩

/-! ### Frozen sets -/

section
variable [Target]

theorem UMap.facade_lays_out (env : Env) (u : UserCode σ T T) (payload : List T)
    (h32 : payload.length < 2 ^ 32) :
    Logs (UMap.facade env u.logged (payload.map (fun x => (x, ())))) (fun m ev =>
      ∃ lay, m.Laid lay ∧ SetLaysOut payload (m.entries.map (·.1)) lay ev) := by
  have hvec : ∀ S : IdxTy, ¬ payload.length < 4 →
      Logs (UMap.fromVec env S u.logged (payload.map (fun x => (x, ())))) (fun m ev =>
        ∃ lay, m.Laid lay ∧ SetLaysOut payload (m.entries.map (·.1)) lay ev) := by
    intro S h
    refine (UMap.fromVec_logs env S u _ (by simpa using h32)).mono (fun m ev hev => ?_)
    obtain ⟨lay, sizes, codes, h1, h2, h3, h4, h5, h6⟩ := hev
    refine ⟨some lay, h4, ?_⟩
    rw [SetLaysOut, if_neg h]
    refine ⟨lay, rfl, sizes, codes, h1, h2, h3, ?_, ?_, h6⟩
    · cases m with
      | scanning es => cases h4
      | hashed T =>
        have hT : T.Laid lay := h4
        simp [hT.places, UMap.entries]
    · have := h5.map (Prod.map Prod.fst id)
      rwa [← List.zip_map_left, ← List.zip_map_left] at this
  unfold UMap.facade
  refine .ite (fun h => ?_) (fun h => .ite (fun _ => ?_) (fun _ => ?_))
  · refine .pure ⟨none, trivial, ?_⟩
    rw [SetLaysOut, if_pos (by simpa using h)]
    simp [UMap.entries, Function.comp_def]
  · exact hvec _ (by simpa using h)
  · exact hvec _ (by simpa using h)

omit [Target] in
theorem UMap.toSet_handsOut (u : UserCode σ T T) (m : UMap T Unit) :
    (m.toSet u).HandsOut (m.entries.map (·.1)) := by
  refine ⟨by simp [UMap.toSet, Function.comp_def], ?_⟩
  cases m <;> simp [UMap.toSet, UMap.len, UMap.entries]

theorem UMap.toSet_tests (u : UserCode σ T T) {m₁ m₂ : UMap T Unit} {lay₁ lay₂ : Option Layout}
    (h₁ : m₁.Laid lay₁) (h₂ : m₂.Laid lay₂) :
    TestLogs (Test.Looks (m₁.entries.map (·.1)) (m₂.entries.map (·.1)) lay₁ lay₂) .first
        (m₁.toSet u.logged).contains ∧
      TestLogs (Test.Looks (m₁.entries.map (·.1)) (m₂.entries.map (·.1)) lay₁ lay₂) .second
        (m₂.toSet u.logged).contains := by
  have he : ∀ m : UMap T Unit, (m.entries.map (·.1)).map (fun x => (x, ())) = m.entries := by
    intro m
    simp [Function.comp_def]
  constructor
  · intro x
    refine Logs.bind (UMap.lookup_logs u h₁ x) (fun o ev hev => .pure ?_)
    refine ⟨_, .one ?_, rfl⟩
    refine ⟨o.map (fun r => (r.1, r.2.val)), by cases o <;> rfl, ?_⟩
    rw [he, he, List.append_nil]
    exact hev
  · intro x
    refine Logs.bind (UMap.lookup_logs u h₂ x) (fun o ev hev => .pure ?_)
    refine ⟨_, .one ?_, rfl⟩
    refine ⟨o.map (fun r => (r.1, r.2.val)), by cases o <;> rfl, ?_⟩
    rw [he, he, List.append_nil]
    exact hev

end

/-! ### The log changes nothing -/

/-- Without its log, `c'` does what `c` does, up to `S` between the results. -/
def Mirrors {α' α : Type} (S : α' → α → Prop) (c' : Call (σ × List E) α') (c : Call σ α) : Prop :=
  ∀ s log, match c' (s, log), c s with
    | .ok r', .ok r => S r'.1 r.1 ∧ r'.2.1 = r.2
    | .panic, .panic => True
    | .ub, .ub => True
    | _, _ => False

theorem Mirrors.pure {α' α : Type} {S : α' → α → Prop} {a' : α'} {a : α} (h : S a' a) :
    Mirrors S (Pure.pure a' : Call (σ × List E) α') (Pure.pure a) := fun _ _ => ⟨h, rfl⟩

theorem Forgets.mirrors {c' : Call (σ × List E) α} {c : Call σ α} (h : Forgets c' c) :
    Mirrors Eq c' c := by
  intro s log
  rw [← h s log]
  cases c' (s, log) with
  | ok r => exact ⟨rfl, rfl⟩
  | panic => trivial
  | ub => trivial

theorem Mirrors.forgets {c' : Call (σ × List E) α} {c : Call σ α} (h : Mirrors Eq c' c) :
    Forgets c' c := by
  intro s log
  have := h s log
  revert this
  cases c' (s, log) <;> cases c s <;> intro h <;> first | exact h.elim | rfl | skip
  obtain ⟨h1, h2⟩ := h
  exact congrArg Res.ok (Prod.ext h1 h2)

theorem Mirrors.bind {α' α β' β : Type} {S : α' → α → Prop} {S' : β' → β → Prop}
    {c' : Call (σ × List E) α'} {c : Call σ α} {f' : α' → Call (σ × List E) β'} {f : α → Call σ β}
    (hc : Mirrors S c' c) (hf : ∀ a' a, S a' a → Mirrors S' (f' a') (f a)) :
    Mirrors S' (c' >>= f') (c >>= f) := by
  intro s log
  rw [Call.bind_apply, Call.bind_apply]
  have := hc s log
  revert this
  cases c' (s, log) <;> cases c s <;> intro h <;> first | exact h.elim | trivial | skip
  next r' r =>
    obtain ⟨h1, h2⟩ := h
    have := hf r'.1 r.1 h1 r'.2.1 r'.2.2
    rw [h2] at this
    simpa only [Res.ok_bind, ← h2] using this

theorem Mirrors.ite {α' α : Type} {S : α' → α → Prop} {P : Prop} [Decidable P]
    {c' d' : Call (σ × List E) α'} {c d : Call σ α} (hc : Mirrors S c' c) (hd : Mirrors S d' d) :
    Mirrors S (if P then c' else d') (if P then c else d) := by
  by_cases h : P
  · simp only [if_pos h]; exact hc
  · simp only [if_neg h]; exact hd

/-- Call by call, `a'` without its log is `a`. -/
structure USet.Mirrors (a' : USet (σ × List E) T) (a : USet σ T) : Prop where
  iter : a'.iter = a.iter
  contains : ∀ x, Forgets (a'.contains x) (a.contains x)
  len : Forgets a'.len a.len

/-- The same of iterators. -/
structure UBin.Mirrors (b' : UBin (σ × List E) T) (b : UBin σ T) : Prop where
  s1 : b'.s1.Mirrors b.s1
  s2 : b'.s2.Mirrors b.s2
  it1 : b'.it1 = b.it1
  it2 : b'.it2 = b.it2

theorem skipToU_forgets {f' : T → Call (σ × List E) Bool} {f : T → Call σ Bool}
    (hf : ∀ x, Forgets (f' x) (f x)) (l : Feed T) :
    Forgets (skipToU want f' l) (skipToU want f l) := by
  induction l with
  | nil => exact .pure
  | cons o l ih =>
    cases o with
    | none => exact .pure
    | some x => exact (hf x).bind (fun b => .ite .pure ih)

theorem SetOp.next_mirrors (op : SetOp) {b' : UBin (σ × List E) T} {b : UBin σ T}
    (h : b'.Mirrors b) :
    Mirrors (fun r' r => r'.1 = r.1 ∧ r'.2.Mirrors r.2) (op.next b') (op.next b) := by
  obtain ⟨s1', it1, s2', it2⟩ := b'
  obtain ⟨s1, _, s2, _⟩ := b
  obtain ⟨h1, h2, rfl, rfl⟩ := h
  have hs : ∀ want it, Forgets (skipToU want s1'.contains it) (skipToU want s1.contains it) :=
    fun _ => skipToU_forgets h1.contains
  have hs2 : ∀ want it, Forgets (skipToU want s2'.contains it) (skipToU want s2.contains it) :=
    fun _ => skipToU_forgets h2.contains
  cases op with
  | union =>
    simp only [SetOp.next, UBin.unionNext]
    refine h1.len.mirrors.bind (fun l1 _ e => e ▸ h2.len.mirrors.bind (fun l2 _ e => e ▸ ?_))
    refine .ite ?_ ?_
    · cases Feed.next it1 with
      | mk o r =>
        cases o with
        | some x => exact .pure ⟨rfl, h1, h2, rfl, rfl⟩
        | none => exact (hs _ _).mirrors.bind (fun o _ e => e ▸ .pure ⟨rfl, h1, h2, rfl, rfl⟩)
    · cases Feed.next it2 with
      | mk o r =>
        cases o with
        | some x => exact .pure ⟨rfl, h1, h2, rfl, rfl⟩
        | none => exact (hs2 _ _).mirrors.bind (fun o _ e => e ▸ .pure ⟨rfl, h1, h2, rfl, rfl⟩)
  | intersection =>
    simp only [SetOp.next, UBin.intersectionNext]
    refine h1.len.mirrors.bind (fun l1 _ e => e ▸ h2.len.mirrors.bind (fun l2 _ e => e ▸ ?_))
    exact .ite ((hs2 _ _).mirrors.bind (fun o _ e => e ▸ .pure ⟨rfl, h1, h2, rfl, rfl⟩))
      ((hs _ _).mirrors.bind (fun o _ e => e ▸ .pure ⟨rfl, h1, h2, rfl, rfl⟩))
  | difference =>
    exact (hs2 _ _).mirrors.bind (fun o _ e => e ▸ .pure ⟨rfl, h1, h2, rfl, rfl⟩)
  | symmetricDifference =>
    refine (hs2 _ _).mirrors.bind (fun o _ e => e ▸ ?_)
    obtain ⟨o, r⟩ := o
    cases o with
    | some x => exact .pure ⟨rfl, h1, h2, rfl, rfl⟩
    | none => exact (hs _ _).mirrors.bind (fun o _ e => e ▸ .pure ⟨rfl, h1, h2, rfl, rfl⟩)

theorem ncalls_mirrors (op : SetOp) (n : Nat) :
    ∀ {b' : UBin (σ × List E) T} {b : UBin σ T}, b'.Mirrors b →
      Mirrors (fun r' r => r'.1 = r.1) (ncalls op.next n b') (ncalls op.next n b) := by
  induction n with
  | zero => exact fun _ => .pure rfl
  | succ n ih =>
    exact fun h => (op.next_mirrors h).bind (fun r' r hr => (ih hr.2).bind
      (fun rs' rs hrs => .pure (by rw [hr.1, hrs])))

theorem Feed.all_forgets {f' : T → Call (σ × List E) Bool} {f : T → Call σ Bool}
    (hf : ∀ x, Forgets (f' x) (f x)) (l : Feed T) : Forgets (Feed.all f' l) (Feed.all f l) := by
  induction l with
  | nil => exact .pure
  | cons o l ih =>
    cases o with
    | none => exact .pure
    | some x => exact (hf x).bind (fun b => .ite ih .pure)

theorem SetPred.ask_forgets (pred : SetPred) {a' b' : USet (σ × List E) T} {a b : USet σ T}
    (ha : a'.Mirrors a) (hb : b'.Mirrors b) : Forgets (pred.ask a' b') (pred.ask a b) := by
  cases pred with
  | isSubset =>
    refine ha.len.bind (fun x => hb.len.bind (fun y => .ite ?_ .pure))
    rw [ha.iter]; exact Feed.all_forgets hb.contains _
  | isSuperset =>
    refine hb.len.bind (fun x => ha.len.bind (fun y => .ite ?_ .pure))
    rw [hb.iter]; exact Feed.all_forgets ha.contains _
  | isDisjoint =>
    refine ha.len.bind (fun x => ha.len.bind (fun y => .ite ?_ ?_))
    · rw [ha.iter]; exact Feed.all_forgets (fun v => (hb.contains v).bind (fun _ => .pure)) _
    · rw [hb.iter]; exact Feed.all_forgets (fun v => (ha.contains v).bind (fun _ => .pure)) _
  | eq =>
    refine ha.len.bind (fun x => hb.len.bind (fun y => .ite .pure ?_))
    rw [ha.iter]; exact Feed.all_forgets hb.contains _

theorem UMap.toSet_mirrors {u' : UserCode (σ × List E) T T} {u : UserCode σ T T}
    (hu : u'.Forgets u) (m : UMap T Unit) : (m.toSet u').Mirrors (m.toSet u) :=
  ⟨rfl, fun x => (UMap.lookup_forgets hu m x).bind (fun _ => .pure), .pure⟩

end FC
