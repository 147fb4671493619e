import Verif.Lemmas.SetCode
import Verif.Lemmas.SetOps
import Verif.Lemmas.Catch
import Verif.Lemmas.HonestCode
import Verif.Spec.CatchSetOps

/-
Lemmas about set operations whose panics are caught.
-/

set_option autoImplicit false

namespace FC
variable {σ T M α β : Type}

/-! ### Without catching -/

/-- What is left to tell if a panic ends everything. -/
def Landed.forget : Landed σ M α → Res ((α × M) × σ)
  | .done a m s => .ok ((a, m), s)
  | .panicked _ => .panic
  | .ub => .ub

theorem Holding.bind_forget (c : Holding σ M α) (f : α → Holding σ M β) (m : M) (s : σ) :
    ((c >>= f) m s).forget = (c m s).forget >>= fun r => (f r.1.1 r.1.2 r.2).forget := by
  show (match c m s with
    | .done a m' s' => f a m' s'
    | .panicked m' => .panicked m'
    | .ub => .ub : Landed σ M β).forget = _
  cases c m s <;> rfl

theorem Holding.pure_forget (a : α) (m : M) (s : σ) :
    ((pure a : Holding σ M α) m s).forget = .ok ((a, m), s) := rfl

theorem Holding.read_forget (c : M → Call σ α) (m : M) (s : σ) :
    (Holding.read c m s).forget = c m s >>= fun r => .ok ((r.1, m), r.2) := by
  show (match c m s with
    | .ok r => .done r.1 m r.2
    | .panic => .panicked m
    | .ub => .ub : Landed σ M α).forget = _
  cases c m s <;> rfl

theorem UBin.take1_forget (b : UBin σ T) (s : σ) :
    (UBin.take1 b s).forget = .ok ((b.it1.next.1, { b with it1 := b.it1.next.2 }), s) := rfl

theorem UBin.take2_forget (b : UBin σ T) (s : σ) :
    (UBin.take2 b s).forget = .ok ((b.it2.next.1, { b with it2 := b.it2.next.2 }), s) := rfl

theorem resBind_assoc {γ : Type} (r : Res α) (f : α → Res β) (g : β → Res γ) :
    ((r >>= f) >>= g) = (r >>= fun a => f a >>= g) := by
  cases r <;> rfl

theorem skipToH_forget (want : Bool) (contains : T → Call σ Bool) (put : Feed T → UBin σ T) (as : Feed T) :
    ∀ s, (skipToH want contains put as s).forget
      = skipToU want contains as s >>= fun r => .ok ((r.1.1, put r.1.2), r.2) := by
  induction as with
  | nil => exact fun _ => rfl
  | cons a as ih =>
    intro s
    cases a with
    | none => rfl
    | some x =>
      unfold skipToH skipToU
      rw [Call.bind_apply, resBind_assoc]
      cases contains x s with
      | panic => rfl
      | ub => rfl
      | ok r =>
        rw [Res.ok_bind]
        by_cases h : r.1 = want
        · simp only [if_pos h]; rfl
        · simp only [if_neg h]; exact ih r.2

theorem UBin.skip1_forget (want : Bool) (b : UBin σ T) (s : σ) : (UBin.skip1 want b s).forget
    = skipToU want b.s2.contains b.it1 s >>= fun r => .ok ((r.1.1, { b with it1 := r.1.2 }), r.2) :=
  skipToH_forget want _ _ _ s

theorem UBin.skip2_forget (want : Bool) (b : UBin σ T) (s : σ) : (UBin.skip2 want b s).forget
    = skipToU want b.s1.contains b.it2 s >>= fun r => .ok ((r.1.1, { b with it2 := r.1.2 }), r.2) :=
  skipToH_forget want _ _ _ s

theorem SetOp.nextH_forget (op : SetOp) (b : UBin σ T) (s : σ) :
    (op.nextH b s).forget = op.next b s := by
  cases op with
  | union =>
    show (UBin.unionNextH b s).forget = b.unionNext s
    unfold UBin.unionNextH UBin.unionNext
    simp only [Holding.bind_forget, Holding.read_forget, Call.bind_apply, resBind_assoc, Res.ok_bind]
    congr 1; funext r1
    congr 1; funext r2
    by_cases h : r1.1 > r2.1
    · simp only [if_pos h, Holding.bind_forget]
      rcases hn : b.it1.next with ⟨_ | x, r⟩
      · simp only [UBin.take1_forget, hn, Res.ok_bind, UBin.skip2_forget]
        rfl
      · simp only [UBin.take1_forget, hn, Res.ok_bind]
        rfl
    · simp only [if_neg h, Holding.bind_forget]
      rcases hn : b.it2.next with ⟨_ | x, r⟩
      · simp only [UBin.take2_forget, hn, Res.ok_bind, UBin.skip1_forget]
        rfl
      · simp only [UBin.take2_forget, hn, Res.ok_bind]
        rfl
  | intersection =>
    show (UBin.intersectionNextH b s).forget = b.intersectionNext s
    unfold UBin.intersectionNextH UBin.intersectionNext
    simp only [Holding.bind_forget, Holding.read_forget, Call.bind_apply, resBind_assoc, Res.ok_bind]
    congr 1; funext r1
    congr 1; funext r2
    by_cases h : r1.1 < r2.1
    · simp only [if_pos h, UBin.skip1_forget]; rfl
    · simp only [if_neg h, UBin.skip2_forget]; rfl
  | difference => exact UBin.skip1_forget false b s
  | symmetricDifference =>
    show (UBin.symDiffNextH b s).forget = b.symDiffNext s
    unfold UBin.symDiffNextH UBin.symDiffNext
    simp only [Holding.bind_forget, UBin.skip1_forget, Call.bind_apply, resBind_assoc, Res.ok_bind]
    congr 1; funext r1
    rcases r1 with ⟨⟨_ | x, r⟩, s'⟩
    · simp only [UBin.skip2_forget]; rfl
    · rfl

/-! ### Any operands -/

/-- The operands stay, and their iterators only move on. -/
def UBin.Moves (b b' : UBin σ T) : Prop :=
  b'.s1 = b.s1 ∧ b'.s2 = b.s2 ∧ b'.it1.items <:+ b.it1.items ∧ b'.it2.items <:+ b.it2.items

theorem UBin.Moves.refl (b : UBin σ T) : b.Moves b := ⟨rfl, rfl, List.suffix_refl _, List.suffix_refl _⟩

theorem UBin.Moves.trans {a b c : UBin σ T} (h : a.Moves b) (h' : b.Moves c) : a.Moves c :=
  ⟨h'.1.trans h.1, h'.2.1.trans h.2.1, h'.2.2.1.trans h.2.2.1, h'.2.2.2.trans h.2.2.2⟩

theorem skipToH_moves (want : Bool) (contains : T → Call σ Bool) (put : Feed T → UBin σ T) (as : Feed T) :
    ∀ s, match skipToH want contains put as s with
      | .done _ b' _ => ∃ as', b' = put as' ∧ as'.items <:+ as.items
      | .panicked b' => ∃ as', b' = put as' ∧ as'.items <:+ as.items
      | .ub => True := by
  have step : ∀ (x : T) (l : Feed T), l.items <:+ Feed.items (some x :: l) := fun x l =>
    ⟨[x], by rw [Feed.items_some]; rfl⟩
  induction as with
  | nil => exact fun _ => ⟨[], rfl, List.suffix_refl _⟩
  | cons a as ih =>
    intro s
    cases a with
    | none => exact ⟨as, rfl, List.suffix_refl _⟩
    | some x =>
      unfold skipToH
      cases contains x s with
      | panic => exact ⟨as, rfl, step x as⟩
      | ub => trivial
      | ok r =>
        by_cases h : r.1 = want
        · simp only [if_pos h]
          exact ⟨as, rfl, step x as⟩
        · simp only [if_neg h]
          have := ih r.2
          cases e : skipToH want contains put as r.2 with
          | done o b' s' =>
            rw [e] at this
            obtain ⟨as', h1, h2⟩ := this
            exact ⟨as', h1, h2.trans (step x as)⟩
          | panicked b' =>
            rw [e] at this
            obtain ⟨as', h1, h2⟩ := this
            exact ⟨as', h1, h2.trans (step x as)⟩
          | ub => trivial

/-- Either way. -/
abbrev HMoves (c : Holding σ (UBin σ T) α) (b : UBin σ T) : Prop :=
  HBehaves True c b (fun _ => b.Moves) b.Moves

theorem UBin.skip1_moves (want : Bool) (b : UBin σ T) : HMoves (UBin.skip1 want) b := by
  intro s
  have := skipToH_moves want b.s2.contains (fun as => { b with it1 := as }) b.it1 s
  have e0 : UBin.skip1 want b s = skipToH want b.s2.contains (fun as => { b with it1 := as }) b.it1 s := rfl
  rw [e0]
  cases e : skipToH want b.s2.contains (fun as => { b with it1 := as }) b.it1 s with
  | done o b' s' =>
    rw [e] at this
    obtain ⟨as', rfl, h2⟩ := this
    exact ⟨rfl, rfl, h2, List.suffix_refl _⟩
  | panicked b' =>
    rw [e] at this
    obtain ⟨as', rfl, h2⟩ := this
    exact ⟨rfl, rfl, h2, List.suffix_refl _⟩
  | ub => trivial

theorem UBin.skip2_moves (want : Bool) (b : UBin σ T) : HMoves (UBin.skip2 want) b := by
  intro s
  have := skipToH_moves want b.s1.contains (fun as => { b with it2 := as }) b.it2 s
  have e0 : UBin.skip2 want b s = skipToH want b.s1.contains (fun as => { b with it2 := as }) b.it2 s := rfl
  rw [e0]
  cases e : skipToH want b.s1.contains (fun as => { b with it2 := as }) b.it2 s with
  | done o b' s' =>
    rw [e] at this
    obtain ⟨as', rfl, h2⟩ := this
    exact ⟨rfl, rfl, List.suffix_refl _, h2⟩
  | panicked b' =>
    rw [e] at this
    obtain ⟨as', rfl, h2⟩ := this
    exact ⟨rfl, rfl, List.suffix_refl _, h2⟩
  | ub => trivial

theorem HMoves.bind {c : Holding σ (UBin σ T) α} {f : α → Holding σ (UBin σ T) β} {b : UBin σ T}
    (h : HMoves c b) (hf : ∀ a b', HMoves (f a) b') : HMoves (c >>= f) b :=
  HBehaves.bind h fun a b' hb => (hf a b').mono id (fun _ _ h => hb.trans h) fun _ h => hb.trans h

theorem HMoves.read (c : UBin σ T → Call σ α) (b : UBin σ T) : HMoves (Holding.read c) b :=
  (HBehaves.read (pan := b.Moves) (c := c) (Behaves.any (c b)) (fun _ => .refl b)).mono id
    (fun _ b' h => by rw [h.1]; exact .refl b) fun _ h => h

theorem UBin.take1_moves (b : UBin σ T) : HMoves UBin.take1 b := fun _ =>
  ⟨rfl, rfl, b.it1.next_suffix, List.suffix_refl _⟩

theorem UBin.take2_moves (b : UBin σ T) : HMoves UBin.take2 b := fun _ =>
  ⟨rfl, rfl, List.suffix_refl _, b.it2.next_suffix⟩

theorem SetOp.nextH_moves (op : SetOp) (b : UBin σ T) : HMoves op.nextH b := by
  cases op with
  | union =>
    refine HMoves.bind (.read _ b) fun l1 b => HMoves.bind (.read _ b) fun l2 b => ?_
    by_cases h : l1 > l2
    · simp only [if_pos h]
      refine HMoves.bind b.take1_moves fun o b => ?_
      cases o with
      | some x => exact .pure (.refl b)
      | none => exact b.skip2_moves false
    · simp only [if_neg h]
      refine HMoves.bind b.take2_moves fun o b => ?_
      cases o with
      | some x => exact .pure (.refl b)
      | none => exact b.skip1_moves false
  | intersection =>
    refine HMoves.bind (.read _ b) fun l1 b => HMoves.bind (.read _ b) fun l2 b => ?_
    by_cases h : l1 < l2
    · simp only [if_pos h]; exact b.skip1_moves true
    · simp only [if_neg h]; exact b.skip2_moves true
  | difference => exact b.skip1_moves false
  | symmetricDifference =>
    refine HMoves.bind (b.skip1_moves false) fun o b => ?_
    cases o with
    | some x => exact .pure (.refl b)
    | none => exact b.skip2_moves false

/-- One call whose panic is caught. -/
theorem SetOp.caughtNext_draws {p : Prop} {P Q : T → Prop} (op : SetOp) (b : UBin σ T)
    (h : Behaves False p (op.next b) (Draws P Q b)) (left : σ) :
    Behaves False False (op.caughtNext b left)
      (fun r => (r.1 = none → p) ∧ Draws P Q b (r.1.join, r.2)) := by
  intro s
  have h1 := h s
  have h2 := op.nextH_moves b s
  rw [← op.nextH_forget b s] at h1
  unfold SetOp.caughtNext
  cases e : op.nextH b s with
  | done o b' s' =>
    rw [e] at h1
    exact ⟨(by rintro ⟨⟩), h1⟩
  | panicked b' =>
    rw [e] at h1 h2
    exact ⟨fun _ => h1, h2.1, h2.2.1, Or.inl ⟨rfl, h2.2.2⟩⟩
  | ub => rw [e] at h1; exact h1

/-- Steps that draw, one after the other. -/
theorem drawnFrom_cons {P Q : T → Prop} {s s' : UBin σ T} {o : Option T} {os : List (Option T)}
    (hr : Draws P Q s (o, s')) (hrs : DrawnFrom s'.it1 s'.it2 P Q os) :
    DrawnFrom s.it1 s.it2 P Q (o :: os) := by
  obtain ⟨-, -, hr⟩ := hr
  obtain ⟨la, lb, sa, sb, pa, pb, hi⟩ := hrs
  rcases hr with ⟨ho, t1, t2⟩ | ⟨x, ho, hx, ⟨pre, t1⟩, t2⟩ | ⟨x, ho, hx, ⟨pre, t1⟩, t2⟩
  · refine ⟨la, lb, sa.trans t1.sublist, sb.trans t2.sublist, pa, pb, ?_⟩
    obtain rfl : o = none := ho
    exact hi
  · refine ⟨x :: la, lb, ?_, sb.trans t2.sublist, ?_, pb, ?_⟩
    · rw [t1]
      exact (sa.cons_cons x).trans (List.sublist_append_right _ _)
    · intro y hy
      rcases List.mem_cons.1 hy with rfl | hy
      · exact hx
      · exact pa y hy
    · obtain rfl : o = some x := ho
      exact .left hi
  · refine ⟨la, x :: lb, sa.trans t2.sublist, ?_, pa, ?_, ?_⟩
    · rw [t1]
      exact (sb.cons_cons x).trans (List.sublist_append_right _ _)
    · intro y hy
      rcases List.mem_cons.1 hy with rfl | hy
      · exact hx
      · exact pb y hy
    · obtain rfl : o = some x := ho
      exact .right hi

theorem SetOp.draw_draws {p : Prop} {P Q : T → Prop} {a c : USet σ T} (op : SetOp)
    (h : ∀ b : UBin σ T, b.s1 = a → b.s2 = c → Behaves False p (op.next b) (Draws P Q b)) (ls : List σ) :
    ∀ b : UBin σ T, b.s1 = a → b.s2 = c → Behaves False False (op.draw b ls)
      (fun r => (none ∈ r.1 → p) ∧ DrawnFrom b.it1 b.it2 P Q (r.1.map Option.join)) := by
  induction ls with
  | nil =>
    intro b _ _
    exact .pure ⟨by simp, [], [], List.nil_sublist _, List.nil_sublist _, by simp, by simp, .nil⟩
  | cons l ls ih =>
    intro b h1 h2
    unfold SetOp.draw
    refine (op.caughtNext_draws b (h b h1 h2) l).bind fun r hr => ?_
    refine (ih r.2 (hr.2.1.trans h1) (hr.2.2.1.trans h2)).bind fun rs hrs => .pure ⟨?_, ?_⟩
    · intro hm
      rcases List.mem_cons.1 hm with h0 | h0
      · exact hr.1 h0.symm
      · exact hrs.1 h0
    · exact drawnFrom_cons hr.2 hrs.2

/-- One answer per call. -/
theorem SetOp.draw_length (op : SetOp) (ls : List σ) : ∀ b : UBin σ T,
    Behaves True True (op.draw b ls) (fun r => r.1.length = ls.length) := by
  induction ls with
  | nil => exact fun _ => .pure rfl
  | cons l ls ih =>
    intro b
    unfold SetOp.draw
    refine (Behaves.any _).bind fun r _ => (ih r.2).bind fun rs hrs => .pure ?_
    simp only [List.length_cons, hrs]

/-! ### Operands that are right whenever they answer -/

/-- One call. -/
def LossyStep (p : Prop) (E : List T) : Option (Option T) → List T → Prop
  | some (some x), E' => E = x :: E'
  | some none, E' => E = [] ∧ E' = []
  | none, E' => p ∧ (E' = E ∨ ∃ x, E = x :: E')

theorem Lossy.step {p : Prop} {E E' E'' : List T} {o : Option (Option T)} {os : List (Option (Option T))}
    (h : LossyStep p E o E') (hs : Lossy p E' os E'') : Lossy p E (o :: os) E'' := by
  rcases o with _ | _ | x
  · obtain ⟨hp, rfl | ⟨x, rfl⟩⟩ := h
    · exact .panicked hp hs
    · exact .lost hp hs
  · obtain ⟨rfl, rfl⟩ := h
    exact .finished hs
  · obtain rfl := h
    exact .item hs

theorem LossyStep.append {p : Prop} {E E' F : List T} {o : Option (Option T)} (h : LossyStep p E o E')
    (ho : o ≠ some none) : LossyStep p (E ++ F) o (E' ++ F) := by
  rcases o with _ | _ | x
  · obtain ⟨hp, rfl | ⟨x, rfl⟩⟩ := h
    · exact ⟨hp, Or.inl rfl⟩
    · exact ⟨hp, Or.inr ⟨x, rfl⟩⟩
  · exact absurd rfl ho
  · obtain rfl := h
    exact rfl

/-- The loop, against a right operand. -/
theorem skipToH_lossy {p : Prop} {contains : T → Call σ Bool} {c : T → Bool}
    (hc : ∀ x, Behaves False p (contains x) (fun b => b = c x)) (want : Bool) (put : Feed T → UBin σ T)
    (l : List T) : ∀ s, match skipToH want contains put (l.map some) s with
      | .done o b' _ => ∃ l' : List T, b' = put (l'.map some) ∧ (o = none → l' = []) ∧
        LossyStep p (l.filter (c · == want)) (some o) (l'.filter (c · == want))
      | .panicked b' => ∃ l' : List T, b' = put (l'.map some) ∧
        LossyStep p (l.filter (c · == want)) none (l'.filter (c · == want))
      | .ub => False := by
  induction l with
  | nil => exact fun _ => ⟨[], rfl, fun _ => rfl, rfl, rfl⟩
  | cons x l ih =>
    intro s
    simp only [List.map_cons]
    unfold skipToH
    have hx := hc x s
    cases e : contains x s with
    | ub => rw [e] at hx; exact hx
    | panic =>
      rw [e] at hx
      refine ⟨l, rfl, hx, ?_⟩
      by_cases h : (c x == want) = true
      · exact Or.inr ⟨x, List.filter_cons_of_pos h⟩
      · exact Or.inl (List.filter_cons_of_neg (p := (c · == want)) h).symm
    | ok r =>
      rw [e] at hx
      have hx : r.1 = c x := hx
      by_cases h : r.1 = want
      · simp only [if_pos h]
        exact ⟨l, rfl, (by rintro ⟨⟩), List.filter_cons_of_pos (by rw [← hx, h]; exact beq_self_eq_true _)⟩
      · simp only [if_neg h]
        rw [List.filter_cons_of_neg (by rw [← hx]; simpa using h)]
        exact ih r.2

/-- The items that the result of an operation has, in the order in which they come, when `r₁` and `r₂` are
what is left of the operands of `n₁` and `n₂` items. -/
def SetOp.remaining (op : SetOp) (n₁ n₂ : Nat) (c₁ c₂ : T → Bool) (r₁ r₂ : List T) : List T :=
  match op with
  | .union => if n₁ > n₂ then r₁ ++ r₂.filter (c₁ · == false) else r₂ ++ r₁.filter (c₂ · == false)
  | .intersection => if n₁ < n₂ then r₁.filter (c₂ · == true) else r₂.filter (c₁ · == true)
  | .difference => r₁.filter (c₂ · == false)
  | .symmetricDifference => r₁.filter (c₂ · == false) ++ r₂.filter (c₁ · == false)

/-- An operation, part of the way. -/
abbrev UBin.at (a b : USet σ T) (r₁ r₂ : List T) : UBin σ T := ⟨a, r₁.map some, b, r₂.map some⟩

section
variable {p : Prop} {a b : USet σ T} {n₁ n₂ : Nat} {c₁ c₂ : T → Bool}

theorem UBin.skip1_lossy (h₂ : ∀ x, Behaves False p (b.contains x) (fun r => r = c₂ x)) (want : Bool)
    (r₁ r₂ : List T) : HBehaves False (UBin.skip1 want) (.at a b r₁ r₂)
      (fun o m => ∃ r, m = .at a b r r₂ ∧ (o = none → r = []) ∧
        LossyStep p (r₁.filter (c₂ · == want)) (some o) (r.filter (c₂ · == want)))
      (fun m => ∃ r, m = .at a b r r₂ ∧
        LossyStep p (r₁.filter (c₂ · == want)) none (r.filter (c₂ · == want))) := by
  intro s
  have := skipToH_lossy h₂ want (fun as => (⟨a, as, b, r₂.map some⟩ : UBin σ T)) r₁ s
  have e0 : UBin.skip1 want (.at a b r₁ r₂) s
    = skipToH want b.contains (fun as => (⟨a, as, b, r₂.map some⟩ : UBin σ T)) (r₁.map some) s := rfl
  rw [e0]
  cases e : skipToH want b.contains (fun as => (⟨a, as, b, r₂.map some⟩ : UBin σ T)) (r₁.map some) s <;>
    (rw [e] at this; exact this)

theorem UBin.skip2_lossy (h₁ : ∀ x, Behaves False p (a.contains x) (fun r => r = c₁ x)) (want : Bool)
    (r₁ r₂ : List T) : HBehaves False (UBin.skip2 want) (.at a b r₁ r₂)
      (fun o m => ∃ r, m = .at a b r₁ r ∧ (o = none → r = []) ∧
        LossyStep p (r₂.filter (c₁ · == want)) (some o) (r.filter (c₁ · == want)))
      (fun m => ∃ r, m = .at a b r₁ r ∧
        LossyStep p (r₂.filter (c₁ · == want)) none (r.filter (c₁ · == want))) := by
  intro s
  have := skipToH_lossy h₁ want (fun as => (⟨a, r₁.map some, b, as⟩ : UBin σ T)) r₂ s
  have e0 : UBin.skip2 want (.at a b r₁ r₂) s
    = skipToH want a.contains (fun as => (⟨a, r₁.map some, b, as⟩ : UBin σ T)) (r₂.map some) s := rfl
  rw [e0]
  cases e : skipToH want a.contains (fun as => (⟨a, r₁.map some, b, as⟩ : UBin σ T)) (r₂.map some) s <;>
    (rw [e] at this; exact this)

theorem SetOp.nextH_lossy (op : SetOp)
    (h₁ : ∀ x, Behaves False p (a.contains x) (fun r => r = c₁ x))
    (h₂ : ∀ x, Behaves False p (b.contains x) (fun r => r = c₂ x))
    (l₁ : Behaves False p a.len (fun n => n = n₁)) (l₂ : Behaves False p b.len (fun n => n = n₂))
    (r₁ r₂ : List T) : HBehaves False op.nextH (.at a b r₁ r₂)
      (fun o m => ∃ r₁' r₂', m = .at a b r₁' r₂' ∧
        LossyStep p (op.remaining n₁ n₂ c₁ c₂ r₁ r₂) (some o) (op.remaining n₁ n₂ c₁ c₂ r₁' r₂'))
      (fun m => ∃ r₁' r₂', m = .at a b r₁' r₂' ∧
        LossyStep p (op.remaining n₁ n₂ c₁ c₂ r₁ r₂) none (op.remaining n₁ n₂ c₁ c₂ r₁' r₂')) := by
  have stays : ∀ op : SetOp, p → ∃ r₁' r₂', (UBin.at a b r₁ r₂ : UBin σ T) = .at a b r₁' r₂' ∧
      LossyStep p (op.remaining n₁ n₂ c₁ c₂ r₁ r₂) none (op.remaining n₁ n₂ c₁ c₂ r₁' r₂') :=
    fun _ hp => ⟨r₁, r₂, rfl, hp, Or.inl rfl⟩
  have lens : ∀ (op : SetOp) (f : Nat → Nat → Holding σ (UBin σ T) (Option T)),
      HBehaves False (f n₁ n₂) (.at a b r₁ r₂)
        (fun o m => ∃ r₁' r₂', m = .at a b r₁' r₂' ∧
          LossyStep p (op.remaining n₁ n₂ c₁ c₂ r₁ r₂) (some o) (op.remaining n₁ n₂ c₁ c₂ r₁' r₂'))
        (fun m => ∃ r₁' r₂', m = .at a b r₁' r₂' ∧
          LossyStep p (op.remaining n₁ n₂ c₁ c₂ r₁ r₂) none (op.remaining n₁ n₂ c₁ c₂ r₁' r₂')) →
      HBehaves False (do
        let l1 ← Holding.read (fun b => b.s1.len)
        let l2 ← Holding.read (fun b => b.s2.len)
        f l1 l2) (.at a b r₁ r₂)
        (fun o m => ∃ r₁' r₂', m = .at a b r₁' r₂' ∧
          LossyStep p (op.remaining n₁ n₂ c₁ c₂ r₁ r₂) (some o) (op.remaining n₁ n₂ c₁ c₂ r₁' r₂'))
        (fun m => ∃ r₁' r₂', m = .at a b r₁' r₂' ∧
          LossyStep p (op.remaining n₁ n₂ c₁ c₂ r₁ r₂) none (op.remaining n₁ n₂ c₁ c₂ r₁' r₂')) := by
    intro op f hf
    refine HBehaves.bind (HBehaves.read (c := fun b : UBin σ T => b.s1.len) l₁ (stays op)) ?_
    intro x m hx
    obtain ⟨e, rfl⟩ := hx
    rw [e]
    refine HBehaves.bind (HBehaves.read (c := fun b : UBin σ T => b.s2.len) l₂ (stays op)) ?_
    intro y m hy
    obtain ⟨e, rfl⟩ := hy
    rw [e]
    exact hf
  cases op with
  | union =>
    refine lens .union (fun l1 l2 => if l1 > l2 then _ else _) ?_
    unfold SetOp.remaining
    by_cases h : n₁ > n₂
    · simp only [if_pos h]
      cases r₁ with
      | nil =>
        refine HBehaves.bind (post := fun o m => o = none ∧ m = .at a b [] r₂) (fun _ => ⟨rfl, rfl⟩) ?_
        rintro o m ⟨rfl, rfl⟩
        refine (UBin.skip2_lossy h₁ false [] r₂).mono id ?_ ?_
        · rintro o m ⟨r, rfl, -, h⟩
          exact ⟨[], r, rfl, h⟩
        · rintro m ⟨r, rfl, h⟩
          exact ⟨[], r, rfl, h⟩
      | cons x r₁ =>
        refine HBehaves.bind (post := fun o m => o = some x ∧ m = .at a b r₁ r₂) (fun _ => ⟨rfl, rfl⟩) ?_
        rintro o m ⟨rfl, rfl⟩
        exact .pure ⟨r₁, r₂, rfl, rfl⟩
    · simp only [if_neg h]
      cases r₂ with
      | nil =>
        refine HBehaves.bind (post := fun o m => o = none ∧ m = .at a b r₁ []) (fun _ => ⟨rfl, rfl⟩) ?_
        rintro o m ⟨rfl, rfl⟩
        refine (UBin.skip1_lossy h₂ false r₁ []).mono id ?_ ?_
        · rintro o m ⟨r, rfl, -, h⟩
          exact ⟨r, [], rfl, h⟩
        · rintro m ⟨r, rfl, h⟩
          exact ⟨r, [], rfl, h⟩
      | cons x r₂ =>
        refine HBehaves.bind (post := fun o m => o = some x ∧ m = .at a b r₁ r₂) (fun _ => ⟨rfl, rfl⟩) ?_
        rintro o m ⟨rfl, rfl⟩
        exact .pure ⟨r₁, r₂, rfl, rfl⟩
  | intersection =>
    refine lens .intersection (fun l1 l2 => if l1 < l2 then _ else _) ?_
    unfold SetOp.remaining
    by_cases h : n₁ < n₂
    · simp only [if_pos h]
      refine (UBin.skip1_lossy h₂ true r₁ r₂).mono id ?_ ?_
      · rintro o m ⟨r, rfl, -, h⟩
        exact ⟨r, r₂, rfl, h⟩
      · rintro m ⟨r, rfl, h⟩
        exact ⟨r, r₂, rfl, h⟩
    · simp only [if_neg h]
      refine (UBin.skip2_lossy h₁ true r₁ r₂).mono id ?_ ?_
      · rintro o m ⟨r, rfl, -, h⟩
        exact ⟨r₁, r, rfl, h⟩
      · rintro m ⟨r, rfl, h⟩
        exact ⟨r₁, r, rfl, h⟩
  | difference =>
    refine (UBin.skip1_lossy h₂ false r₁ r₂).mono id ?_ ?_
    · rintro o m ⟨r, rfl, -, h⟩
      exact ⟨r, r₂, rfl, h⟩
    · rintro m ⟨r, rfl, h⟩
      exact ⟨r, r₂, rfl, h⟩
  | symmetricDifference =>
    unfold SetOp.remaining
    refine HBehaves.bind ((UBin.skip1_lossy h₂ false r₁ r₂).mono id (fun _ _ h => h) ?_) ?_
    · rintro m ⟨r, rfl, h⟩
      exact ⟨r, r₂, rfl, h.append (by rintro ⟨⟩)⟩
    · rintro o m ⟨r, rfl, hr, h⟩
      cases o with
      | some x => exact .pure ⟨r, r₂, rfl, h.append (by rintro ⟨⟩)⟩
      | none =>
        obtain rfl := hr rfl
        obtain ⟨h, -⟩ := h
        rw [h]
        refine (UBin.skip2_lossy h₁ false [] r₂).mono id ?_ ?_
        · rintro o m ⟨r, rfl, -, h⟩
          exact ⟨[], r, rfl, h⟩
        · rintro m ⟨r, rfl, h⟩
          exact ⟨[], r, rfl, h⟩

theorem SetOp.draw_lossy (op : SetOp)
    (h₁ : ∀ x, Behaves False p (a.contains x) (fun r => r = c₁ x))
    (h₂ : ∀ x, Behaves False p (b.contains x) (fun r => r = c₂ x))
    (l₁ : Behaves False p a.len (fun n => n = n₁)) (l₂ : Behaves False p b.len (fun n => n = n₂))
    (ls : List σ) : ∀ r₁ r₂ : List T, Behaves False False (op.draw (.at a b r₁ r₂) ls)
      (fun r => ∃ rest, Lossy p (op.remaining n₁ n₂ c₁ c₂ r₁ r₂) r.1 rest) := by
  induction ls with
  | nil => exact fun r₁ r₂ => .pure ⟨_, .nil _⟩
  | cons l ls ih =>
    intro r₁ r₂
    unfold SetOp.draw
    have h : Behaves False False (op.caughtNext (.at a b r₁ r₂) l) (fun r => ∃ r₁' r₂',
        r.2 = .at a b r₁' r₂' ∧
        LossyStep p (op.remaining n₁ n₂ c₁ c₂ r₁ r₂) r.1 (op.remaining n₁ n₂ c₁ c₂ r₁' r₂')) := by
      intro s
      have := op.nextH_lossy h₁ h₂ l₁ l₂ r₁ r₂ s
      unfold SetOp.caughtNext
      cases e : op.nextH (.at a b r₁ r₂) s <;> (rw [e] at this; exact this)
    refine h.bind fun r hr => ?_
    obtain ⟨r₁', r₂', e, hr⟩ := hr
    rw [e]
    refine (ih r₁' r₂').bind fun rs hrs => ?_
    obtain ⟨rest, hrs⟩ := hrs
    exact .pure ⟨rest, .step hr hrs⟩

end

open Classical in
/-- Against the operands' own items. -/
theorem SetOp.draw_honest {p : Prop} {eq : T → T → Bool} {a b : USet σ T} {l₁ l₂ : List T}
    (ha : a.Honest p eq l₁) (hb : b.Honest p eq l₂) (op : SetOp) (ls : List σ) :
    Behaves False False (op.draw (UBin.new a b) ls) (fun r => ∃ rest,
      Lossy p (op.remaining l₁.length l₂.length (fun x => decide (Has eq l₁ x))
        (fun x => decide (Has eq l₂ x)) l₁ l₂) r.1 rest) := by
  have e : UBin.new a b = .at a b l₁ l₂ := by unfold UBin.new; rw [ha.iter, hb.iter]
  have key : ∀ (l : List T) (x : T) (r : Bool), (r = true ↔ Has eq l x) → r = decide (Has eq l x) := by
    intro l x r h
    by_cases hx : Has eq l x
    · rw [h.2 hx, decide_eq_true hx]
    · rw [decide_eq_false hx]; cases r
      · rfl
      · exact absurd (h.1 rfl) hx
  rw [e]
  exact op.draw_lossy (fun x => (ha.contains x).mono id id (key l₁ x))
    (fun x => (hb.contains x).mono id id (key l₂ x)) ha.len hb.len ls l₁ l₂

open Classical in
theorem SetOp.remaining_result {eq : T → T → Bool} (heq : LawfulEq eq) {l₁ l₂ : List T}
    (h₁ : Distinct eq l₁) (h₂ : Distinct eq l₂) (op : SetOp) (n₁ n₂ : Nat) :
    op.Result eq l₁ l₂ (op.remaining n₁ n₂ (fun x => decide (Has eq l₁ x)) (fun x => decide (Has eq l₂ x))
      l₁ l₂) := by
  have cong : ∀ (l : List T) (w : Bool) (x y : T), eq x y = true →
      (decide (Has eq l x) == w) = (decide (Has eq l y) == w) := by
    intro l w x y h
    simp only [has_congr heq (l := l) h]
  have hf : ∀ (l l' : List T) (x : T), Has eq (l.filter (fun x => decide (Has eq l' x) == false)) x ↔
      Has eq l x ∧ ¬ Has eq l' x := fun l l' x => by
    rw [has_filter (cong l' false)]; simp
  have ht : ∀ (l l' : List T) (x : T), Has eq (l.filter (fun x => decide (Has eq l' x) == true)) x ↔
      Has eq l x ∧ Has eq l' x := fun l l' x => by
    rw [has_filter (cong l' true)]; simp
  have apart : ∀ (l l' : List T), ∀ y ∈ l'.filter (fun x => decide (Has eq l x) == false), ¬ Has eq l y := by
    intro l l' y hy
    simpa using (List.mem_filter.1 hy).2
  cases op with
  | union =>
    unfold SetOp.remaining
    by_cases h : n₁ > n₂
    · simp only [if_pos h]
      refine ⟨distinct_append heq h₁ (distinct_filter h₂ _) (apart l₁ l₂), fun x => ?_, ?_⟩
      · rw [has_append, hf]; tauto
      · intro x hx
        rcases List.mem_append.1 hx with hx | hx
        · exact Or.inl hx
        · exact Or.inr (List.mem_filter.1 hx).1
    · simp only [if_neg h]
      refine ⟨distinct_append heq h₂ (distinct_filter h₁ _) (apart l₂ l₁), fun x => ?_, ?_⟩
      · rw [has_append, hf]; tauto
      · intro x hx
        rcases List.mem_append.1 hx with hx | hx
        · exact Or.inr hx
        · exact Or.inl (List.mem_filter.1 hx).1
  | intersection =>
    unfold SetOp.remaining
    by_cases h : n₁ < n₂
    · simp only [if_pos h]
      exact ⟨distinct_filter h₁ _, ht l₁ l₂, fun x hx => Or.inl (List.mem_filter.1 hx).1⟩
    · simp only [if_neg h]
      exact ⟨distinct_filter h₂ _, fun x => (ht l₂ l₁ x).trans and_comm, fun x hx => Or.inr (List.mem_filter.1 hx).1⟩
  | difference => exact ⟨distinct_filter h₁ _, hf l₁ l₂, fun x hx => Or.inl (List.mem_filter.1 hx).1⟩
  | symmetricDifference =>
    unfold SetOp.remaining
    refine ⟨distinct_append heq (distinct_filter h₁ _) (distinct_filter h₂ _) ?_, fun x => ?_, ?_⟩
    · intro y hy hn
      exact apart l₁ l₂ y hy ((hf l₁ l₂ y).1 hn).1
    · simp only [has_append, hf]
    · intro x hx
      rcases List.mem_append.1 hx with hx | hx
      · exact Or.inl (List.mem_filter.1 hx).1
      · exact Or.inr (List.mem_filter.1 hx).1

/-! ### What `Lossy` amounts to -/

section
variable {p : Prop} {E E' : List T} {os : List (Option (Option T))}

theorem Lossy.sublist (h : Lossy p E os E') : (seen os ++ E').Sublist E := by
  induction h with
  | nil E => exact List.Sublist.refl _
  | item _ ih => exact ih.cons_cons _
  | finished _ ih => exact ih
  | panicked _ _ ih => exact ih
  | lost _ _ ih => exact ih.cons _

theorem Lossy.length_le (h : Lossy p E os E') :
    E.length ≤ (seen os).length + panics os + E'.length := by
  induction h with
  | nil E => simp [seen, panics]
  | item _ ih => simp [seen, panics] at *; omega
  | finished _ ih => simp [seen, panics] at *
  | panicked _ _ ih => simp [seen, panics] at *; omega
  | lost _ _ ih => simp [seen, panics] at *; omega

theorem Lossy.empty (h : Lossy p [] os E') : seen os = [] ∧ E' = [] := by
  have := h.sublist
  rw [List.sublist_nil, List.append_eq_nil_iff] at this
  exact this

theorem Lossy.finished_rest (h : Lossy p E os E') (hn : some none ∈ os) : E' = [] := by
  induction h with
  | nil E => cases hn
  | item _ ih => exact ih (by simpa using hn)
  | finished h _ => exact h.empty.2
  | panicked _ _ ih => exact ih (by simpa using hn)
  | lost _ _ ih => exact ih (by simpa using hn)

theorem Lossy.split (h : Lossy p E os E') : ∀ {os₁ os₂ : List (Option (Option T))}, os = os₁ ++ os₂ →
    ∃ F, Lossy p E os₁ F ∧ Lossy p F os₂ E' := by
  induction h with
  | nil E =>
    intro os₁ os₂ e
    obtain ⟨rfl, rfl⟩ := List.append_eq_nil_iff.1 e.symm
    exact ⟨E, .nil E, .nil E⟩
  | @item x E E' os h ih =>
    intro os₁ os₂ e
    cases os₁ with
    | nil => exact ⟨_, .nil _, by rw [← show _ = os₂ from e]; exact .item h⟩
    | cons o os₁ =>
      obtain ⟨rfl, e'⟩ := List.cons.inj e
      obtain ⟨F, h1, h2⟩ := ih e'
      exact ⟨F, .item h1, h2⟩
  | @finished E' os h ih =>
    intro os₁ os₂ e
    cases os₁ with
    | nil => exact ⟨_, .nil _, by rw [← show _ = os₂ from e]; exact .finished h⟩
    | cons o os₁ =>
      obtain ⟨rfl, e'⟩ := List.cons.inj e
      obtain ⟨F, h1, h2⟩ := ih e'
      exact ⟨F, .finished h1, h2⟩
  | @panicked E E' os hp h ih =>
    intro os₁ os₂ e
    cases os₁ with
    | nil => exact ⟨_, .nil _, by rw [← show _ = os₂ from e]; exact .panicked hp h⟩
    | cons o os₁ =>
      obtain ⟨rfl, e'⟩ := List.cons.inj e
      obtain ⟨F, h1, h2⟩ := ih e'
      exact ⟨F, .panicked hp h1, h2⟩
  | @lost x E E' os hp h ih =>
    intro os₁ os₂ e
    cases os₁ with
    | nil => exact ⟨_, .nil _, by rw [← show _ = os₂ from e]; exact .lost hp h⟩
    | cons o os₁ =>
      obtain ⟨rfl, e'⟩ := List.cons.inj e
      obtain ⟨F, h1, h2⟩ := ih e'
      exact ⟨F, .lost hp h1, h2⟩

end

/-! ### The crate's sets -/

theorem scan_found {K V Q : Type} {eq : Q → Q → Bool} {borrow : K → Q} {q : Q} (es : List (K × V)) :
    ∀ i, (scan eq borrow q i es).isSome = true ↔ ∃ e ∈ es, eq q (borrow e.1) = true := by
  induction es with
  | nil => intro i; simp [scan]
  | cons e es ih =>
    intro i
    unfold scan
    by_cases h : eq q (borrow e.1) = true
    · simp [h]
    · rw [if_neg h, ih]
      simp [h]

theorem UMap.toSet_honest {p : Prop} {P : T → Prop} {u : UserCode σ T T} {code probe : T → Nat}
    {eq : T → T → Bool} (hu : u.Answers p P code probe eq id) {m : UMap T Unit} (hm : m.Placed P code) :
    (m.toSet u).Honest p eq (m.entries.map (·.1)) where
  iter := by simp [UMap.toSet, Function.comp_def]
  contains x := by
    refine ((UMap.exact (V := Unit) hu).lookup m hm x).bind fun o ho => .pure ?_
    subst ho
    rw [scan_found]
    constructor
    · rintro ⟨e, he, h⟩
      exact ⟨e.1, List.mem_map.2 ⟨e, he, rfl⟩, h⟩
    · rintro ⟨y, hy, h⟩
      obtain ⟨e, he, rfl⟩ := List.mem_map.1 hy
      exact ⟨e, he, h⟩
  len := .pure (by cases m <;> simp [UMap.len, UMap.entries])

end FC
