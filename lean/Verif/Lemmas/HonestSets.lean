import Verif.Lemmas.CatchSetOps
import Verif.Lemmas.Equality
import Verif.Props.SetOps
import Verif.Spec.HonestSets

/-
Lemmas about sets and comparisons whose code is right whenever it answers.
-/

set_option autoImplicit false

namespace FC
variable {σ T K V α : Type} {p : Prop}

theorem Call.caught_behaves {c : Call σ α} {post : α → Prop} (h : Behaves False p c post) (left : σ) :
    Behaves False False (Call.caught c left) (RightIfAny p post) := by
  intro s
  have := h s
  unfold Call.caught
  cases e : c s <;> (rw [e] at this; exact this)

/-! ### Predicates -/

theorem Feed.all_honest {c : T → Call σ Bool} {f : T → Bool} (hc : ∀ x, Behaves False p (c x) (fun b => b = f x))
    (l : List T) : Behaves False p (Feed.all c (l.map some)) (fun b => b = l.all f) := by
  induction l with
  | nil => exact .pure rfl
  | cons x l ih =>
    simp only [List.map_cons]
    unfold Feed.all
    refine (hc x).bind fun b hb => ?_
    subst hb
    cases hx : f x with
    | true =>
      refine ih.mono id id fun b hb => ?_
      rw [hb, List.all_cons, hx, Bool.true_and]
    | false => exact .pure (by rw [List.all_cons, hx, Bool.false_and])

open Classical in
/-- The set with the same items that is a function. -/
noncomputable def plainSet (eq : T → T → Bool) (l : List T) : SetI T :=
  ⟨l, fun x => .ok (decide (Has eq l x)), l.length⟩

theorem plainSet_consistent {eq : T → T → Bool} {l : List T} (h : Distinct eq l) :
    Consistent eq (plainSet eq l) :=
  ⟨fun x => ⟨_, rfl, by simp [plainSet]⟩, rfl, h⟩

section
variable {eq : T → T → Bool} {a b : USet σ T} {l₁ l₂ : List T}

open Classical in
theorem USet.Honest.decides (ha : a.Honest p eq l₁) (x : T) :
    Behaves False p (a.contains x) (fun r => r = decide (Has eq l₁ x)) :=
  (ha.contains x).mono id id fun r h => by
    by_cases hx : Has eq l₁ x
    · rw [h.2 hx, decide_eq_true hx]
    · rw [decide_eq_false hx]
      cases r
      · rfl
      · exact absurd (h.1 rfl) hx

open Classical in
theorem USet.isSubset_honest (ha : a.Honest p eq l₁) (hb : b.Honest p eq l₂) :
    Behaves False p (a.isSubset b)
      (fun r => (plainSet eq l₁).isSubset (plainSet eq l₂) = .ok r) := by
  unfold USet.isSubset SetI.isSubset
  refine ha.len.bind fun n hn => hb.len.bind fun n' hn' => ?_
  subst hn hn'
  refine .ite (fun h => ?_) (fun h => ?_)
  · rw [ha.iter]
    refine (Feed.all_honest hb.decides l₁).mono id id fun r hr => ?_
    rw [hr, if_pos (show (plainSet eq l₁).len ≤ (plainSet eq l₂).len from h)]
    exact Res.allList_ok fun v _ => rfl
  · refine .pure ?_
    rw [if_neg (show ¬ (plainSet eq l₁).len ≤ (plainSet eq l₂).len from h)]

open Classical in
theorem USet.eq_honest (ha : a.Honest p eq l₁) (hb : b.Honest p eq l₂) :
    Behaves False p (a.eq b) (fun r => (plainSet eq l₁).eq (plainSet eq l₂) = .ok r) := by
  unfold USet.eq SetI.eq
  refine ha.len.bind fun n hn => hb.len.bind fun n' hn' => ?_
  subst hn hn'
  refine .ite (fun h => ?_) (fun h => ?_)
  · refine .pure ?_
    rw [if_pos (show (plainSet eq l₁).len ≠ (plainSet eq l₂).len from h)]
  · rw [ha.iter]
    refine (Feed.all_honest hb.decides l₁).mono id id fun r hr => ?_
    rw [hr, if_neg (show ¬ (plainSet eq l₁).len ≠ (plainSet eq l₂).len from h)]
    exact Res.allList_ok fun v _ => rfl

open Classical in
theorem USet.isDisjoint_honest (ha : a.Honest p eq l₁) (hb : b.Honest p eq l₂) :
    Behaves False p (a.isDisjoint b)
      (fun r => (plainSet eq l₁).isDisjoint (plainSet eq l₂) = .ok r) := by
  unfold USet.isDisjoint SetI.isDisjoint
  refine ha.len.bind fun n hn => ha.len.bind fun n' hn' => ?_
  subst hn hn'
  refine .ite (fun h => ?_) (fun h => absurd le_rfl h)
  rw [ha.iter, if_pos le_rfl]
  refine (Feed.all_honest (f := fun v => !decide (Has eq l₂ v)) (fun x => (hb.decides x).bind fun r hr =>
    .pure (by rw [hr])) l₁).mono id id fun r hr => ?_
  rw [hr]
  exact Res.allList_ok fun v _ => rfl

end

/-! ### Questions to two sets -/

section
variable {P : T → Prop} {u : UserCode σ T T} {code probe : T → Nat} {eq : T → T → Bool} {a b : UMap T Unit}

theorem UMap.ask_honest (hu : u.Answers p P code probe eq id) (ha : a.Placed P code) (x : SetAsk T) :
    Behaves False p (a.ask u x) (x.Right eq (a.entries.map (·.1))) := by
  have hl := (UMap.exact (V := Unit) hu).lookup a ha
  have hget : ∀ q, Behaves False p (a.setGet u q) (fun o =>
      (∀ y, o = some y → y ∈ a.entries.map (·.1) ∧ eq q y = true) ∧
      (o.isSome = true ↔ Has eq (a.entries.map (·.1)) q)) := by
    intro q
    unfold UMap.setGet
    refine (hl q).bind fun o ho => ?_
    have hs := scan_found (eq := eq) (borrow := id) (q := q) a.entries 0
    have hhas : (∃ e ∈ a.entries, eq q (id e.1) = true) ↔ Has eq (a.entries.map (·.1)) q := by
      constructor
      · rintro ⟨e, he, h⟩
        exact ⟨e.1, List.mem_map.2 ⟨e, he, rfl⟩, h⟩
      · rintro ⟨y, hy, h⟩
        obtain ⟨e, he, rfl⟩ := List.mem_map.1 hy
        exact ⟨e, he, h⟩
    have ho' : o = FC.scan eq id q 0 a.entries := ho
    rw [← ho', hhas] at hs
    cases o with
    | none => exact .pure ⟨(by rintro y ⟨⟩), hs⟩
    | some r =>
      refine .pure ⟨?_, hs⟩
      rintro y hy
      obtain rfl := Option.some.inj hy
      obtain ⟨-, h1, h2, -⟩ := scan_some ho'.symm
      exact ⟨List.mem_map.2 ⟨_, List.mem_of_getElem? h1, rfl⟩, h2⟩
  cases x with
  | get q =>
    refine (hget q).bind fun o ho => .pure ⟨o, rfl, ho.1, ?_⟩
    rintro rfl h
    cases ho.2.2 h
  | contains q =>
    refine Behaves.bind (post := fun b => b = true ↔ Has eq (a.entries.map (·.1)) q) ?_
      (fun b hb => .pure ⟨b, rfl, hb⟩)
    exact (hget q).bind fun o ho => .pure ho.2
  | len => exact .pure (by show SetAns.number a.len = _; simp [UMap.len])
  | isEmpty => exact .pure ⟨_, rfl, by simp [UMap.len]⟩
  | iter => exact .pure rfl

theorem PairAsk.ask_honest {P₁ P₂ : T → Prop} {u₁ u₂ : UserCode σ T T} {code₁ code₂ probe₁ probe₂ : T → Nat}
    (h₁ : u₁.Answers p P₁ code₁ probe₁ eq id) (h₂ : u₂.Answers p P₂ code₂ probe₂ eq id)
    (ha : a.Placed P₁ code₁) (hb : b.Placed P₂ code₂) (da : Distinct eq (a.entries.map (·.1)))
    (db : Distinct eq (b.entries.map (·.1))) (x : PairAsk T) :
    Behaves False p (x.ask u₁ u₂ a b) (x.Right eq (a.entries.map (·.1)) (b.entries.map (·.1))) := by
  have sa := UMap.toSet_honest h₁ ha
  have sb := UMap.toSet_honest h₂ hb
  have ca := plainSet_consistent da
  have cb := plainSet_consistent db
  cases x with
  | first x => exact UMap.ask_honest h₁ ha x
  | second x => exact UMap.ask_honest h₂ hb x
  | isSubset =>
    refine (USet.isSubset_honest sa sb).bind fun r hr => .pure ⟨r, rfl, ?_⟩
    obtain ⟨r', h1, h2⟩ := C35_is_subset eq h₁.lawful _ _ ca cb
    obtain rfl := Res.ok.inj (hr.symm.trans h1)
    exact h2
  | isSuperset =>
    refine (USet.isSubset_honest sb sa).bind fun r hr => .pure ⟨r, rfl, ?_⟩
    obtain ⟨r', h1, h2⟩ := C35_is_subset eq h₁.lawful _ _ cb ca
    obtain rfl := Res.ok.inj (hr.symm.trans h1)
    exact h2
  | isDisjoint =>
    refine (USet.isDisjoint_honest sa sb).bind fun r hr => .pure ⟨r, rfl, ?_⟩
    obtain ⟨r', h1, h2⟩ := C35_is_disjoint eq _ _ cb h₁.lawful
    obtain rfl := Res.ok.inj (hr.symm.trans h1)
    exact h2
  | eq =>
    refine (USet.eq_honest sa sb).bind fun r hr => .pure ⟨r, rfl, ?_⟩
    obtain ⟨r', h1, h2⟩ := C37_eq_iff eq h₁.lawful _ _ ca cb
    obtain rfl := Res.ok.inj (hr.symm.trans h1)
    exact h2

theorem PairAsk.asks_honest {P₁ P₂ : T → Prop} {u₁ u₂ : UserCode σ T T} {code₁ code₂ probe₁ probe₂ : T → Nat}
    (h₁ : u₁.Answers p P₁ code₁ probe₁ eq id) (h₂ : u₂.Answers p P₂ code₂ probe₂ eq id)
    (ha : a.Placed P₁ code₁) (hb : b.Placed P₂ code₂) (da : Distinct eq (a.entries.map (·.1)))
    (db : Distinct eq (b.entries.map (·.1))) (xs : List (PairAsk T × σ)) :
    Behaves False False (PairAsk.asks u₁ u₂ a b xs) (fun os => List.Forall₂
      (fun x o => RightIfAny p (x.Right eq (a.entries.map (·.1)) (b.entries.map (·.1))) o)
      (xs.map (·.1)) os) := by
  induction xs with
  | nil => exact .pure .nil
  | cons x xs ih =>
    unfold PairAsk.asks
    refine (Call.caught_behaves (PairAsk.ask_honest h₁ h₂ ha hb da db x.1) x.2).bind fun o ho => ?_
    exact ih.bind fun os hos => .pure (.cons ho hos)

end

/-! ### Comparing maps -/

section
variable {M Q : Type} {A : CallApi σ M K V Q} {OK : M → Prop} {eq : Q → Q → Bool} {borrow : K → Q}

/-- The map after a history, too. -/
theorem CallApi.Exact.caughtRun_ok (h : A.Exact OK p eq borrow) (xs : List (Attempt V Q × σ)) :
    ∀ m : M, OK m → DistinctKeys (fun a b => eq (borrow a) (borrow b)) (A.entries m) →
      Behaves False False (A.caughtRun m xs)
        (fun r => (OK r.2 ∧ (A.entries r.2).map (·.1) = (A.entries m).map (·.1)) ∧
          Dict.CaughtRun eq borrow p (A.entries m) (xs.map (·.1)) r.1 (A.entries r.2)) := by
  induction xs with
  | nil => exact fun m hm _ => .pure ⟨⟨hm, rfl⟩, .nil _⟩
  | cons x xs ih =>
    intro m hm hd
    unfold CallApi.caughtRun
    have h1 : Behaves False False (A.caught m x.1 x.2)
        (fun r => (OK r.2 ∧ (A.entries r.2).map (·.1) = (A.entries m).map (·.1)) ∧
          Dict.Caught eq borrow p (A.entries m) x.1 r.1 (A.entries r.2)) := by
      intro s
      have := h.attempt hm hd x.1 s
      unfold CallApi.caught
      cases e : A.attempt x.1 m s with
      | done out m' s' => rw [e] at this; exact this
      | panicked m' => rw [e] at this; exact this
      | ub => rw [e] at this; exact this
    refine h1.bind fun r hr => ?_
    refine (ih r.2 hr.1.1 (hd.of_keys hr.1.2)).bind (fun rs hrs => .pure ⟨⟨hrs.1.1, ?_⟩, .cons hr.2 hrs.2⟩)
    exact hrs.1.2.trans hr.1.2

end

theorem Call.allList_honest {c : α → Call σ Bool} {f : α → Bool}
    (hc : ∀ x, Behaves False p (c x) (fun b => b = f x)) (l : List α) :
    Behaves False p (Call.allList c l) (fun b => b = l.all f) := by
  induction l with
  | nil => exact .pure rfl
  | cons x l ih =>
    unfold Call.allList
    refine (hc x).bind fun b hb => ?_
    subst hb
    cases hx : f x with
    | true =>
      refine ih.mono id id fun b hb => ?_
      rw [hb, List.all_cons, hx, Bool.true_and]
    | false => exact .pure (by rw [List.all_cons, hx, Bool.false_and])

theorem UMap.partialEq_honest {P : K → Prop} {u : UserCode σ K K} {code probe : K → Nat} {eq : K → K → Bool}
    (hu : u.Answers p P code probe eq id) {veq : V → V → Call σ Bool} {ve : V → V → Bool}
    (hv : ∀ v w, Behaves False p (veq v w) (fun b => b = ve v w)) {a b : UMap K V} (hb : b.Placed P code)
    (da : DistinctKeys eq a.entries) (db : DistinctKeys eq b.entries) :
    Behaves False p (a.partialEq u veq b) (fun r =>
      r = true ↔ ∀ k, SameAnswer ve (FC.lookup eq a.entries k) (FC.lookup eq b.entries k)) := by
  obtain ⟨r, h1, h2⟩ := mapEq_spec hu.lawful ve da db
    (get := fun k => .ok ((FC.scan eq id k 0 b.entries).map (·.2))) (fun k => ⟨_, rfl, scan_value _ _⟩)
  have key : Behaves False p (a.partialEq u veq b) (fun r' => r' = r) := by
    unfold UMap.partialEq
    unfold mapEq at h1
    refine .ite (fun h => .pure ?_) (fun h => ?_)
    · have h : a.entries.length ≠ b.entries.length := h
      rw [if_pos h] at h1
      exact Res.ok.inj h1
    · have h : ¬ a.entries.length ≠ b.entries.length := h
      rw [if_neg h] at h1
      refine (Call.allList_honest (f := fun e => match (FC.scan eq id e.1 0 b.entries) with
        | none => false | some x => ve e.2 x.2.val) (fun e => ?_) a.entries).mono id id fun r' hr' => ?_
      · refine ((UMap.exact (V := V) hu).lookup b hb e.1).bind fun o ho => ?_
        have ho : o = FC.scan eq id e.1 0 b.entries := ho
        rw [← ho]
        cases o with
        | none => exact .pure rfl
        | some x => exact hv _ _
      · rw [hr']
        refine Res.ok.inj (Eq.trans ?_ h1)
        refine (Res.allList_ok fun e _ => ?_).symm
        simp only [Res.map_ok]
        cases FC.scan eq id e.1 0 b.entries with
        | none => rfl
        | some x => rfl
  exact key.mono id id fun r' hr' => by rw [hr']; exact h2

end FC
