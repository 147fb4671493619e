import Verif.Lemmas.SetCalls
import Verif.Props.Calls

/-
C70: how many membership tests set operations make, and which.
-/

set_option autoImplicit false

namespace FC
variable {σ T : Type}

/-! ### C70 -/

/-- `union`, `intersection`, `difference` and `symmetric_difference` between any two sets, `n` calls of
`next`: exactly these tests, in this order, whatever they answer. -/
theorem C70_operations (xs ys : List T) (f g : T → Call σ Bool) (op : SetOp) (n : Nat) :
    Logs (ncalls op.next n (UBin.new (testedSet .first xs f) (testedSet .second ys g)))
      (fun r tests => OpTests xs ys n op r.1 tests) := by
  refine Logs.mono (operation_tests (R := fun t ev => ev = [t]) (xs := xs) (ys := ys) ⟨rfl, rfl⟩
    ⟨rfl, rfl⟩ ?_ ?_ op n) (fun r ev ⟨t, hd, h⟩ => hd.self ▸ h)
  · exact fun x => (Logs.noted _ (f x)).mono (fun b ev h => ⟨_, .one h, rfl⟩)
  · exact fun x => (Logs.noted _ (g x)).mono (fun b ev h => ⟨_, .one h, rfl⟩)

/-- So `union` and `intersection` never make more tests than the smaller set has elements,
`difference` not more than the first has, `symmetric_difference` not more than both have together. -/
theorem C70_operation_bound (xs ys : List T) (op : SetOp) (n : Nat) (outs : List (Option T))
    (tests : List (Test T)) (h : OpTests xs ys n op outs tests) :
    tests.length ≤ op.bound xs.length ys.length := by
  cases op with
  | union =>
    obtain ⟨found, h⟩ := h
    split at h
    · have := h.1.length_le
      simp only [SetOp.bound]; omega
    · have := h.1.length_le
      simp only [SetOp.bound]; omega
  | intersection =>
    obtain ⟨found, h, _⟩ := h
    split at h
    · have := h.length_le
      simp only [SetOp.bound]; omega
    · have := h.length_le
      simp only [SetOp.bound]; omega
  | difference =>
    obtain ⟨found, h, _⟩ := h
    exact h.length_le
  | symmetricDifference =>
    obtain ⟨f₁, f₂, e₁, e₂, rfl, h1, h2, _⟩ := h
    have := h1.length_le
    have := h2.length_le
    simp only [SetOp.bound, List.length_append]; omega

/-- The predicates between any two sets: exactly these tests, in this order, whatever they answer. -/
theorem C70_predicates (xs ys : List T) (f g : T → Call σ Bool) (pred : SetPred) :
    Logs (pred.ask (testedSet .first xs f) (testedSet .second ys g))
      (fun r tests => PredTests xs ys pred r tests) := by
  refine Logs.mono (predicate_tests (R := fun t ev => ev = [t]) (xs := xs) (ys := ys) ⟨rfl, rfl⟩
    ⟨rfl, rfl⟩ ?_ ?_ pred) (fun r ev ⟨t, hd, h⟩ => hd.self ▸ h)
  · exact fun x => (Logs.noted _ (f x)).mono (fun b ev h => ⟨_, .one h, rfl⟩)
  · exact fun x => (Logs.noted _ (g x)).mono (fun b ev h => ⟨_, .one h, rfl⟩)

/-- So `is_subset`, `is_superset` and `==` make no more tests than the smaller set has elements.
Missing from C70: the same for `is_disjoint`, where it is false; there the bound is the size of the
first set. -/
theorem C70_predicate_bound_partial (xs ys : List T) (pred : SetPred) (r : Bool)
    (tests : List (Test T)) (h : PredTests xs ys pred r tests) :
    (pred ≠ .isDisjoint → tests.length ≤ min xs.length ys.length) ∧ tests.length ≤ max xs.length ys.length ∧
      (pred = .isDisjoint → tests.length ≤ xs.length) := by
  cases pred with
  | isDisjoint =>
    have := AsksUntil.length_le h
    exact ⟨fun h => absurd rfl h, by omega, fun _ => this⟩
  | isSubset =>
    simp only [PredTests] at h
    split at h
    · have := h.length_le
      exact ⟨fun _ => by omega, by omega, by rintro ⟨⟩⟩
    · simp [h.2]
  | isSuperset =>
    simp only [PredTests] at h
    split at h
    · have := h.length_le
      exact ⟨fun _ => by omega, by omega, by rintro ⟨⟩⟩
    · simp [h.2]
  | eq =>
    simp only [PredTests] at h
    split at h
    · have := h.length_le
      exact ⟨fun _ => by omega, by omega, by rintro ⟨⟩⟩
    · simp [h.2]

/-- C70 is false: whatever number of tests you name, `is_disjoint` between some set and a set of one
element makes that many. (It compares the first length with itself, set_ops.rs:9, and so never goes
through the second set.) -/
theorem C70_counterexample (k : Nat) :
    ∃ (xs : List Nat) (y : Nat) (tests : List (Test Nat)), xs.Nodup ∧ tests.length = k ∧
      (testedSet .first xs (fun x => pure (decide (x ∈ xs)))).isDisjoint
          (testedSet .second [y] (fun x => pure (decide (x ∈ [y])))) ((), [])
        = .ok (true, ((), tests)) := by
  refine ⟨List.range k, k, (List.range k).map (⟨.second, ·, false⟩), List.nodup_range, by simp, ?_⟩
  have key : ∀ (xs : List Nat) (log : List (Test Nat)), k ∉ xs →
      Feed.all (fun v => do return !(← (testedSet (σ := Unit) .second [k]
        (fun x => pure (decide (x ∈ [k])))).contains v)) (xs.map some) ((), log)
      = .ok (true, ((), log ++ xs.map (⟨.second, ·, false⟩))) := by
    intro xs
    induction xs with
    | nil => intro log _; simp [Feed.all, Call.pure_apply]
    | cons x xs ih =>
      intro log hk
      have hx : decide (x ∈ [k]) = false := by
        simp only [List.mem_singleton, decide_eq_false_iff_not]
        rintro rfl
        exact hk (by simp)
      have := ih (log ++ [⟨.second, x, false⟩]) (fun h => hk (by simp [h]))
      simp only [List.map_cons, Feed.all, testedSet, Call.bind_apply, Call.noted, Call.pure_apply, hx,
        Res.map, Res.ok_bind] at this ⊢
      simpa using this
  have := key (List.range k) [] (by simp)
  unfold USet.isDisjoint
  simp only [Call.bind_apply, testedSet, Call.pure_apply, Res.ok_bind, le_refl, if_true] at this ⊢
  simpa using this

/-- Two `FrozenSet`s over an element type of the caller's own, whatever its `Hash` and `Eq` answer: each
test is one lookup in the set asked, and these are all the calls that an operation makes. -/
theorem C70_frozen_sets [Target] (env : Env) (u : UserCode σ T T) (payload₁ payload₂ : List T)
    (h₁ : payload₁.length < 2 ^ 32) (h₂ : payload₂.length < 2 ^ 32) (op : SetOp) (n : Nat) :
    Logs (operationSession env u.logged payload₁ payload₂ op n) (fun r ev =>
      ∃ lay₁ lay₂ built₁ built₂ calls tests, ev = built₁ ++ built₂ ++ calls ∧
        SetLaysOut payload₁ r.1 lay₁ built₁ ∧ SetLaysOut payload₂ r.2.1 lay₂ built₂ ∧
        OpTests r.1 r.2.1 n op r.2.2 tests ∧
        Details (Test.Looks r.1 r.2.1 lay₁ lay₂) tests calls) := by
  unfold operationSession
  refine (UMap.facade_lays_out env u payload₁ h₁).bind (fun a ev₁ ⟨lay₁, l₁, b₁⟩ =>
    (UMap.facade_lays_out env u payload₂ h₂).bind (fun b ev₂ ⟨lay₂, l₂, b₂⟩ => ?_))
  have ht := UMap.toSet_tests u l₁ l₂
  refine Logs.bind (operation_tests (UMap.toSet_handsOut _ a) (UMap.toSet_handsOut _ b) ht.1 ht.2 op n)
    (fun r ev ⟨t, hd, h⟩ => .pure ⟨lay₁, lay₂, ev₁, ev₂, ev, t, by simp, b₁, b₂, h, hd⟩)

/-- The same for the predicates. -/
theorem C70_frozen_set_predicates [Target] (env : Env) (u : UserCode σ T T)
    (payload₁ payload₂ : List T) (h₁ : payload₁.length < 2 ^ 32) (h₂ : payload₂.length < 2 ^ 32)
    (pred : SetPred) :
    Logs (predicateSession env u.logged payload₁ payload₂ pred) (fun r ev =>
      ∃ lay₁ lay₂ built₁ built₂ calls tests, ev = built₁ ++ built₂ ++ calls ∧
        SetLaysOut payload₁ r.1 lay₁ built₁ ∧ SetLaysOut payload₂ r.2.1 lay₂ built₂ ∧
        PredTests r.1 r.2.1 pred r.2.2 tests ∧
        Details (Test.Looks r.1 r.2.1 lay₁ lay₂) tests calls) := by
  unfold predicateSession
  refine (UMap.facade_lays_out env u payload₁ h₁).bind (fun a ev₁ ⟨lay₁, l₁, b₁⟩ =>
    (UMap.facade_lays_out env u payload₂ h₂).bind (fun b ev₂ ⟨lay₂, l₂, b₂⟩ => ?_))
  have ht := UMap.toSet_tests u l₁ l₂
  refine Logs.bind (predicate_tests (UMap.toSet_handsOut _ a) (UMap.toSet_handsOut _ b) ht.1 ht.2 pred)
    (fun r ev ⟨t, hd, h⟩ => .pure ⟨lay₁, lay₂, ev₁, ev₂, ev, t, by simp, b₁, b₂, h, hd⟩)

/-- So the two sets' elements are hashed at most as often as C70 says of tests, once each. -/
theorem C70_hash_calls [Target] (xs ys : List T) (lay₁ lay₂ : Option Layout) (tests : List (Test T))
    (calls : List (CallEvent T T)) (h : Details (Test.Looks xs ys lay₁ lay₂) tests calls) :
    (calls.filter CallEvent.isHash).length ≤ tests.length := by
  obtain ⟨evs, h, rfl⟩ := h
  induction h with
  | nil => simp
  | @cons t e ts es h _ ih =>
    have h1 : ∀ {d : List (T × Unit)} {lay : Option Layout} {o : Option (T × Unit)},
        Looks d t.item lay o e → (e.filter CallEvent.isHash).length ≤ 1 := by
      have h0 : ∀ {q : T} {d : List (T × Unit)} {o : Option (T × Unit)} {ev : List (CallEvent T T)},
          Compares q d o ev → ev.filter CallEvent.isHash = [] := by
        intro q d o ev h
        induction h with
        | none => rfl
        | hit e es => rfl
        | miss e es o ev _ ih => exact ih
      intro d lay o hl
      cases hl with
      | scan _ _ hc => exact (h0 hc) ▸ Nat.zero_le 1
      | table lay code _ ev hc =>
        rw [List.filter_cons_of_pos rfl, h0 hc]
        exact Nat.le_refl 1
    have h2 : (e.filter CallEvent.isHash).length ≤ 1 := by
      obtain ⟨o, _, h⟩ := h
      split at h
      · exact h1 h
      · exact h1 h
    simp only [List.flatten_cons, List.filter_append, List.length_append, List.length_cons]
    omega

/-- Keeping the log of tests changes nothing else: the answers, the states of the operands' code and
the panics are those of the operands without it. -/
theorem C70_log_changes_nothing (xs ys : List T) (f g : T → Call σ Bool) (op : SetOp) (n : Nat)
    (pred : SetPred) (s : σ) (log : List (Test T)) :
    (((ncalls op.next n (UBin.new (testedSet .first xs f) (testedSet .second ys g)) (s, log)).map
        (fun r => (r.1.1, r.2.1)))
      = (ncalls op.next n (UBin.new ⟨xs.map some, f, pure xs.length⟩ ⟨ys.map some, g, pure ys.length⟩)
          s).map (fun r => (r.1.1, r.2))) ∧
    ((pred.ask (testedSet .first xs f) (testedSet .second ys g) (s, log)).map
        (fun r => (r.1, r.2.1))
      = pred.ask (⟨xs.map some, f, pure xs.length⟩ : USet σ T) ⟨ys.map some, g, pure ys.length⟩ s) := by
  have ht : ∀ (who : Operand) (l : List T) (h : T → Call σ Bool),
      (testedSet who l h).Mirrors ⟨l.map some, h, pure l.length⟩ :=
    fun who l h => ⟨rfl, fun x => .noted _ _, .pure⟩
  refine ⟨?_, SetPred.ask_forgets pred (ht _ _ _) (ht _ _ _) s log⟩
  have h : Forgets (do return (← ncalls op.next n (UBin.new (testedSet .first xs f)
      (testedSet .second ys g))).1) (do return (← ncalls op.next n (UBin.new
        ⟨xs.map some, f, pure xs.length⟩ ⟨ys.map some, g, pure ys.length⟩)).1) :=
    ((ncalls_mirrors op n ⟨ht _ _ _, ht _ _ _, rfl, rfl⟩).bind
      (fun _ _ h => .pure h)).forgets
  have := h s log
  revert this
  simp only [Call.bind_apply]
  cases ncalls op.next n (UBin.new (testedSet .first xs f) (testedSet .second ys g)) (s, log) <;>
    cases ncalls op.next n (UBin.new (⟨xs.map some, f, pure xs.length⟩ : USet σ T)
      ⟨ys.map some, g, pure ys.length⟩) s <;> exact id

/-- The same for the log of calls of `Hash` and `Eq` kept by two `FrozenSet`s. -/
theorem C70_log_changes_nothing_frozen_sets [Target] (env : Env) (u : UserCode σ T T)
    (payload₁ payload₂ : List T) (op : SetOp) (n : Nat) (pred : SetPred) (s : σ)
    (log : List (CallEvent T T)) :
    (operationSession env u.logged payload₁ payload₂ op n (s, log)).map (fun r => (r.1, r.2.1))
      = operationSession env u payload₁ payload₂ op n s ∧
    (predicateSession env u.logged payload₁ payload₂ pred (s, log)).map (fun r => (r.1, r.2.1))
      = predicateSession env u payload₁ payload₂ pred s := by
  have hu := u.logged_forgets
  constructor
  · refine Forgets.bind (UMap.facade_forgets env hu _) (fun a =>
      Forgets.bind (UMap.facade_forgets env hu _) (fun b => Mirrors.forgets
        ((ncalls_mirrors op n ⟨UMap.toSet_mirrors hu a, UMap.toSet_mirrors hu b, rfl, rfl⟩).bind
          (fun _ _ h => .pure (by rw [h]))))) s log
  · exact Forgets.bind (UMap.facade_forgets env hu _) (fun a =>
      Forgets.bind (UMap.facade_forgets env hu _) (fun b =>
        (SetPred.ask_forgets pred (UMap.toSet_mirrors hu a) (UMap.toSet_mirrors hu b)).bind
          (fun _ => .pure))) s log

/-! ### Non-vacuity -/

/-- The bounds are met: two sets of three and two elements, drained. -/
example :
    (ncalls UBin.unionNext 6 (UBin.new (testedSet (σ := Unit) .first [1, 2, 3] (fun x => pure (decide (x ∈ [1, 2, 3]))))
        (testedSet .second [3, 4] (fun x => pure (decide (x ∈ [3, 4]))))) ((), [])).map
          (fun r => (r.1.1, r.2.2))
      = .ok ([some 1, some 2, some 3, some 4, none, none],
          [⟨.first, 3, true⟩, ⟨.first, 4, false⟩]) ∧
    (ncalls UBin.intersectionNext 1 (UBin.new (testedSet (σ := Unit) .first [1, 2, 3] (fun x => pure (decide (x ∈ [1, 2, 3]))))
        (testedSet .second [3, 4] (fun x => pure (decide (x ∈ [3, 4]))))) ((), [])).map
          (fun r => (r.1.1, r.2.2))
      = .ok ([some 3], [⟨.first, 3, true⟩]) ∧
    (ncalls UBin.symDiffNext 4 (UBin.new (testedSet (σ := Unit) .first [1, 2, 3] (fun x => pure (decide (x ∈ [1, 2, 3]))))
        (testedSet .second [3, 4] (fun x => pure (decide (x ∈ [3, 4]))))) ((), [])).map
          (fun r => (r.1.1, r.2.2))
      = .ok ([some 1, some 2, some 4, none],
          [⟨.second, 1, false⟩, ⟨.second, 2, false⟩, ⟨.second, 3, true⟩, ⟨.first, 3, true⟩,
            ⟨.first, 4, false⟩]) := by
  decide +kernel

/-- Two frozen sets of moody elements: building the first takes ten hashes and the second none. The
intersection then asks the first about the two elements of the second; `is_disjoint` asks the second
about the five elements of the first, until the yes for 5. -/
example :
    (operationSession checkedEnv moodyHash.logged [1, 2, 3, 4, 5] [5, 6] .intersection 3
      (3, [])).map (fun r => (r.1.2.2, r.2.2.drop 10))
    = .ok ([none, none, none],
        [.hashed 5 18, .compared 5 2 false, .hashed 6 21, .compared 6 4 false]) ∧
    (predicateSession checkedEnv moodyHash.logged [1, 2, 3, 4, 5] [5, 6] .isDisjoint
      (3, [])).map (fun r => (r.1.2.2, r.2.2.drop 10))
    = .ok (false, [.compared 3 5 false, .compared 3 6 false, .compared 4 5 false,
        .compared 4 6 false, .compared 5 5 true]) := by
  decide +kernel

/-! The bounds, at `{1, 2, 3} & {3, 4}`, at `{1, 5} <= {2, 5}`, and at one membership test. -/

example := C70_operation_bound [1, 2, 3] [3, 4] .intersection 1 [some 3] [⟨.first, 3, true⟩]
  ⟨[3], by
    rw [if_neg (by decide)]
    exact ⟨by decide, by decide, by decide, Or.inl ⟨rfl, by decide⟩⟩, rfl⟩
example := C70_predicate_bound_partial [1, 5] [2, 5] .isSubset false [⟨.second, 1, false⟩] (by
    simp only [PredTests]
    rw [if_pos (by decide)]
    exact ⟨by decide, by decide, by decide, by decide, fun _ => ⟨_, rfl, by decide⟩⟩)
example := C70_frozen_sets checkedEnv moodyCode [1, 2, 3, 4, 5] [5, 6] (by decide) (by decide) .union 9
example := C70_frozen_set_predicates checkedEnv moodyCode [1, 2, 3, 4, 5] [5, 6] (by decide) (by decide) .eq
example := C70_hash_calls [1, 2] [2, 5] none none [⟨.second, 2, true⟩] [.compared 2 2 true]
  ⟨[[.compared 2 2 true]], .cons ⟨some (2, ()), rfl, .scan _ _ (.hit _ _)⟩ .nil, rfl⟩

end FC
