import Verif.Spec.Cells
import Verif.Lemmas.Threads
import Verif.Lemmas.History

/-
Lemmas about threads that share a map of cells.
-/

set_option autoImplicit false

namespace FC
variable {K Q X R : Type}

/-! ### The cells and the plain list of pairs -/

/-- The pairs `d` have the keys of `es` in their order, and the contents of their cells. -/
structure CellsHold (es : List (K × Nat)) (mem : List X) (d : List (K × X)) : Prop where
  len : d.length = es.length
  at_ : ∀ (i : Nat) (e : K × Nat), es[i]? = some e → ∃ x, d[i]? = some (e.1, x) ∧ mem[e.2]? = some x

/-- A probe matches at most one of the entries. -/
def MatchOne {V : Type} (eq : Q → Q → Bool) (borrow : K → Q) (es : List (K × V)) : Prop :=
  ∀ (i j : Nat) (q : Q) (e e' : K × V), es[i]? = some e → es[j]? = some e' →
    eq q (borrow e.1) = true → eq q (borrow e'.1) = true → i = j

theorem CellsHold.entry {es : List (K × Nat)} {mem : List X} {d : List (K × X)} (h : CellsHold es mem d)
    {i : Nat} {p : K × X} (hp : d[i]? = some p) : ∃ e, es[i]? = some e ∧ e.1 = p.1 := by
  have hi : i < es.length := by
    have := (List.getElem?_eq_some_iff.1 hp).1
    rw [h.len] at this
    exact this
  obtain ⟨x, hx, _⟩ := h.at_ i es[i] (List.getElem?_eq_getElem hi)
  rw [hp] at hx
  cases hx
  exact ⟨es[i], List.getElem?_eq_getElem hi, rfl⟩

theorem CellsHold.one {es : List (K × Nat)} {mem : List X} {d : List (K × X)} (h : CellsHold es mem d)
    {eq : Q → Q → Bool} {borrow : K → Q} (hone : MatchOne eq borrow es) : MatchOne eq borrow d := by
  intro i j q p p' hp hp' h1 h2
  obtain ⟨e, he, h3⟩ := h.entry hp
  obtain ⟨e', he', h4⟩ := h.entry hp'
  exact hone i j q e e' he he' (by rw [h3]; exact h1) (by rw [h4]; exact h2)

theorem CellsHold.set {es : List (K × Nat)} {mem : List X} {d : List (K × X)} (h : CellsHold es mem d)
    (hn : (es.map (·.2)).Nodup) {j : Nat} {e : K × Nat} (he : es[j]? = some e) (x : X) :
    CellsHold es (mem.set e.2 x) (d.set j (e.1, x)) := by
  refine ⟨by simp [h.len], fun i e' he' => ?_⟩
  obtain ⟨y, hy, hm⟩ := h.at_ i e' he'
  by_cases hij : i = j
  · subst hij
    rw [he] at he'
    cases he'
    refine ⟨x, ?_, ?_⟩
    · rw [List.getElem?_set_self (List.getElem?_eq_some_iff.1 hy).1]
    · rw [List.getElem?_set_self (List.getElem?_eq_some_iff.1 hm).1]
  · refine ⟨y, by rw [List.getElem?_set_ne (Ne.symm hij)]; exact hy, ?_⟩
    have hne : e.2 ≠ e'.2 := by
      intro hc
      apply hij
      have h1 : (es.map (·.2))[i]? = some e'.2 := by simp [he']
      have h2 : (es.map (·.2))[j]? = some e'.2 := by simp [he, hc]
      obtain ⟨hi, h1⟩ := List.getElem?_eq_some_iff.1 h1
      obtain ⟨hj, h2⟩ := List.getElem?_eq_some_iff.1 h2
      exact (List.Nodup.getElem_inj_iff hn).1 (h1.trans h2.symm)
    rw [List.getElem?_set_ne hne]
    exact hm

theorem find_at {V : Type} {eq : Q → Q → Bool} {borrow : K → Q} {es : List (K × V)}
    (hone : MatchOne eq borrow es) {j : Nat} {e : K × V} {q : Q} (he : es[j]? = some e)
    (hq : eq q (borrow e.1) = true) : Dict.find eq borrow es q = some e := by
  unfold Dict.find
  cases hf : es.find? (fun e => eq q (borrow e.1)) with
  | none => exact absurd hq (List.find?_eq_none.1 hf e (List.mem_of_getElem? he))
  | some a =>
    obtain ⟨i, hi⟩ := List.mem_iff_getElem?.1 (List.mem_of_find?_eq_some hf)
    have := hone i j q a e hi he (by simpa using List.find?_some hf) hq
    subst this
    rw [hi] at he
    exact he

theorem assign_at {V : Type} {eq : Q → Q → Bool} {borrow : K → Q} {es : List (K × V)}
    (hone : MatchOne eq borrow es) {j : Nat} {e : K × V} {q : Q} (he : es[j]? = some e)
    (hq : eq q (borrow e.1) = true) (v : V) : Dict.assign eq borrow es q v = es.set j (e.1, v) := by
  unfold Dict.assign
  apply List.ext_getElem?
  intro i
  rw [List.getElem?_map]
  by_cases hij : i = j
  · subst hij
    rw [List.getElem?_set_self (List.getElem?_eq_some_iff.1 he).1, he]
    simp [hq]
  · rw [List.getElem?_set_ne (Ne.symm hij)]
    cases hi : es[i]? with
    | none => rfl
    | some a =>
      have : ¬ eq q (borrow a.1) = true := fun h => hij (hone i j q a e hi he h hq)
      simp [this]

theorem CellsHold.absent {es : List (K × Nat)} {mem : List X} {d : List (K × X)} (h : CellsHold es mem d)
    {eq : Q → Q → Bool} {borrow : K → Q} {q : Q} (hq : Dict.find eq borrow es q = none) :
    Dict.find eq borrow d q = none := by
  unfold Dict.find at hq ⊢
  rw [List.find?_eq_none] at hq ⊢
  intro p hp
  obtain ⟨i, hi⟩ := List.mem_iff_getElem?.1 hp
  obtain ⟨e, he, h1⟩ := h.entry hi
  rw [← h1]
  exact hq e (List.mem_of_getElem? he)

theorem CellsHold.present {es : List (K × Nat)} {mem : List X} {d : List (K × X)}
    (h : CellsHold es mem d) {eq : Q → Q → Bool} {borrow : K → Q} (hone : MatchOne eq borrow es)
    {q : Q} {e : K × Nat} (hq : Dict.find eq borrow es q = some e) :
    ∃ j x, es[j]? = some e ∧ mem[e.2]? = some x ∧ Dict.find eq borrow d q = some (e.1, x) ∧
      ∀ y, Dict.assign eq borrow d q y = d.set j (e.1, y) := by
  unfold Dict.find at hq
  obtain ⟨j, hj⟩ := List.mem_iff_getElem?.1 (List.mem_of_find?_eq_some hq)
  have he : eq q (borrow e.1) = true := by simpa using List.find?_some hq
  obtain ⟨x, hx, hm⟩ := h.at_ j e hj
  exact ⟨j, x, hj, hm, find_at (h.one hone) hx he, fun y => assign_at (h.one hone) hx he y⟩

/-! ### One thread -/

/-- A thread with the map of cells, after `k` turns, and the same thread with the plain list. -/
structure Worker.Like {E : Engine K Nat Q} (eq : Q → Q → Bool) (borrow : K → Q) (w : Worker E X R)
    (u : PlainWorker Q X R) (k : Nat) : Prop where
  plan : u.plan = w.plan
  outs : u.outs = w.outs
  panicked : u.panicked = w.panicked
  rest : w.panicked = false → match w.doing with
    | .nothing => u.going = none ∧
        (w.plan w.outs = none ∨ k ≤ w.outs.length * (2 * E.entries.length + 3))
    | .looking index f s => u.going = none ∧ ∃ q n, w.plan w.outs = some (.use index q f) ∧
        E.Ends (Dict.find eq borrow E.entries q) s n ∧
        k + n + 1 ≤ (w.outs.length + 1) * (2 * E.entries.length + 3)
    | .holding f c => u.going = none ∧ ∃ index q e, w.plan w.outs = some (.use index q f) ∧
        Dict.find eq borrow E.entries q = some e ∧ e.2 = c ∧
        k + 1 ≤ (w.outs.length + 1) * (2 * E.entries.length + 3)
    | .visiting f none it rs => ∃ i, u.going = some (f, i, rs) ∧ it.At (E.entries.drop i) ∧
        k + 2 * (E.entries.length - i) + 1 ≤ (w.outs.length + 1) * (2 * E.entries.length + 3)
    | .visiting f (some c) it rs => ∃ i e, u.going = some (f, i, rs) ∧ E.entries[i]? = some e ∧
        e.2 = c ∧ it.At (E.entries.drop (i + 1)) ∧
        k + 2 * (E.entries.length - i) ≤ (w.outs.length + 1) * (2 * E.entries.length + 3)

theorem Worker.Like.step {E : Engine K Nat Q} {eq : Q → Q → Bool} {borrow : K → Q}
    (hf : ∀ q, E.Finds q (Dict.find eq borrow E.entries q)) (hone : MatchOne eq borrow E.entries)
    (hn : (E.entries.map (·.2)).Nodup) {w : Worker E X R} {u : PlainWorker Q X R} {k : Nat}
    (h : w.Like eq borrow u k) {mem : List X} {d : List (K × X)} (hc : CellsHold E.entries mem d) :
    ∃ w' mem', w.step mem = .ok (w', mem') ∧ mem'.length = mem.length ∧ w'.plan = w.plan ∧
      ((w'.Like eq borrow u (k + 1) ∧ CellsHold E.entries mem' d) ∨
       (w'.Like eq borrow (u.step eq borrow d).1 (k + 1) ∧
        CellsHold E.entries mem' (u.step eq borrow d).2)) := by
  obtain ⟨plan, doing, outs, panicked⟩ := w
  obtain ⟨uplan, going, uouts, upanicked⟩ := u
  obtain ⟨h1, h2, h3, rest⟩ := h
  simp only at h1 h2 h3 rest
  subst h1 h2 h3
  have dead : ∀ {P : Prop}, true = false → P := fun h => by cases h
  have bound : ∀ j n : Nat, j ≤ n * (2 * E.entries.length + 3) →
      j + (2 * E.entries.length + 3) ≤ (n + 1) * (2 * E.entries.length + 3) := by
    intro j n hj
    rw [Nat.succ_mul n]
    exact Nat.add_le_add_right hj _
  cases upanicked with
  | true =>
    exact ⟨_, mem, by simp [Worker.step], rfl, rfl, Or.inl ⟨⟨rfl, rfl, rfl, fun h => dead h⟩, hc⟩⟩
  | false =>
    have rest := rest rfl
    cases doing with
    | nothing =>
      obtain ⟨hg, hk⟩ := rest
      subst hg
      cases hp : uplan uouts with
      | none =>
        exact ⟨_, mem, by simp [Worker.step, hp], rfl, rfl, Or.inl ⟨⟨rfl, rfl, rfl, fun _ => ⟨rfl, Or.inl hp⟩⟩, hc⟩⟩
      | some op =>
        have hk : k ≤ uouts.length * (2 * E.entries.length + 3) := by
          rcases hk with hk | hk
          · rw [hp] at hk; cases hk
          · exact hk
        have hb := bound _ _ hk
        cases op with
        | use index q f =>
          obtain ⟨s, n, hs, he, hnl⟩ := hf q
          refine ⟨⟨uplan, .looking index f s, uouts, false⟩, mem, by simp [Worker.step, hp, hs], rfl, rfl, Or.inl ⟨⟨rfl, rfl, rfl, fun _ => ⟨rfl, q, n, hp, he, ?_⟩⟩, hc⟩⟩
          show k + 1 + n + 1 ≤ (uouts.length + 1) * _
          omega
        | each f =>
          refine ⟨⟨uplan, .visiting f none (MapIter.new E.entries) [], uouts, false⟩, mem, by simp [Worker.step, hp], rfl, rfl, Or.inr ⟨⟨?_, ?_, ?_, fun _ => ⟨0, ?_, ⟨Nat.zero_le _, rfl⟩, ?_⟩⟩, ?_⟩⟩
          all_goals simp only [PlainWorker.step, hp, Bool.false_eq_true, if_false]
          · omega
          · exact hc
    | looking index f s =>
      obtain ⟨hg, q, n, hp, he, hk⟩ := rest
      subst hg
      cases he with
      | @later _ s' n hs he =>
        refine ⟨⟨uplan, .looking index f s', uouts, false⟩, mem, by simp [Worker.step, hs], rfl, rfl, Or.inl ⟨⟨rfl, rfl, rfl, fun _ => ⟨rfl, q, _, hp, he, ?_⟩⟩, hc⟩⟩
        show k + 1 + _ + 1 ≤ (uouts.length + 1) * _
        omega
      | now hs =>
        cases ho : Dict.find eq borrow E.entries q with
        | some e =>
          rw [ho] at hs
          refine ⟨⟨uplan, .holding f e.2, uouts, false⟩, mem, by simp [Worker.step, hs], rfl, rfl, Or.inl ⟨⟨rfl, rfl, rfl, fun _ => ⟨rfl, index, q, e, hp, ho, rfl, ?_⟩⟩, hc⟩⟩
          exact hk
        | none =>
          rw [ho] at hs
          have hd := hc.absent ho
          cases index with
          | true =>
            refine ⟨⟨uplan, .looking true f s, uouts, true⟩, mem, by simp [Worker.step, hs], rfl, rfl, Or.inr ⟨⟨?_, ?_, ?_, fun h => dead h⟩, ?_⟩⟩
            all_goals simp only [PlainWorker.step, hp, Bool.false_eq_true, if_false, if_true, hd]
            exact hc
          | false =>
            refine ⟨⟨uplan, .nothing, uouts ++ [.one none], false⟩, mem, by simp [Worker.step, hs], rfl, rfl, Or.inr ⟨⟨?_, ?_, ?_, fun _ => ⟨?_, Or.inr ?_⟩⟩, ?_⟩⟩
            all_goals simp only [PlainWorker.step, hp, Bool.false_eq_true, if_false, hd]
            · simp only [List.length_append, List.length_singleton]
              omega
            · exact hc
    | holding f c =>
      obtain ⟨hg, index, q, e, hp, ho, rfl, hk⟩ := rest
      subst hg
      obtain ⟨j, x, hj, hm, hd, ha⟩ := hc.present hone ho
      refine ⟨⟨uplan, .nothing, uouts ++ [.one (some (f x).2)], false⟩, mem.set e.2 (f x).1, by simp [Worker.step, accessCell, hm], by simp, rfl, Or.inr ⟨⟨?_, ?_, ?_, fun _ => ⟨?_, Or.inr ?_⟩⟩, ?_⟩⟩
      all_goals simp only [PlainWorker.step, hp, Bool.false_eq_true, if_false, hd]
      · simp only [List.length_append, List.length_singleton]
        exact hk
      · rw [ha]
        exact hc.set hn hj _
    | visiting f now it rs =>
      cases now with
      | none =>
        obtain ⟨i, hg, hat, hk⟩ := rest
        subst hg
        obtain ⟨hnx, hat'⟩ := hat.next
        rw [List.head?_drop] at hnx
        rw [List.tail_drop] at hat'
        cases hi : E.entries[i]? with
        | some e =>
          rw [hi] at hnx
          have hlt := (List.getElem?_eq_some_iff.1 hi).1
          have hw : it.next = (some e, it.next.2) := by rw [← hnx]
          refine ⟨⟨uplan, .visiting f (some e.2) it.next.2 rs, uouts, false⟩, mem, by simp only [Worker.step, Bool.false_eq_true, if_false]; rw [hw], rfl, rfl, Or.inl ⟨⟨rfl, rfl, rfl, fun _ => ⟨i, e, rfl, hi, rfl, hat', ?_⟩⟩, hc⟩⟩
          show k + 1 + 2 * (E.entries.length - i) ≤ (uouts.length + 1) * _
          omega
        | none =>
          rw [hi] at hnx
          have hw : it.next = (none, it.next.2) := by rw [← hnx]
          have hd : d[i]? = none := by
            rw [List.getElem?_eq_none_iff, hc.len]
            exact List.getElem?_eq_none_iff.1 hi
          refine ⟨⟨uplan, .nothing, uouts ++ [.all rs], false⟩, mem, by simp only [Worker.step, Bool.false_eq_true, if_false]; rw [hw], rfl, rfl, Or.inr ⟨⟨?_, ?_, ?_, fun _ => ⟨?_, Or.inr ?_⟩⟩, ?_⟩⟩
          all_goals simp only [PlainWorker.step, Bool.false_eq_true, if_false, hd]
          · simp only [List.length_append, List.length_singleton]
            omega
          · exact hc
      | some c =>
        obtain ⟨i, e, hg, hi, rfl, hat, hk⟩ := rest
        subst hg
        obtain ⟨x, hx, hm⟩ := hc.at_ i e hi
        have hlt := (List.getElem?_eq_some_iff.1 hi).1
        refine ⟨⟨uplan, .visiting f none it (rs ++ [(f x).2]), uouts, false⟩, mem.set e.2 (f x).1, by simp [Worker.step, accessCell, hm], by simp, rfl, Or.inr ⟨⟨?_, ?_, ?_, fun _ => ⟨i + 1, ?_, hat, ?_⟩⟩, ?_⟩⟩
        all_goals simp only [PlainWorker.step, Bool.false_eq_true, if_false, hx]
        · omega
        · exact hc.set hn hi _

/-! ### All threads -/

/-- The threads with the map of cells, and those with the plain list; thread `i` has had `k i` turns. -/
def WorkersLike {E : Engine K Nat Q} (eq : Q → Q → Bool) (borrow : K → Q) (ws : List (Worker E X R))
    (us : List (PlainWorker Q X R)) (k : Nat → Nat) : Prop :=
  us.length = ws.length ∧ ∀ (i : Nat) (w : Worker E X R) (u : PlainWorker Q X R), ws[i]? = some w →
    us[i]? = some u → w.Like eq borrow u (k i)

theorem WorkersLike.set {E : Engine K Nat Q} {eq : Q → Q → Bool} {borrow : K → Q}
    {ws : List (Worker E X R)} {us : List (PlainWorker Q X R)} {k k' : Nat → Nat}
    (h : WorkersLike eq borrow ws us k) {i : Nat} {w' : Worker E X R} {u' : PlainWorker Q X R}
    (h' : w'.Like eq borrow u' (k' i)) (hk : ∀ j, j ≠ i → k' j = k j) :
    WorkersLike eq borrow (ws.set i w') (us.set i u') k' := by
  refine ⟨by simpa using h.1, fun j w u hw hu => ?_⟩
  by_cases hj : i = j
  · subst hj
    have h1 := (List.getElem?_eq_some_iff.1 hw).1
    have h2 := (List.getElem?_eq_some_iff.1 hu).1
    rw [List.getElem?_set_self (by simpa using h1)] at hw
    rw [List.getElem?_set_self (by simpa using h2)] at hu
    cases hw; cases hu
    exact h'
  · rw [List.getElem?_set_ne hj] at hw hu
    rw [hk j (Ne.symm hj)]
    exact h.2 j w u hw hu

theorem runWorkers_like {E : Engine K Nat Q} {eq : Q → Q → Bool} {borrow : K → Q}
    (hf : ∀ q, E.Finds q (Dict.find eq borrow E.entries q)) (hone : MatchOne eq borrow E.entries)
    (hn : (E.entries.map (·.2)).Nodup) (turns : List Nat) (ws : List (Worker E X R))
    (us : List (PlainWorker Q X R)) (k : Nat → Nat) (mem : List X) (d : List (K × X))
    (h : WorkersLike eq borrow ws us k) (hc : CellsHold E.entries mem d) :
    ∃ ws' mem' turns', runWorkers turns ws mem = .ok (ws', mem') ∧ turns'.Sublist turns ∧
      mem'.length = mem.length ∧ ws'.map (·.plan) = ws.map (·.plan) ∧
      WorkersLike eq borrow ws' (runPlain eq borrow turns' us d).1 (fun i => k i + turns.count i) ∧
      CellsHold E.entries mem' (runPlain eq borrow turns' us d).2 := by
  induction turns generalizing ws us k mem d with
  | nil => exact ⟨ws, mem, [], rfl, .slnil, rfl, rfl, by simpa [runPlain] using h, hc⟩
  | cons i turns ih =>
    cases hw : ws[i]? with
    | none =>
      obtain ⟨ws', mem', turns', h1, h2, h3, h4, h5, h6⟩ := ih ws us (fun j => k j + if j = i then 1 else 0) mem d
        ⟨h.1, fun j w u hj hu => by
          have : j ≠ i := fun hc => by subst hc; rw [hw] at hj; cases hj
          simpa [this] using h.2 j w u hj hu⟩ hc
      refine ⟨ws', mem', turns', by simp [runWorkers, hw, h1], h2.cons _, h3, h4, ?_, h6⟩
      refine ⟨h5.1, fun j w u hj hu => ?_⟩
      have := h5.2 j w u hj hu
      have e : k j + (i :: turns).count j = (k j + if j = i then 1 else 0) + turns.count j := by
        rw [List.count_cons]
        by_cases hji : j = i
        · subst hji; simp; omega
        · simp [hji, Ne.symm hji]
      show w.Like eq borrow u (k j + (i :: turns).count j)
      rw [e]
      exact this
    | some w =>
      have hi : i < us.length := by
        rw [h.1]
        exact (List.getElem?_eq_some_iff.1 hw).1
      have hu := List.getElem?_eq_getElem hi
      obtain ⟨w', m₁, hs, hl, hpl, hcase⟩ := (h.2 i w us[i] hw hu).step hf hone hn hc
      have hplan : (ws.set i w').map (·.plan) = ws.map (·.plan) := by
        apply List.ext_getElem?
        intro j
        rw [List.map_set, hpl]
        by_cases hj : i = j
        · subst hj
          rw [List.getElem?_set_self (by simpa using (List.getElem?_eq_some_iff.1 hw).1)]
          simp [hw]
        · rw [List.getElem?_set_ne hj]
      have count : ∀ j, k j + (i :: turns).count j = (k j + if j = i then 1 else 0) + turns.count j := by
        intro j
        rw [List.count_cons]
        by_cases hji : j = i
        · subst hji; simp; omega
        · simp [hji, Ne.symm hji]
      rcases hcase with ⟨hlike, hc'⟩ | ⟨hlike, hc'⟩
      · have hset : WorkersLike eq borrow (ws.set i w') us (fun j => k j + if j = i then 1 else 0) := by
          have := h.set (k' := fun j => k j + if j = i then 1 else 0) (i := i) (w' := w') (u' := us[i])
            (by simpa using hlike) (fun j hj => by simp [hj])
          rwa [List.set_getElem_self] at this
        obtain ⟨ws', mem', turns', h1, h2, h3, h4, h5, h6⟩ := ih _ us _ m₁ d hset hc'
        refine ⟨ws', mem', turns', by simp [runWorkers, hw, hs, h1], h2.cons _, h3.trans hl,
          h4.trans hplan, ?_, h6⟩
        simpa only [count] using h5
      · have hset := h.set (k' := fun j => k j + if j = i then 1 else 0) (i := i) (w' := w')
          (u' := (us[i].step eq borrow d).1) (by simpa using hlike) (fun j hj => by simp [hj])
        obtain ⟨ws', mem', turns', h1, h2, h3, h4, h5, h6⟩ := ih _ _ _ m₁ _ hset hc'
        refine ⟨ws', mem', i :: turns', by simp [runWorkers, hw, hs, h1], h2.cons_cons _, h3.trans hl,
          h4.trans hplan, ?_, ?_⟩
        · simp only [runPlain, hu]
          simpa only [count] using h5
        · simp only [runPlain, hu]
          exact h6

/-! ### From the map to the claim -/

/-- The pairs that cells hold. -/
def heldBy (mem : List X) (e : K × Nat) : Option (K × X) := mem[e.2]?.map (fun x => (e.1, x))

theorem CellsHold.eq {es : List (K × Nat)} {mem : List X} {d : List (K × X)} (h : CellsHold es mem d) :
    d = es.filterMap (heldBy mem) := by
  induction es generalizing d with
  | nil => exact List.length_eq_zero_iff.1 h.len
  | cons e es ih =>
    obtain ⟨x, hx, hm⟩ := h.at_ 0 e rfl
    cases d with
    | nil => cases hx
    | cons p d =>
      simp only [List.getElem?_cons_zero, Option.some.injEq] at hx
      subst hx
      have : CellsHold es mem d :=
        ⟨by simpa using h.len, fun i e' he' => by simpa using h.at_ (i + 1) e' (by simpa using he')⟩
      rw [List.filterMap_cons, heldBy, hm, ← ih this]
      rfl

theorem cellsHold_exists (es : List (K × Nat)) (mem : List X) (h : ∀ e ∈ es, e.2 < mem.length) :
    CellsHold es mem (es.filterMap (heldBy mem)) := by
  have key : ∃ d, CellsHold es mem d := by
    induction es with
    | nil => exact ⟨[], rfl, fun i e h => by simp at h⟩
    | cons e es ih =>
      obtain ⟨d, hd⟩ := ih (fun e' he' => h e' (List.mem_cons_of_mem _ he'))
      have he := List.getElem?_eq_getElem (h e List.mem_cons_self)
      refine ⟨(e.1, mem[e.2]'(h e List.mem_cons_self)) :: d, by simp [hd.len], fun i e' he' => ?_⟩
      cases i with
      | zero =>
        simp only [List.getElem?_cons_zero, Option.some.injEq] at he'
        subst he'
        exact ⟨_, rfl, he⟩
      | succ i => simpa using hd.at_ i e' (by simpa using he')
  obtain ⟨d, hd⟩ := key
  rw [← hd.eq]
  exact hd

theorem heldBy_zipIdx (keys : List K) (mem : List X) (n : Nat) :
    (keys.zipIdx n).filterMap (heldBy mem) = keys.zip (mem.drop n) := by
  induction keys generalizing n with
  | nil => rfl
  | cons k keys ih =>
    rw [List.zipIdx_cons, List.filterMap_cons, heldBy]
    by_cases hn : n < mem.length
    · rw [List.getElem?_eq_getElem hn, List.drop_eq_getElem_cons hn, ih]
      rfl
    · rw [List.getElem?_eq_none (by omega), List.drop_of_length_le (by omega), ih,
        List.drop_of_length_le (by omega)]
      simp

theorem zip_keys_values (payload : List (K × X)) :
    (payload.map (·.1)).zip (payload.map (·.2)) = payload := by
  induction payload with
  | nil => rfl
  | cons e es ih => simp [ih]

theorem runWorkers_append {E : Engine K Nat Q} (a b : List Nat) (ws : List (Worker E X R)) (mem : List X) :
    runWorkers (a ++ b) ws mem = (runWorkers a ws mem).bind (fun r => runWorkers b r.1 r.2) := by
  induction a generalizing ws mem with
  | nil => rfl
  | cons i a ih =>
    simp only [List.cons_append, runWorkers]
    cases ws[i]? with
    | none => exact ih ws mem
    | some w =>
      show (w.step mem).bind _ = Res.bind (Res.bind _ _) _
      cases w.step mem with
      | ok r => exact ih _ _
      | panic => rfl
      | ub => rfl

theorem runPlain_append (eq : Q → Q → Bool) (borrow : K → Q) (a b : List Nat)
    (us : List (PlainWorker Q X R)) (d : List (K × X)) : runPlain eq borrow (a ++ b) us d =
      runPlain eq borrow b (runPlain eq borrow a us d).1 (runPlain eq borrow a us d).2 := by
  induction a generalizing us d with
  | nil => rfl
  | cons i a ih =>
    simp only [List.cons_append, runPlain]
    cases us[i]? with
    | none => exact ih us d
    | some u => exact ih _ _

theorem WorkersLike.seen {E : Engine K Nat Q} {eq : Q → Q → Bool} {borrow : K → Q}
    {payload start : List (K × X)} (hp : E.entries.Perm (cellsOf payload))
    (hlen : E.entries.length = payload.length)
    {plans : List (List (CellAns R) → Option (CellOp Q X R))} {turns order : List Nat}
    {ws : List (Worker E X R)} {mem : List X}
    (h1 : runWorkers turns (plans.map (Worker.new E)) (payload.map (·.2)) = .ok (ws, mem))
    (h3 : mem.length = (payload.map (·.2)).length)
    (h4 : ws.map (·.plan) = (plans.map (Worker.new E)).map (·.plan))
    (h5 : WorkersLike eq borrow ws (runPlain eq borrow order (plans.map PlainWorker.new) start).1
      (fun i => turns.count i))
    (h6 : CellsHold E.entries mem (runPlain eq borrow order (plans.map PlainWorker.new) start).2) :
    CellsSeen E eq borrow payload start plans turns order := by
  refine ⟨ws, mem, h1, ⟨?_, ?_⟩, ?_, ?_, ?_⟩
  · apply List.ext_getElem?
    intro i
    rw [List.getElem?_map, List.getElem?_map]
    cases hw : ws[i]? with
    | none =>
      rw [List.getElem?_eq_none_iff] at hw
      rw [List.getElem?_eq_none (by rw [h5.1]; exact hw)]
      rfl
    | some w =>
      have hi := (List.getElem?_eq_some_iff.1 hw).1
      rw [← h5.1] at hi
      have hu := List.getElem?_eq_getElem hi
      have := h5.2 i w _ hw hu
      rw [hu]
      simp [this.outs, this.panicked]
  · rw [h6.eq]
    have := hp.filterMap (heldBy mem)
    rw [cellsOf, heldBy_zipIdx, List.drop_zero] at this
    exact this
  · simpa using h3
  · have := congrArg List.length h4
    simpa using this
  · intro i plan w n hpl hw hle
    have hi := (List.getElem?_eq_some_iff.1 hw).1
    rw [← h5.1] at hi
    have hl : w.Like eq borrow _ (turns.count i) := h5.2 i w _ hw (List.getElem?_eq_getElem hi)
    have hwp : w.plan = plan := by
      have := congrArg (fun l => l[i]?) h4
      simpa [hw, hpl, Worker.new] using this
    by_cases hpan : w.panicked = true
    · exact Or.inl hpan
    · have hpan : w.panicked = false := by simpa using hpan
      have rest := hl.rest hpan
      rw [← hlen] at hle
      have fin : ∀ m, turns.count i + m + 1 ≤ (w.outs.length + 1) * (2 * E.entries.length + 3) →
          n ≤ w.outs.length := by
        intro m hm
        have : n * (2 * E.entries.length + 3) < (w.outs.length + 1) * (2 * E.entries.length + 3) := by
          omega
        have := Nat.lt_of_mul_lt_mul_right this
        omega
      split at rest
      · obtain ⟨_, h | h⟩ := rest
        · exact Or.inr (Or.inl (by rw [← hwp]; exact h))
        · exact Or.inr (Or.inr (Nat.le_of_mul_le_mul_right (hle.trans h) (by omega)))
      · obtain ⟨_, q, m, _, _, h⟩ := rest
        exact Or.inr (Or.inr (fin m (by omega)))
      · obtain ⟨_, index, q, e, _, _, _, h⟩ := rest
        exact Or.inr (Or.inr (fin 0 (by omega)))
      · obtain ⟨j, _, _, h⟩ := rest
        exact Or.inr (Or.inr (fin 0 (by omega)))
      · obtain ⟨j, e, _, he, _, _, h⟩ := rest
        have := (List.getElem?_eq_some_iff.1 he).1
        exact Or.inr (Or.inr (fin 0 (by omega)))

theorem Engine.cellsAtomic {E : Engine K Nat Q} {eq : Q → Q → Bool} {borrow : K → Q}
    (heq : LawfulEq eq) {payload : List (K × X)} (hd : DistinctProbes eq borrow (cellsOf payload))
    (hp : E.entries.Perm (cellsOf payload))
    (hf : ∀ q, E.Finds q (Dict.find eq borrow (cellsOf payload) q)) :
    CellsAtomic E eq borrow payload := by
  have hd' : DistinctProbes eq borrow E.entries := DistinctKeys.perm (heq.comap borrow) hp.symm hd
  have hone : MatchOne eq borrow E.entries := fun i j q e e' h1 h2 h3 h4 =>
    distinct_match heq hd' h1 h2 h3 h4
  have hf' : ∀ q, E.Finds q (Dict.find eq borrow E.entries q) := fun q => by
    rw [find_perm heq hp hd]
    exact hf q
  have hn : (E.entries.map (·.2)).Nodup := by
    refine (hp.map (·.2)).nodup_iff.2 ?_
    rw [cellsOf, List.zipIdx_map_snd]
    exact List.nodup_range'
  have hlt : ∀ e ∈ E.entries, e.2 < (payload.map (·.2)).length := by
    intro e he
    have := List.mem_map_of_mem (f := (·.2)) (hp.mem_iff.1 he)
    rw [cellsOf, List.zipIdx_map_snd, List.mem_range'_1] at this
    simpa using this
  have hlen : E.entries.length = payload.length := by
    rw [hp.length_eq]; simp [cellsOf]
  have hstart := cellsHold_exists E.entries (payload.map (·.2)) hlt
  refine ⟨E.entries.filterMap (heldBy (payload.map (·.2))), ?_, fun R plans before after => ?_⟩
  · have := hp.filterMap (heldBy (payload.map (·.2)))
    rw [cellsOf, heldBy_zipIdx, List.drop_zero, zip_keys_values] at this
    exact this
  · have hlike : WorkersLike eq borrow (plans.map (Worker.new E)) (plans.map (PlainWorker.new (Q := Q) (X := X)))
        (fun _ => 0) := by
      refine ⟨by simp, fun i w u hw hu => ?_⟩
      rw [List.getElem?_map, Option.map_eq_some_iff] at hw hu
      obtain ⟨p, h1, rfl⟩ := hw
      obtain ⟨p', h2, rfl⟩ := hu
      rw [h1] at h2
      cases h2
      exact ⟨rfl, rfl, rfl, fun _ => ⟨rfl, Or.inr (Nat.zero_le _)⟩⟩
    obtain ⟨ws, mem, order, h1, h2, h3, h4, h5, h6⟩ :=
      runWorkers_like hf' hone hn before _ _ _ _ _ hlike hstart
    obtain ⟨ws', mem', order', g1, g2, g3, g4, g5, g6⟩ :=
      runWorkers_like hf' hone hn after _ _ _ _ _ h5 h6
    rw [← runPlain_append] at g5 g6
    simp only [Nat.zero_add] at h5 g5
    simp only [← List.count_append] at g5
    exact ⟨order, order', h2, g2, h5.seen hp hlen h1 h3 h4 h6,
      g5.seen hp hlen (by rw [runWorkers_append, h1]; exact g1) (g3.trans h3) (g4.trans h4) g6⟩

theorem Refines.reads {M V : Type} {A : MapApi M K V Q} {eq : Q → Q → Bool} {borrow : K → Q} {m : M}
    {d : List (K × V)} (h : Refines A eq borrow m d) {engine : M → Engine K V Q}
    (hE : Engine.Reads A engine) :
    (engine m).entries.Perm d ∧ ∀ q, (engine m).Finds q (Dict.find eq borrow d q) := by
  have hp : (engine m).entries.Perm d := by
    obtain ⟨o', m'', hs, ha⟩ := h.after (pre := []) rfl rfl .iter rfl
    simp only [MapApi.step, Res.ok.injEq, Prod.mk.injEq] at hs
    obtain ⟨rfl, rfl⟩ := hs
    rw [(hE m).1, MapIter.At.fold (l := (engine m).entries) ⟨Nat.zero_le _, rfl⟩] at ha
    have := foldl_snoc (fun e : K × V => e) (engine m).entries []
    simp only [List.map_id', List.nil_append] at this
    rw [this] at ha
    exact List.Perm.symm ha
  have hl : A.len m = d.length := by
    obtain ⟨o', m'', hs, ha⟩ := h.after (pre := []) rfl rfl .len rfl
    simp only [MapApi.step, Res.ok.injEq, Prod.mk.injEq] at hs
    obtain ⟨rfl, rfl⟩ := hs
    simpa [Out.Agree] using ha.symm
  refine ⟨hp, fun q => ?_⟩
  obtain ⟨o', m'', hs, ha⟩ := h.after (pre := []) rfl rfl (.getKeyValue q) rfl
  simp only [MapApi.step, Res.bind_eq_ok, Res.pure_eq, Res.ok.injEq, Prod.mk.injEq] at hs
  obtain ⟨o, ho, rfl, rfl⟩ := hs
  have ha' : Dict.find eq borrow d q = o.map (fun e => (e.1, e.2.val)) := by
    simpa [Out.Agree] using ha
  rw [ha']
  exact (hE m).2 (hp.length_eq.trans hl.symm) q o ho

theorem Refines.sharesCells {M : Type} {A : MapApi M K Nat Q} {eq : Q → Q → Bool} {borrow : K → Q}
    {m : M} {keys : List K} (h : Refines A eq borrow m keys.zipIdx) (heq : LawfulEq eq)
    (hd : DistinctProbes eq borrow keys.zipIdx) {engine : M → Engine K Nat Q}
    (hE : Engine.Reads A engine) : SharesCells engine eq borrow m keys := by
  intro X payload hk
  subst hk
  obtain ⟨hp, hf⟩ := h.reads hE
  exact Engine.cellsAtomic heq hd hp hf

/-! ### Counters -/

theorem addsFor_take_succ {eq : Q → Q → Bool} {borrow : K → Q} {k : K} {prog : List (Q × Int)} {n : Nat}
    {a : Q × Int} (h : prog[n]? = some a) : addsFor eq borrow k (prog.take (n + 1)) =
      addsFor eq borrow k (prog.take n) + if eq a.1 (borrow k) = true then a.2 else 0 := by
  have : prog.take (n + 1) = prog.take n ++ [a] := by
    rw [List.take_add_one, h]
    rfl
  rw [addsFor, this, List.filter_append, List.map_append, List.sum_append]
  congr 1
  by_cases hq : eq a.1 (borrow k) = true
  · simp [hq]
  · simp [hq]

/-- All that has been added for `k` so far. -/
def addedFor (eq : Q → Q → Bool) (borrow : K → Q) (progs : List (List (Q × Int)))
    (us : List (PlainWorker Q Int Int)) (k : K) : Int :=
  (List.zipWith (fun p (u : PlainWorker Q Int Int) => addsFor eq borrow k (p.take u.outs.length)) progs us).sum

theorem addedFor_set {eq : Q → Q → Bool} {borrow : K → Q} {k : K} {progs : List (List (Q × Int))}
    {us : List (PlainWorker Q Int Int)} {i : Nat} {prog : List (Q × Int)} {u u' : PlainWorker Q Int Int}
    (hp : progs[i]? = some prog) (hu : us[i]? = some u) :
    addedFor eq borrow progs (us.set i u') k = addedFor eq borrow progs us k +
      (addsFor eq borrow k (prog.take u'.outs.length) - addsFor eq borrow k (prog.take u.outs.length)) := by
  unfold addedFor
  induction progs generalizing us i with
  | nil => simp at hp
  | cons p progs ih =>
    cases us with
    | nil => simp at hu
    | cons v us =>
      cases i with
      | zero =>
        simp only [List.getElem?_cons_zero, Option.some.injEq] at hp hu
        subst hp hu
        simp only [List.set_cons_zero, List.zipWith_cons_cons, List.sum_cons]
        omega
      | succ i =>
        simp only [List.getElem?_cons_succ] at hp hu
        simp only [List.set_cons_succ, List.zipWith_cons_cons, List.sum_cons, ih hp hu]
        omega

/-- Where adding up is. -/
structure Adding (eq : Q → Q → Bool) (borrow : K → Q) (progs : List (List (Q × Int)))
    (start : List (K × Int)) (us : List (PlainWorker Q Int Int)) (d : List (K × Int)) : Prop where
  len : us.length = progs.length
  thread : ∀ (i : Nat) (prog : List (Q × Int)) (u : PlainWorker Q Int Int), progs[i]? = some prog →
    us[i]? = some u → u.plan = adding prog ∧ u.going = none ∧ u.panicked = false
  sums : d = start.map (fun e => (e.1, e.2 + addedFor eq borrow progs us e.1))

theorem Adding.step {eq : Q → Q → Bool} {borrow : K → Q} {progs : List (List (Q × Int))}
    {start : List (K × Int)} (hone : MatchOne eq borrow start) {us : List (PlainWorker Q Int Int)}
    {d : List (K × Int)} (h : Adding eq borrow progs start us d) {i : Nat} {u : PlainWorker Q Int Int}
    (hu : us[i]? = some u) :
    Adding eq borrow progs start (us.set i (u.step eq borrow d).1) (u.step eq borrow d).2 := by
  have hi : i < progs.length := by
    rw [← h.len]
    exact (List.getElem?_eq_some_iff.1 hu).1
  have hp := List.getElem?_eq_getElem hi
  obtain ⟨h1, h2, h3⟩ := h.thread i _ u hp hu
  have hpu : u.plan u.outs = adding progs[i] u.outs := by rw [h1]
  cases ha : progs[i][u.outs.length]? with
  | none =>
    have hs : u.step eq borrow d = (u, d) := by
      simp [PlainWorker.step, h2, h3, hpu, adding, ha]
    rw [hs]
    have : us.set i u = us := by
      rw [List.getElem?_eq_some_iff] at hu
      obtain ⟨h', rfl⟩ := hu
      exact List.set_getElem_self h'
    rw [this]
    exact h
  | some a =>
    have keep : ∀ u' : PlainWorker Q Int Int, u'.plan = u.plan → u'.going = none → u'.panicked = false →
        ∀ (j : Nat) (prog : List (Q × Int)) (v : PlainWorker Q Int Int), progs[j]? = some prog →
          (us.set i u')[j]? = some v → v.plan = adding prog ∧ v.going = none ∧ v.panicked = false := by
      intro u' hp' hg' hf' j prog v hprog hv
      by_cases hij : i = j
      · subst hij
        rw [List.getElem?_set_self (List.getElem?_eq_some_iff.1 hu).1] at hv
        cases hv
        rw [hp] at hprog
        cases hprog
        exact ⟨hp'.trans h1, hg', hf'⟩
      · rw [List.getElem?_set_ne hij] at hv
        exact h.thread j prog v hprog hv
    have grows : ∀ (k : K) (u' : PlainWorker Q Int Int), u'.outs.length = u.outs.length + 1 →
        addedFor eq borrow progs (us.set i u') k =
          addedFor eq borrow progs us k + if eq a.1 (borrow k) = true then a.2 else 0 := by
      intro k u' hl
      rw [addedFor_set hp hu, hl, addsFor_take_succ ha]
      omega
    have honed : MatchOne eq borrow d := by
      intro j j' q e e' he he' hq hq'
      rw [h.sums, List.getElem?_map, Option.map_eq_some_iff] at he he'
      obtain ⟨s, hs, rfl⟩ := he
      obtain ⟨s', hs', rfl⟩ := he'
      exact hone j j' q s s' hs hs' hq hq'
    cases hfd : Dict.find eq borrow d a.1 with
    | none =>
      have hs : u.step eq borrow d = ({ u with outs := u.outs ++ [.one none] }, d) := by
        simp [PlainWorker.step, h2, h3, hpu, adding, ha, hfd]
      rw [hs]
      refine ⟨by simpa using h.len, keep _ rfl h2 h3, ?_⟩
      conv_lhs => rw [h.sums]
      apply List.map_congr_left
      intro e he
      rw [grows _ _ (by simp)]
      have hno : ¬ eq a.1 (borrow e.1) = true := by
        unfold Dict.find at hfd
        rw [List.find?_eq_none] at hfd
        have := hfd (e.1, e.2 + addedFor eq borrow progs us e.1) (by
          rw [h.sums]
          exact List.mem_map_of_mem (f := fun e => (e.1, e.2 + addedFor eq borrow progs us e.1)) he)
        simpa using this
      simp [hno]
    | some p =>
      have hs : u.step eq borrow d = ({ u with outs := u.outs ++ [.one (some p.2)] },
          Dict.assign eq borrow d a.1 (p.2 + a.2)) := by
        simp [PlainWorker.step, h2, h3, hpu, adding, ha, hfd]
      rw [hs]
      refine ⟨by simpa using h.len, keep _ rfl h2 h3, ?_⟩
      unfold Dict.assign
      conv_lhs => rw [h.sums]
      rw [List.map_map]
      apply List.map_congr_left
      intro e he
      rw [grows _ _ (by simp)]
      simp only [Function.comp]
      by_cases hq : eq a.1 (borrow e.1) = true
      · rw [if_pos hq, if_pos hq]
        obtain ⟨j, hj⟩ := List.mem_iff_getElem?.1 he
        have hdj : d[j]? = some (e.1, e.2 + addedFor eq borrow progs us e.1) := by
          rw [h.sums, List.getElem?_map, hj]
          rfl
        have := find_at honed hdj hq
        rw [hfd] at this
        cases this
        simp only [Prod.mk.injEq, true_and]
        omega
      · rw [if_neg hq, if_neg hq, Int.add_zero]

theorem Adding.run {eq : Q → Q → Bool} {borrow : K → Q} {progs : List (List (Q × Int))}
    {start : List (K × Int)} (hone : MatchOne eq borrow start) (turns : List Nat)
    {us : List (PlainWorker Q Int Int)} {d : List (K × Int)} (h : Adding eq borrow progs start us d) :
    Adding eq borrow progs start (runPlain eq borrow turns us d).1 (runPlain eq borrow turns us d).2 := by
  induction turns generalizing us d with
  | nil => exact h
  | cons i turns ih =>
    cases hu : us[i]? with
    | none => simp only [runPlain, hu]; exact ih h
    | some u => simp only [runPlain, hu]; exact ih (h.step hone hu)

theorem eq_of_perm_keys {l l' : List (K × X)} (hp : l.Perm l') (hk : l.map (·.1) = l'.map (·.1))
    (hn : (l.map (·.1)).Nodup) : l = l' := by
  have hlen := hp.length_eq
  apply List.ext_getElem hlen
  intro i h1 h2
  obtain ⟨j, hj, he⟩ := List.mem_iff_getElem.1 (hp.mem_iff.1 (List.getElem_mem h1))
  have h3 : (l.map (·.1))[i]'(by simpa using h1) = (l.map (·.1))[j]'(by simpa [hlen] using hj) := by
    have : (l.map (·.1))[j]'(by simpa [hlen] using hj) = (l'.map (·.1))[j]'(by simpa using hj) := by
      congr 1
    rw [this]
    simp [he]
  have := (List.Nodup.getElem_inj_iff hn).1 h3
  subst this
  exact he.symm

theorem CellsAtomic.counters {E : Engine K Nat Q} {eq : Q → Q → Bool} {borrow : K → Q}
    {payload : List (K × Int)} (heq : LawfulEq eq) (hd : DistinctProbes eq borrow payload)
    (h : CellsAtomic E eq borrow payload) : CountersRight E eq borrow payload := by
  obtain ⟨start, hs, h⟩ := h
  intro progs turns hturns
  obtain ⟨turns', _, _, _, ⟨ws, mem, hrun, ⟨hout, hmem⟩, hml, hlen, hfin⟩, hx⟩ :=
    h Int (progs.map adding) turns []
  rw [List.map_map] at hrun
  refine ⟨ws, mem, hrun, ?_⟩
  have hone : MatchOne eq borrow start := fun i j q e e' h1 h2 h3 h4 =>
    distinct_match heq (DistinctKeys.perm (heq.comap borrow) hs.symm hd) h1 h2 h3 h4
  have h0 : Adding eq borrow progs start ((progs.map adding).map PlainWorker.new) start := by
    refine ⟨by simp, fun i prog u hp hu => ?_, ?_⟩
    · simp only [List.map_map, List.getElem?_map, hp, Option.map_some, Option.some.injEq] at hu
      subst hu
      exact ⟨rfl, rfl, rfl⟩
    · have : ∀ k, addedFor eq borrow progs ((progs.map adding).map PlainWorker.new) k = 0 := by
        intro k
        unfold addedFor
        rw [List.map_map]
        clear hturns hfin hlen hml hrun hout hmem h hx
        induction progs with
        | nil => rfl
        | cons p ps ih =>
          rw [List.map_cons, List.zipWith_cons_cons, List.sum_cons, ih]
          simp [PlainWorker.new, addsFor]
      simp only [this, Int.add_zero]
      exact (List.map_id' start).symm
  have hfinal := h0.run hone turns'
  generalize runPlain eq borrow turns' ((progs.map adding).map PlainWorker.new) start = after at *
  have hall : ∀ k, addedFor eq borrow progs after.1 k = (progs.map (addsFor eq borrow k)).sum := by
    intro k
    unfold addedFor
    congr 1
    apply List.ext_getElem?
    intro i
    rw [List.getElem?_zipWith, List.getElem?_map]
    cases hp : progs[i]? with
    | none => rfl
    | some prog =>
      have hi : i < after.1.length := by
        rw [hfinal.len]
        exact (List.getElem?_eq_some_iff.1 hp).1
      have hu := List.getElem?_eq_getElem hi
      have hw : i < ws.length := by
        rw [hlen]
        simpa using (List.getElem?_eq_some_iff.1 hp).1
      have hw := List.getElem?_eq_getElem hw
      have hsame := congrArg (fun l => l[i]?) hout
      simp only [List.getElem?_map, hu, hw, Option.map_some, Option.some.injEq, Prod.mk.injEq] at hsame
      obtain ⟨_, _, hpan⟩ := hfinal.thread i prog _ hp hu
      have hge : prog.length ≤ after.1[i].outs.length := by
        rcases hfin i (adding prog) _ prog.length (by simp [hp]) hw (hturns i prog hp) with h | h | h
        · rw [← hsame.2, hpan] at h
          cases h
        · rw [hsame.1]
          simpa [adding] using h
        · rw [hsame.1]
          exact h
      rw [hu]
      simp [List.take_of_length_le hge]
  have hsum := hfinal.sums
  simp only [hall] at hsum
  rw [hsum] at hmem
  have hperm := ((hs.map (fun e => (e.1, e.2 + (progs.map (addsFor eq borrow e.1)).sum))).symm).trans hmem
  have hnd : (payload.map (·.1)).Nodup := by
    refine List.Pairwise.map _ ?_ hd
    intro a b hab hc
    simp only [hc, heq.refl] at hab
    cases hab
  have hl : (payload.map (·.1)).length = mem.length := by simp [hml]
  have := eq_of_perm_keys hperm (by
    rw [List.map_fst_zip (by omega), List.map_map]
    rfl) (by rw [List.map_map]; exact hnd)
  have := congrArg (List.map (·.2)) this
  rw [List.map_snd_zip (by omega), List.map_map] at this
  exact this.symm

end FC
