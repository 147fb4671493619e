import Verif.Lemmas.UserCode
import Verif.Lemmas.IterPool
import Verif.Spec.UserThreads

/-
Threads that share a map of misbehaving keys: an invariant of each thread.
-/

set_option autoImplicit false

namespace FC
variable {σ K V Q : Type}

theorem Loose.Run.snoc {R : Q → K → Prop} {d : List (K × V)} {ops : List (MapOp V Q)}
    {outs : List (Out K V)} (h : ∀ ops' outs', Loose.Run R d ops' outs' →
      Loose.Run R d (ops ++ ops') (outs ++ outs')) {op : MapOp V Q} {o : Out K V}
    (hs : Loose.Step R d op o d) : ∀ ops' outs', Loose.Run R d ops' outs' →
      Loose.Run R d ((ops ++ [op]) ++ ops') ((outs ++ [o]) ++ outs') := by
  intro ops' outs' h'
  simpa using h (op :: ops') (o :: outs') (.cons hs h')

/-- A run that can be continued from where it ends. -/
theorem UMap.run_behaves_then {p U : Prop} {u : UserCode σ K Q} (hu : u.SafeLookup p)
    (ops : List (MapOp V Q)) (hU : ∀ op ∈ ops, op.isMany → u.EqOK ∨ U) :
    ∀ m : UMap K V, m.OK → Behaves U (p ∨ ∃ op ∈ ops, op.isIndex) (m.run u ops)
      (fun r => r.2.OK ∧ ∀ ops' outs', Loose.Run u.MayMatch r.2.entries ops' outs' →
        Loose.Run u.MayMatch m.entries (ops ++ ops') (r.1 ++ outs')) := by
  induction ops with
  | nil => exact fun m hm => .pure ⟨hm, fun _ _ h => h⟩
  | cons op ops ih =>
    intro m hm
    unfold UMap.run
    refine ((UMap.step_behaves hu hm op (hU op (by simp))).mono id
      (Or.imp id (fun h => ⟨op, by simp, h⟩)) (fun _ h => h)).bind (fun r hr => ?_)
    exact ((ih (fun o ho => hU o (by simp [ho])) r.2 hr.1).mono id
      (Or.imp id (fun ⟨o, h1, h2⟩ => ⟨o, by simp [h1], h2⟩)) (fun _ h => h)).bind
      (fun rs hrs => .pure ⟨hrs.1, fun ops' outs' h => .cons hr.2 (hrs.2 ops' outs' h)⟩)

/-- Where a thread stands after `k` turns: `done` is what it has been through. -/
structure UReader.Going (R : Q → K → Prop) (p : Prop) (d : List (K × V)) (prog : List (SharedOp Q))
    (k : Nat) (r : UReader K V Q) (done : List (SharedOp Q)) : Prop where
  run : ∀ ops' outs', Loose.Run R d ops' outs' →
    Loose.Run R d (done.map SharedOp.toMapOp ++ ops') (r.outs ++ outs')
  panic : r.panicked = true → p ∨ ∃ q rest, prog = done ++ .look .index q :: rest
  place : match r.doing with
    | .nothing => prog = done ++ r.todo ∧
        (r.panicked = true ∨ r.todo = [] ∨ k ≤ done.length * (d.length + 2))
    | .looking how q es => prog = done ++ .look how q :: r.todo ∧ (∀ e ∈ es, e ∈ d) ∧
        es.length ≤ d.length ∧
        (r.panicked = true ∨ k + es.length + 1 ≤ (done.length + 1) * (d.length + 2))
    | .iterating seen it => ∃ left, prog = done ++ .iter :: r.todo ∧ it.At left ∧ seen ++ left = d ∧
        (r.panicked = true ∨ k + left.length + 1 ≤ (done.length + 1) * (d.length + 2))

theorem UReader.Going.start (R : Q → K → Prop) (p : Prop) (d : List (K × V))
    (prog : List (SharedOp Q)) : UReader.Going R p d prog 0 (UReader.new prog) [] :=
  ⟨fun _ _ h => h, fun h => by simp [UReader.new] at h, rfl, Or.inr (Or.inr (Nat.zero_le _))⟩

/-- More turns do not matter to a thread that has panicked. -/
theorem UReader.Going.dead {R : Q → K → Prop} {p : Prop} {d : List (K × V)}
    {prog : List (SharedOp Q)} {k k' : Nat} {r : UReader K V Q} {done : List (SharedOp Q)}
    (h : UReader.Going R p d prog k r done) (hr : r.panicked = true) :
    UReader.Going R p d prog k' r done := by
  refine ⟨h.run, h.panic, ?_⟩
  have := h.place
  revert this
  cases r.doing with
  | nothing => exact fun a => ⟨a.1, Or.inl hr⟩
  | looking how q es => exact fun a => ⟨a.1, a.2.1, a.2.2.1, Or.inl hr⟩
  | iterating seen it => exact fun ⟨l, a⟩ => ⟨l, a.1, a.2.1, a.2.2.1, Or.inl hr⟩

/-- A thread that panics stays where it was. -/
theorem UReader.Going.dies {R : Q → K → Prop} {p : Prop} {d : List (K × V)}
    {prog : List (SharedOp Q)} {k k' : Nat} {r : UReader K V Q} {done : List (SharedOp Q)}
    (h : UReader.Going R p d prog k r done)
    (hp : p ∨ ∃ q rest, prog = done ++ .look .index q :: rest) :
    UReader.Going R p d prog k' { r with panicked := true } done := by
  refine ⟨h.run, fun _ => hp, ?_⟩
  have := h.place
  revert this
  show _ → match r.doing with
    | .nothing => _
    | .looking how q es => _
    | .iterating seen it => _
  cases r.doing with
  | nothing => exact fun a => ⟨a.1, Or.inl rfl⟩
  | looking how q es => exact fun a => ⟨a.1, a.2.1, a.2.2.1, Or.inl rfl⟩
  | iterating seen it => exact fun ⟨l, a⟩ => ⟨l, a.1, a.2.1, a.2.2.1, Or.inl rfl⟩

theorem UMap.start_behaves {p : Prop} {u : UserCode σ K Q} (hu : u.SafeLookup p) {m : UMap K V}
    (hm : m.OK) (q : Q) :
    Behaves False p (m.start u q)
      (fun es => (∀ e ∈ es, e ∈ m.entries) ∧ es.length ≤ m.entries.length) := by
  unfold UMap.start
  cases m with
  | scanning es => exact .pure ⟨fun _ h => h, Nat.le_refl _⟩
  | hashed T =>
    have hT : SlotsOK T := hm
    refine (hu.probeCode q).bind (fun code _ => ?_)
    have hlt : code % T.numSlots < T.slots.length := by
      rw [hT.len]; exact Nat.mod_lt _ hT.pos
    obtain ⟨s, hs⟩ : ∃ s, T.slots[code % T.numSlots]? = some s :=
      ⟨_, List.getElem?_eq_getElem hlt⟩
    obtain ⟨h1, h2⟩ := hT.bounds _ _ hs
    refine (Behaves.lift (a := (s.minIndex, s.maxIndex)) (post := fun r => r = _) ?_ rfl).bind ?_
    · unfold HashTable.getHashInfo; rw [hs]
    · rintro _ rfl
      refine Behaves.lift (if_pos ⟨h1, h2⟩) ⟨fun e he => ?_, ?_⟩
      · exact List.mem_of_mem_drop (List.mem_of_mem_take he)
      · have := List.length_take_le (s.maxIndex - s.minIndex) (T.entries.drop s.minIndex)
        have h3 : (T.entries.drop s.minIndex).length ≤ T.entries.length := by simp
        exact Nat.le_trans (by simp) h3

theorem UMap.turn_behaves {p : Prop} {u : UserCode σ K Q} (hu : u.SafeLookup p) (q : Q)
    (es : List (K × V)) :
    Behaves False p (UMap.turn u q es) (fun x => match x with
      | .inl none => True
      | .inl (some e) => e ∈ es ∧ u.MayMatch q e.1
      | .inr es' => ∃ e, es = e :: es') := by
  cases es with
  | nil => exact .pure trivial
  | cons e es =>
    exact (u.mayMatch hu q e.1).bind (fun b hb =>
      .ite (fun h => .pure ⟨by simp, hb h⟩) (fun _ => .pure ⟨e, rfl⟩))

theorem UReader.after_behaves {α : Type} {p : Prop} {r : UReader K V Q} {x : Call σ α}
    {f : α → UReader K V Q} {post : α → Prop} {post' : UReader K V Q → Prop}
    (hx : Behaves False p x post) (hf : ∀ a, post a → post' (f a))
    (hp : p → post' { r with panicked := true }) : Behaves False False (r.after x f) post' := by
  intro s
  have := hx s
  unfold UReader.after
  cases h : x s with
  | ok a => rw [h] at this; exact hf _ this
  | panic => rw [h] at this; exact hp this
  | ub => rw [h] at this; exact this

theorem UReader.Going.step {p : Prop} {u : UserCode σ K Q} (hu : u.SafeLookup p) {m : UMap K V}
    (hm : m.OK) {prog : List (SharedOp Q)} {k : Nat} {r : UReader K V Q} {done : List (SharedOp Q)}
    (h : UReader.Going u.MayMatch p m.entries prog k r done) :
    Behaves False False (r.step u m)
      (fun r' => ∃ done', UReader.Going u.MayMatch p m.entries prog (k + 1) r' done') := by
  unfold UReader.step
  refine .ite (fun hd => .pure ⟨done, h.dead hd⟩) (fun hd => ?_)
  have hlive : r.panicked = false := by simpa using hd
  have hplace := h.place
  have hrun := h.run
  have hdies := h.dies (k' := k + 1)
  obtain ⟨todo, doing, outs, panicked⟩ := r
  simp only at hlive hplace hrun
  subst hlive
  have bound : ∀ n j : Nat, j ≤ n * (m.entries.length + 2) →
      j + m.entries.length + 2 ≤ (n + 1) * (m.entries.length + 2) := by
    intro n j hj; rw [Nat.add_one_mul]; omega
  cases doing with
  | nothing =>
    obtain ⟨hprog, hk⟩ := hplace
    have hk : todo = [] ∨ k ≤ done.length * (m.entries.length + 2) := by simpa using hk
    cases todo with
    | nil => exact .pure ⟨done, hrun, fun h => by simp at h, hprog, Or.inr (Or.inl rfl)⟩
    | cons op ops =>
      have hk : k ≤ done.length * (m.entries.length + 2) := by simpa using hk
      have hb := bound _ _ hk
      cases op with
      | look how q =>
        refine UReader.after_behaves (UMap.start_behaves hu hm q) (fun es hes => ?_)
          (fun hp => ⟨done, hdies (Or.inl hp)⟩)
        refine ⟨done, hrun, fun h => by simp at h, hprog, hes.1, hes.2, Or.inr ?_⟩
        have := hes.2
        omega
      | len =>
        refine .pure ⟨done ++ [.len], ?_, fun h => by simp at h, by simp [hprog], Or.inr (Or.inr ?_)⟩
        · rw [List.map_append]
          exact Loose.Run.snoc hrun .len
        · rw [List.length_append]
          show k + 1 ≤ (done.length + 1) * _
          omega
      | iter =>
        refine .pure ⟨done, hrun, fun h => by simp at h, m.entries, hprog, ⟨Nat.zero_le _, rfl⟩, rfl,
          Or.inr ?_⟩
        omega
  | looking how q es =>
    obtain ⟨hprog, hes, hlen, hk⟩ := hplace
    have hk : k + es.length + 1 ≤ (done.length + 1) * (m.entries.length + 2) := by simpa using hk
    refine UReader.after_behaves (UMap.turn_behaves hu q es) (fun x hx => ?_)
      (fun hp => ⟨done, hdies (Or.inl hp)⟩)
    have finish : ∀ out : Out K V, Loose.Step u.MayMatch m.entries (SharedOp.look how q).toMapOp out m.entries →
        ∃ done', UReader.Going u.MayMatch p m.entries prog (k + 1)
          ⟨todo, .nothing, outs ++ [out], false⟩ done' := by
      intro out hs
      refine ⟨done ++ [.look how q], ?_, fun h => by simp at h, by simp [hprog], Or.inr (Or.inr ?_)⟩
      · rw [List.map_append]
        exact Loose.Run.snoc hrun hs
      · rw [List.length_append]
        show k + 1 ≤ (done.length + 1) * _
        omega
    match x, hx with
    | .inl none, _ =>
      cases how with
      | get => exact finish _ (.getNone q)
      | getKeyValue => exact finish _ (.kvNone q)
      | containsKey => exact finish _ (.contains q _ (by simp))
      | index => exact ⟨done, hdies (Or.inr ⟨q, todo, hprog⟩)⟩
    | .inl (some e), hx =>
      have he := hes e hx.1
      cases how with
      | get => exact finish _ (.get q e he hx.2)
      | getKeyValue => exact finish _ (.kv q e he hx.2)
      | containsKey => exact finish _ (.contains q _ (fun _ => ⟨e, he, hx.2⟩))
      | index => exact finish _ (.index q e he hx.2)
    | .inr es', hx =>
      obtain ⟨e, rfl⟩ := hx
      simp only [List.length_cons] at hlen hk
      exact ⟨done, hrun, fun h => by simp at h, hprog, fun e' he' => hes e' (by simp [he']), by omega,
        Or.inr (by omega)⟩
  | iterating seen it =>
    obtain ⟨left, hprog, hat, hd, hk⟩ := hplace
    have hk : k + left.length + 1 ≤ (done.length + 1) * (m.entries.length + 2) := by simpa using hk
    obtain ⟨hn1, hn2⟩ := hat.next
    cases left with
    | nil =>
      have : it.next = (none, it.next.2) := Prod.ext hn1 rfl
      simp only
      rw [this]
      refine .pure ⟨done ++ [.iter], ?_, fun h => by simp at h, by simp [hprog], Or.inr (Or.inr ?_)⟩
      · rw [List.map_append]
        have : seen = m.entries := by simpa using hd
        rw [this]
        exact Loose.Run.snoc hrun .iter
      · rw [List.length_append]
        simpa using hk
    | cons e left =>
      have : it.next = (some e, it.next.2) := Prod.ext hn1 rfl
      simp only
      rw [this]
      refine .pure ⟨done, hrun, fun h => by simp at h, left, hprog, hn2, by simpa using hd, Or.inr ?_⟩
      simp only [List.length_cons] at hk
      omega

/-- All threads, whatever the scheduler does. -/
theorem UMap.share_behaves {p : Prop} {u : UserCode σ K Q} (hu : u.SafeLookup p) {m : UMap K V}
    (hm : m.OK) (progs : List (List (SharedOp Q))) (turns : List (Turn σ)) :
    ∀ (ts : List (UReader K V Q)) (k : Nat → Nat), ts.length = progs.length →
      (∀ i prog, progs[i]? = some prog → ∃ t done, ts[i]? = some t ∧
        UReader.Going u.MayMatch p m.entries prog (k i) t done) →
      Behaves False False (m.share u turns ts) (fun ts' => ts'.length = progs.length ∧
        ∀ i prog, progs[i]? = some prog → ∃ t done, ts'[i]? = some t ∧
          UReader.Going u.MayMatch p m.entries prog (k i + turnsOf i turns) t done) := by
  induction turns with
  | nil => exact fun ts k hl h => .pure ⟨hl, h⟩
  | cons turn turns ih =>
    intro ts k hl h
    cases turn with
    | elsewhere f =>
      intro s
      exact ih ts k hl h (f s)
    | thread i =>
      unfold UMap.share
      cases hi : ts[i]? with
      | none =>
        refine (ih ts k hl h).mono id id (fun ts' h' => ⟨h'.1, fun j prog hj => ?_⟩)
        have hne : i ≠ j := by
          rintro rfl
          obtain ⟨t, _, ht, _⟩ := h i prog hj
          rw [hi] at ht; cases ht
        simpa [turnsOf, hne] using h'.2 j prog hj
      | some r =>
        have hlt : i < ts.length := (List.getElem?_eq_some_iff.1 hi).1
        obtain ⟨prog, hprog⟩ : ∃ prog, progs[i]? = some prog :=
          ⟨_, List.getElem?_eq_getElem (hl ▸ hlt)⟩
        obtain ⟨t, done, ht, hg⟩ := h i prog hprog
        cases hi.symm.trans ht
        refine (UReader.Going.step hu hm hg).bind (fun r' hr' => ?_)
        refine (ih (ts.set i r') (fun j => k j + if i = j then 1 else 0) (by simpa using hl) ?_).mono
          id id (fun ts' h' => ⟨h'.1, fun j prog' hj => ?_⟩)
        · intro j prog' hj
          by_cases hij : i = j
          · subst hij
            cases hprog.symm.trans hj
            obtain ⟨done', hg'⟩ := hr'
            exact ⟨r', done', by simp [hlt], by simpa using hg'⟩
          · obtain ⟨t', done', ht', hg'⟩ := h j prog' hj
            exact ⟨t', done', by rw [List.getElem?_set_ne hij]; exact ht', by simpa [hij] using hg'⟩
        · have := h'.2 j prog' hj
          simp only [turnsOf]
          rwa [show k j + (turnsOf j turns + if i = j then 1 else 0)
            = k j + (if i = j then 1 else 0) + turnsOf j turns by omega]

/-- Where a thread stands, in terms of the specification. -/
theorem UReader.Going.outcome {R : Q → K → Prop} {p : Prop} {d : List (K × V)}
    {prog : List (SharedOp Q)} {k : Nat} {t : UReader K V Q} {done : List (SharedOp Q)}
    (h : UReader.Going R p d prog k t done) :
    done = prog.take done.length ∧ (t.panicked = true → p ∨ ∃ q, prog[done.length]? = some (.look .index q)) ∧
      (prog.length * (d.length + 2) ≤ k → t.panicked = true ∨ prog.length ≤ done.length) := by
  have hpl := h.place
  have hpre : ∃ rest, prog = done ++ rest := by
    revert hpl
    cases t.doing with
    | nothing => exact fun a => ⟨_, a.1⟩
    | looking how q es => exact fun a => ⟨_, a.1⟩
    | iterating seen it => exact fun ⟨_, a⟩ => ⟨_, a.1⟩
  refine ⟨?_, fun hp => ?_, fun hk => ?_⟩
  · obtain ⟨rest, rfl⟩ := hpre
    simp
  · refine (h.panic hp).imp id (fun ⟨q, rest, he⟩ => ⟨q, ?_⟩)
    rw [he]; simp
  · by_cases hp : t.panicked = true
    · exact Or.inl hp
    · refine Or.inr ?_
      have mid : ∀ (op : SharedOp Q) (n : Nat), prog = done ++ op :: t.todo →
          k + n + 1 ≤ (done.length + 1) * (d.length + 2) → False := by
        intro op n he hn
        have hle : done.length + 1 ≤ prog.length := by rw [he]; simp
        have := Nat.mul_le_mul_right (d.length + 2) hle
        omega
      revert hpl
      cases t.doing with
      | nothing =>
        rintro ⟨he, h1 | h1 | h1⟩
        · exact absurd h1 hp
        · rw [he, h1]; simp
        · by_contra hlt
          have hle : done.length + 1 ≤ prog.length := by omega
          have := Nat.mul_le_mul_right (d.length + 2) hle
          rw [Nat.add_one_mul] at this
          omega
      | looking how q es =>
        rintro ⟨he, _, _, h1 | h1⟩
        · exact absurd h1 hp
        · exact (mid _ _ he h1).elim
      | iterating seen it =>
        rintro ⟨l, he, _, _, h1 | h1⟩
        · exact absurd h1 hp
        · exact (mid _ _ he h1).elim

end FC
