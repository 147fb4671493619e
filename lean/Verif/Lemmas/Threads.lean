import Verif.Spec.Threads
import Verif.Lemmas.IterPool
import Verif.Lemmas.Borrows

/-
Lemmas about threads that share a map.
-/

set_option autoImplicit false

namespace FC
variable {M K V Q : Type} {E : Engine K V Q}

/-! ### Threads do not meet -/

theorem Reader.step_ne_panic (r : Reader E) : r.step ≠ .panic := by
  unfold Reader.step Reader.after
  repeat' split
  all_goals simp

/-- What a schedule does to each thread is what its own turns do to it. -/
theorem runThreads_alone (σ : List Nat) (ts : List (Reader E)) :
    (∀ ts', runThreads σ ts = .ok ts' → ts'.length = ts.length ∧
      ∀ (i : Nat) (r : Reader E), ts[i]? = some r → ∃ r', ts'[i]? = some r' ∧
        r.alone (σ.count i) = .ok r') ∧
    runThreads σ ts ≠ .panic ∧
    (runThreads σ ts = .ub → ∃ (i : Nat) (r : Reader E), ts[i]? = some r ∧ r.alone (σ.count i) = .ub) := by
  induction σ generalizing ts with
  | nil =>
    refine ⟨?_, by simp [runThreads], by simp [runThreads]⟩
    rintro ts' h
    simp only [runThreads, Res.ok.injEq] at h
    subst h
    exact ⟨rfl, fun i r hr => ⟨r, hr, rfl⟩⟩
  | cons j σ ih =>
    cases hj : ts[j]? with
    | none =>
      have e : runThreads (j :: σ) ts = runThreads σ ts := by simp [runThreads, hj]
      have hc : ∀ (i : Nat) (r : Reader E), ts[i]? = some r → (j :: σ).count i = σ.count i := by
        intro i r hr
        have : ¬ j = i := by rintro rfl; simp [hj] at hr
        simp [List.count_cons, this]
      rw [e]
      obtain ⟨h1, h2, h3⟩ := ih ts
      refine ⟨?_, h2, ?_⟩
      · intro ts' h
        refine ⟨(h1 ts' h).1, fun i r hr => ?_⟩
        rw [hc i r hr]
        exact (h1 ts' h).2 i r hr
      · intro h
        obtain ⟨i, r, hr, hu⟩ := h3 h
        exact ⟨i, r, hr, by rw [hc i r hr]; exact hu⟩
    | some r =>
      have hlt : j < ts.length := (List.getElem?_eq_some_iff.1 hj).1
      cases hs : r.step with
      | panic => exact absurd hs r.step_ne_panic
      | ub =>
        have e : runThreads (j :: σ) ts = .ub := by simp [runThreads, hj, hs]
        rw [e]
        refine ⟨by simp, by simp, fun _ => ⟨j, r, hj, ?_⟩⟩
        rw [List.count_cons_self]
        simp [Reader.alone, hs]
      | ok r₁ =>
        have e : runThreads (j :: σ) ts = runThreads σ (ts.set j r₁) := by simp [runThreads, hj, hs]
        rw [e]
        obtain ⟨h1, h2, h3⟩ := ih (ts.set j r₁)
        have key : ∀ (i : Nat) (r₀ : Reader E), ts[i]? = some r₀ → ∃ r₂ : Reader E, (ts.set j r₁)[i]? = some r₂ ∧
            r₀.alone ((j :: σ).count i) = r₂.alone (σ.count i) := by
          intro i r₀ hr
          by_cases hij : j = i
          · subst hij
            rw [hj] at hr
            cases hr
            refine ⟨r₁, by simp [hlt], ?_⟩
            rw [List.count_cons_self]
            simp [Reader.alone, hs]
          · refine ⟨r₀, by rw [List.getElem?_set_ne hij]; exact hr, ?_⟩
            simp [List.count_cons, hij]
        refine ⟨?_, h2, ?_⟩
        · intro ts' h
          refine ⟨by simpa using (h1 ts' h).1, fun i r₀ hr => ?_⟩
          obtain ⟨r₂, hr₂, he⟩ := key i r₀ hr
          rw [he]
          exact (h1 ts' h).2 i r₂ hr₂
        · intro h
          obtain ⟨i, r₂, hr₂, hu⟩ := h3 h
          have hi : i < ts.length := by
            have := (List.getElem?_eq_some_iff.1 hr₂).1
            simpa using this
          obtain ⟨r₃, hr₃, he⟩ := key i ts[i] (List.getElem?_eq_getElem hi)
          rw [hr₂] at hr₃
          cases hr₃
          exact ⟨i, ts[i], List.getElem?_eq_getElem hi, by rw [he]; exact hu⟩

/-! ### A lookup comes to its end -/

/-- The lookup at `s` ends after `n` steps with `o`. -/
inductive Engine.Ends (E : Engine K V Q) (o : Option (K × V)) : E.State → Nat → Prop where
  | now {s : E.State} : E.step s = .ok (.inl o) → Ends E o s 1
  | later {s s' : E.State} {n : Nat} : E.step s = .ok (.inr s') → Ends E o s' n → Ends E o s (n + 1)

/-- A lookup for `q` ends within one step more than there are entries. -/
def Engine.Finds (E : Engine K V Q) (q : Q) (o : Option (K × V)) : Prop :=
  ∃ s n, E.begin q = .ok s ∧ E.Ends o s n ∧ n ≤ E.entries.length + 1

/-- Where a thread is, with `prog` as its program, after `k` turns. -/
structure Reader.Going (E : Engine K V Q) (eq : Q → Q → Bool) (borrow : K → Q) (d : List (K × V))
    (prog : List (SharedOp Q)) (k : Nat) (r : Reader E) (done : List (SharedOp Q)) : Prop where
  outs : List.Forall₂ (fun op out => ∃ out', Dict.answer eq borrow d op = some out' ∧ out'.Agree out)
    done r.outs
  panic : r.panicked = true → ∃ op rest, prog = done ++ op :: rest ∧ Dict.answer eq borrow d op = none
  rest : r.panicked = false → match r.doing with
    | .nothing => prog = done ++ r.todo ∧ (r.todo = [] ∨ k ≤ done.length * (d.length + 2))
    | .looking how s => ∃ q n, prog = done ++ .look how q :: r.todo ∧
        E.Ends (Dict.find eq borrow d q) s n ∧ k + n ≤ (done.length + 1) * (d.length + 2)
    | .iterating seen it => ∃ left, prog = done ++ .iter :: r.todo ∧ it.At left ∧
        (seen ++ left).Perm d ∧ k + left.length + 1 ≤ (done.length + 1) * (d.length + 2)

theorem forall₂_push {α β : Type} {R : α → β → Prop} {l : List α} {l' : List β} {x : α} {y : β}
    (h : List.Forall₂ R l l') (hxy : R x y) : List.Forall₂ R (l ++ [x]) (l' ++ [y]) :=
  List.rel_append h (.cons hxy .nil)

theorem Out.agree_refl (o : Out K V) : Out.Agree o o := by
  cases o <;> simp [Out.Agree]

theorem Lookup.answer_dict (eq : Q → Q → Bool) (borrow : K → Q) (d : List (K × V)) (how : Lookup) (q : Q) :
    how.answer (Dict.find eq borrow d q) = Dict.answer eq borrow d (.look how q) := by
  cases how with
  | get => rfl
  | getKeyValue => rfl
  | containsKey => rfl
  | index =>
    simp only [Dict.answer]
    cases Dict.find eq borrow d q <;> rfl

theorem Reader.Going.step {eq : Q → Q → Bool} {borrow : K → Q} {d : List (K × V)}
    (hf : ∀ q, E.Finds q (Dict.find eq borrow d q)) (hp : E.entries.Perm d)
    {prog : List (SharedOp Q)} {k : Nat} {r : Reader E} {done : List (SharedOp Q)}
    (h : Reader.Going E eq borrow d prog k r done) :
    ∃ r' done', r.step = .ok r' ∧ Reader.Going E eq borrow d prog (k + 1) r' done' := by
  by_cases hdead : r.panicked = true
  · refine ⟨r, done, by simp [Reader.step, hdead], h.outs, h.panic, fun h' => ?_⟩
    rw [hdead] at h'; cases h'
  have hlive : r.panicked = false := by simpa using hdead
  have hout := h.outs
  have rest := h.rest hlive
  have hlen := hp.length_eq
  obtain ⟨todo, doing, outs, panicked⟩ := r
  simp only at hlive rest hout
  subst hlive
  have bound : ∀ n j : Nat, j ≤ n * (d.length + 2) →
      j + d.length + 2 ≤ (n + 1) * (d.length + 2) := by
    intro n j hj; rw [Nat.add_one_mul]; omega
  have nopanic : ∀ {P : Prop}, false = true → P := fun h => by cases h
  cases doing with
  | nothing =>
    obtain ⟨hprog, hk⟩ := rest
    cases todo with
    | nil => exact ⟨⟨[], .nothing, outs, false⟩, done, by simp [Reader.step], hout, nopanic, fun _ => ⟨hprog, Or.inl rfl⟩⟩
    | cons op ops =>
      have hk : k ≤ done.length * (d.length + 2) := by simpa using hk
      have hb := bound _ _ hk
      cases op with
      | look how q =>
        obtain ⟨s, n, hs, he, hn⟩ := hf q
        refine ⟨⟨ops, .looking how s, outs, false⟩, done, ?_, hout, nopanic,
          fun _ => ⟨q, n, hprog, he, by omega⟩⟩
        simp [Reader.step, Reader.after, hs]
      | len =>
        refine ⟨⟨ops, .nothing, outs ++ [.number E.entries.length], false⟩, done ++ [.len], ?_, ?_, nopanic,
          fun _ => ⟨by simp [hprog], Or.inr ?_⟩⟩
        · simp [Reader.step]
        · exact forall₂_push hout ⟨_, rfl, by simp [Out.Agree, hlen]⟩
        · rw [List.length_append]
          show k + 1 ≤ (done.length + 1) * _
          omega
      | iter =>
        refine ⟨⟨ops, .iterating [] (MapIter.new E.entries), outs, false⟩, done, ?_, hout, nopanic,
          fun _ => ⟨E.entries, hprog, ⟨Nat.zero_le _, rfl⟩, by simpa using hp, by omega⟩⟩
        simp [Reader.step]
  | looking how s =>
    obtain ⟨q, n, hprog, he, hk⟩ := rest
    cases he with
    | now hs =>
      cases ha : how.answer (Dict.find eq borrow d q) with
      | some out =>
        refine ⟨⟨todo, .nothing, outs ++ [out], false⟩, done ++ [.look how q], ?_, ?_, nopanic,
          fun _ => ⟨by simp [hprog], Or.inr ?_⟩⟩
        · simp [Reader.step, Reader.after, hs, ha]
        · exact forall₂_push hout ⟨out, by rw [← Lookup.answer_dict, ha], Out.agree_refl _⟩
        · rw [List.length_append]
          simpa using hk
      | none =>
        refine ⟨⟨todo, .looking how s, outs, true⟩, done, ?_, hout,
          fun _ => ⟨_, todo, hprog, by rw [← Lookup.answer_dict, ha]⟩, fun h => by cases h⟩
        simp [Reader.step, Reader.after, hs, ha]
    | later hs he' =>
      refine ⟨⟨todo, .looking how _, outs, false⟩, done, ?_, hout, nopanic,
        fun _ => ⟨q, _, hprog, he', by omega⟩⟩
      simp [Reader.step, Reader.after, hs]
  | iterating seen it =>
    obtain ⟨left, hprog, hat, hperm, hk⟩ := rest
    obtain ⟨hn1, hn2⟩ := hat.next
    cases left with
    | nil =>
      refine ⟨⟨todo, .nothing, outs ++ [.items seen], false⟩, done ++ [.iter], ?_, ?_, nopanic,
        fun _ => ⟨by simp [hprog], Or.inr ?_⟩⟩
      · simp only [Reader.step]
        have : it.next = (none, it.next.2) := Prod.ext hn1 rfl
        rw [this]
        simp
      · exact forall₂_push hout ⟨_, rfl, by simpa [Out.Agree] using hperm.symm⟩
      · rw [List.length_append]
        simpa using hk
    | cons e left =>
      refine ⟨⟨todo, .iterating (seen ++ [e]) it.next.2, outs, false⟩, done, ?_, hout, nopanic,
        fun _ => ⟨left, hprog, hn2, by simpa using hperm, ?_⟩⟩
      · simp only [Reader.step]
        have : it.next = (some e, it.next.2) := Prod.ext hn1 rfl
        rw [this]
        simp
      · simp only [List.length_cons] at hk
        omega

theorem Reader.Going.alone {eq : Q → Q → Bool} {borrow : K → Q} {d : List (K × V)}
    (hf : ∀ q, E.Finds q (Dict.find eq borrow d q)) (hp : E.entries.Perm d)
    {prog : List (SharedOp Q)} (n : Nat) {k : Nat} {r : Reader E} {done : List (SharedOp Q)}
    (h : Reader.Going E eq borrow d prog k r done) :
    ∃ r' done', r.alone n = .ok r' ∧ Reader.Going E eq borrow d prog (k + n) r' done' := by
  induction n generalizing k r done with
  | zero => exact ⟨r, done, rfl, h⟩
  | succ n ih =>
    obtain ⟨r₁, d₁, h1, h2⟩ := h.step hf hp
    obtain ⟨r₂, d₂, h3, h4⟩ := ih h2
    refine ⟨r₂, d₂, ?_, by rw [Nat.add_comm n 1, ← Nat.add_assoc]; exact h4⟩
    simp [Reader.alone, h1, h3]

theorem Reader.Going.done {eq : Q → Q → Bool} {borrow : K → Q} {d : List (K × V)}
    {prog : List (SharedOp Q)} {k : Nat} {r : Reader E} {done : List (SharedOp Q)}
    (h : Reader.Going E eq borrow d prog k r done) :
    prog.take done.length = done ∧
      (r.panicked = true → ∃ op, prog[done.length]? = some op ∧ Dict.answer eq borrow d op = none) ∧
      (prog.length * (d.length + 2) ≤ k → r.panicked = true ∨ done = prog) := by
  by_cases hdead : r.panicked = true
  · obtain ⟨op, rest, he, ha⟩ := h.panic hdead
    exact ⟨by rw [he]; exact List.take_left, fun _ => ⟨op, by rw [he]; simp, ha⟩, fun _ => Or.inl hdead⟩
  have hlive : r.panicked = false := by simpa using hdead
  have rest := h.rest hlive
  suffices hs : prog.take done.length = done ∧ (prog.length * (d.length + 2) ≤ k → done = prog) from
    ⟨hs.1, fun h => absurd h hdead, fun hk => Or.inr (hs.2 hk)⟩
  obtain ⟨todo, doing, outs, panicked⟩ := r
  have mid : ∀ {op n}, prog = done ++ op :: todo → k + n ≤ (done.length + 1) * (d.length + 2) →
      0 < n → prog.take done.length = done ∧ (prog.length * (d.length + 2) ≤ k → done = prog) := by
    intro op n he hk hn
    refine ⟨by rw [he]; exact List.take_left, fun hle => ?_⟩
    have : (done.length + 1) * (d.length + 2) ≤ prog.length * (d.length + 2) :=
      Nat.mul_le_mul_right _ (by rw [he]; simp)
    omega
  have pos : ∀ {o s n}, E.Ends o s n → 0 < n := by
    intro o s n he
    cases he <;> omega
  cases doing with
  | nothing =>
    obtain ⟨he, hk⟩ := rest
    dsimp only at he hk
    refine ⟨by rw [he]; exact List.take_left, fun hle => ?_⟩
    cases todo with
    | nil => rw [he, List.append_nil]
    | cons op ops =>
      have hk' := hk.resolve_left (by simp)
      have h1 : (done.length + 1) * (d.length + 2) ≤ prog.length * (d.length + 2) :=
        Nat.mul_le_mul_right _ (by rw [he]; simp)
      have h2 := Nat.succ_mul done.length (d.length + 2)
      have h3 : (done.length + 1) * (d.length + 2) = done.length * (d.length + 2) + (d.length + 2) := h2
      omega
  | looking how s =>
    obtain ⟨q, n, he, hn, hk⟩ := rest
    exact mid he hk (pos hn)
  | iterating seen it =>
    obtain ⟨left, he, _, _, hk⟩ := rest
    exact mid (n := left.length + 1) he (by omega) (by omega)

theorem Reader.step_ne_ub (hb : ∀ q, E.begin q ≠ .ub) (hs : ∀ s, E.step s ≠ .ub) (r : Reader E) :
    r.step ≠ .ub := by
  have after : ∀ {α : Type} (r : Reader E) (x : Res α) (f : α → Reader E), x ≠ .ub → r.after x f ≠ .ub := by
    intro α r x f hx
    cases x <;> simp_all [Reader.after]
  unfold Reader.step
  split
  · simp
  · split
    · split
      · simp
      · exact after _ _ _ (hb _)
      · simp
      · simp
    · exact after _ _ _ (hs _)
    · split <;> simp

theorem Reader.alone_ne_ub (hb : ∀ q, E.begin q ≠ .ub) (hs : ∀ s, E.step s ≠ .ub) (n : Nat)
    (r : Reader E) : r.alone n ≠ .ub := by
  induction n generalizing r with
  | zero => simp [Reader.alone]
  | succ n ih =>
    have := r.step_ne_ub hb hs
    simp only [Reader.alone]
    cases h : r.step with
    | ok r' => simpa using ih r'
    | panic => simp
    | ub => exact absurd h this

/-- A map whose lookups end with the right answers can be shared. -/
theorem Engine.undisturbed {eq : Q → Q → Bool} {borrow : K → Q} {d : List (K × V)}
    (hf : ∀ q, E.Finds q (Dict.find eq borrow d q)) (hp : E.entries.Perm d) :
    ReadersUndisturbed E eq borrow d := by
  intro progs turns
  have start : ∀ prog, Reader.Going E eq borrow d prog 0 (Reader.new E prog) [] := fun prog =>
    ⟨.nil, (fun h => by cases h), fun _ => ⟨rfl, Or.inr (Nat.zero_le _)⟩⟩
  obtain ⟨h1, h2, h3⟩ := runThreads_alone turns (progs.map (Reader.new E))
  cases hr : runThreads turns (progs.map (Reader.new E)) with
  | panic => exact absurd hr h2
  | ub =>
    obtain ⟨i, r, hi, hu⟩ := h3 hr
    rw [List.getElem?_map, Option.map_eq_some_iff] at hi
    obtain ⟨prog, _, rfl⟩ := hi
    obtain ⟨r', _, ha, _⟩ := (start prog).alone hf hp (turns.count i)
    rw [ha] at hu
    exact absurd hu (by simp)
  | ok ts =>
    refine ⟨ts, rfl, fun i prog hprog => ?_⟩
    obtain ⟨r, hri, hra⟩ := (h1 ts hr).2 i (Reader.new E prog) (by simp [hprog])
    obtain ⟨r', done, ha, hg⟩ := (start prog).alone hf hp (turns.count i)
    rw [hra] at ha
    cases ha
    obtain ⟨ht, hpan, hfin⟩ := hg.done
    refine ⟨r, done.length, hri, by rw [ht]; exact hg.outs, hpan, fun hle => ?_⟩
    rw [ht]
    exact hfin (by simpa using hle)

/-! ### From histories -/

/-- `engine m` looks up as `A.getKeyValue m` does, and iterates over the same entries. -/
def Engine.Reads (A : MapApi M K V Q) (engine : M → Engine K V Q) : Prop :=
  ∀ m, A.iter m = MapIter.new (engine m).entries ∧ ((engine m).entries.length = A.len m →
    ∀ q o, A.getKeyValue m q = .ok o → (engine m).Finds q (o.map (fun e => (e.1, e.2.val))))

theorem Refines.after {A : MapApi M K V Q} {eq : Q → Q → Bool} {borrow : K → Q} {m : M}
    {d : List (K × V)} (h : Refines A eq borrow m d) {pre : List (MapOp V Q)} {outs outs' : List (Out K V)}
    {m' : M} {d' : List (K × V)} (hpre : A.run m pre = .ok (outs, m'))
    (hd : Dict.run eq borrow d pre = .ok (outs', d')) (op : MapOp V Q) {o : Out K V} {d'' : List (K × V)}
    (ho : Dict.step eq borrow d' op = .ok (o, d'')) :
    ∃ o' m'', A.step m' op = .ok (o', m'') ∧ o.Agree o' := by
  have h2 := h (pre ++ [op])
  rw [Dict.run_append, hd, MapApi.run_append, hpre] at h2
  simp only [Res.ok_bind, Dict.run, MapApi.run, ho, Res.pure_eq, Res.bind_eq_ok, Res.ok.injEq,
    Prod.mk.injEq] at h2
  obtain ⟨os, m'', ⟨y, ⟨z, hz, w, rfl, rfl⟩, rfl, rfl⟩, hag⟩ := h2
  exact ⟨z.1, z.2, hz, forall₂_concat hag⟩

theorem Refines.shares {A : MapApi M K V Q} {eq : Q → Q → Bool} {borrow : K → Q} {m : M}
    {d : List (K × V)} (h : Refines A eq borrow m d) {engine : M → Engine K V Q}
    (hE : Engine.Reads A engine) : SharesRefine A engine eq borrow m d := by
  intro ops outs d' hd
  have h1 := h ops
  rw [hd] at h1
  obtain ⟨outs', m', hrun, hag⟩ := h1
  have hp : (engine m').entries.Perm d' := by
    obtain ⟨o', m'', hs, ha⟩ := h.after hrun hd .iter rfl
    simp only [MapApi.step, Res.ok.injEq, Prod.mk.injEq] at hs
    obtain ⟨rfl, rfl⟩ := hs
    rw [(hE m').1, MapIter.At.fold (l := (engine m').entries) ⟨Nat.zero_le _, rfl⟩] at ha
    have := foldl_snoc (fun e : K × V => e) (engine m').entries []
    simp only [List.map_id', List.nil_append] at this
    rw [this] at ha
    exact List.Perm.symm ha
  have hl : A.len m' = d'.length := by
    obtain ⟨o', m'', hs, ha⟩ := h.after hrun hd .len rfl
    simp only [MapApi.step, Res.ok.injEq, Prod.mk.injEq] at hs
    obtain ⟨rfl, rfl⟩ := hs
    simpa [Out.Agree] using ha.symm
  refine ⟨outs', m', hrun, hag, Engine.undisturbed (fun q => ?_) hp⟩
  obtain ⟨o', m'', hs, ha⟩ := h.after hrun hd (.getKeyValue q) rfl
  simp only [MapApi.step, Res.bind_eq_ok, Res.pure_eq, Res.ok.injEq, Prod.mk.injEq] at hs
  obtain ⟨o, ho, rfl, rfl⟩ := hs
  have ha' : Dict.find eq borrow d' q = o.map (fun e => (e.1, e.2.val)) := by
    simpa [Out.Agree] using ha
  rw [ha']
  exact (hE m').2 (hp.length_eq.trans hl.symm) q o ho

/-! ### The map types -/

theorem lookOn_ends (b : Q → Res (Q × List (K × V))) (es₀ : List (K × V))
    (eq : Q → Q → Bool) (borrow : K → Q) (q : Q) (i : Nat) (es : List (K × V)) :
    ∃ n, (⟨Q × List (K × V), b, lookOn eq borrow, es₀⟩ : Engine K V Q).Ends
      ((scan eq borrow q i es).map (fun e => (e.1, e.2.val))) (q, es) n ∧ n ≤ es.length + 1 := by
  induction es generalizing i with
  | nil => exact ⟨1, .now rfl, by simp⟩
  | cons e es ih =>
    by_cases he : eq q (borrow e.1) = true
    · refine ⟨1, .now ?_, by simp⟩
      simp [lookOn, scan, he]
    · obtain ⟨n, hn, hl⟩ := ih (i + 1)
      refine ⟨n + 1, .later (s' := (q, es)) ?_ ?_, by simp only [List.length_cons]; omega⟩
      · simp [lookOn, he]
      · simpa [scan, he] using hn

theorem sliceUnchecked_length {α : Type} {l l' : List α} {a b : Nat}
    (h : sliceUnchecked l a b = .ok l') : l'.length ≤ l.length := by
  unfold sliceUnchecked at h
  split at h
  · cases h
    rw [List.length_take, List.length_drop]
    omega
  · cases h

/-- A lookup that finds a range of entries and goes through it. -/
theorem lookOn_finds (info : Q → Res (Nat × Nat)) (es₀ : List (K × V))
    (eq : Q → Q → Bool) (borrow : K → Q) (q : Q) {o : Option (K × Ref V)}
    (h : (do
      let r ← info q
      let es ← sliceUnchecked es₀ r.1 r.2
      return scan eq borrow q r.1 es : Res (Option (K × Ref V))) = .ok o) :
    (⟨Q × List (K × V), fun q => do
        let r ← info q
        let es ← sliceUnchecked es₀ r.1 r.2
        return (q, es), lookOn eq borrow, es₀⟩ : Engine K V Q).Finds q
          (o.map (fun e => (e.1, e.2.val))) := by
  simp only [Res.bind_eq_ok, Res.pure_eq, Res.ok.injEq] at h
  obtain ⟨r, hr, es, hes, rfl⟩ := h
  obtain ⟨n, hn, hle⟩ := lookOn_ends (K := K) (Q := Q) (fun q => do
        let r ← info q
        let es ← sliceUnchecked es₀ r.1 r.2
        return (q, es)) es₀ eq borrow q r.1 es
  refine ⟨(q, es), n, ?_, hn, ?_⟩
  · simp [hr, hes]
  · have := sliceUnchecked_length hes
    show n ≤ es₀.length + 1
    omega

theorem Engine.Ends.via {K' Q' : Type} {E : Engine K' V Q'} {o : Option (K' × V)} {s : E.State} {n : Nat}
    (h : E.Ends o s n) (toQ : Q → Q') (found : Option (K' × V) → Option (K × V)) (es : List (K × V)) :
    (E.via toQ found es : Engine K V Q).Ends (found o) s n := by
  induction h with
  | now hs => exact .now (by show Res.map _ (E.step _) = _; rw [hs]; rfl)
  | later hs _ ih => exact .later (by show Res.map _ (E.step _) = _; rw [hs]; rfl) ih

theorem Engine.Finds.via {K' Q' : Type} {E : Engine K' V Q'} {o : Option (K' × V)} {toQ : Q → Q'} {q : Q}
    (h : E.Finds (toQ q) o) (found : Option (K' × V) → Option (K × V)) {es : List (K × V)}
    (hl : es.length = E.entries.length) : (E.via toQ found es : Engine K V Q).Finds q (found o) := by
  obtain ⟨s, n, h1, h2, h3⟩ := h
  exact ⟨s, n, h1, h2.via toQ found es, by show n ≤ es.length + 1; omega⟩

theorem scanning_reads (P : Probe K Q) :
    Engine.Reads (scanningApi P) (fun m : ScanningMap K V => m.engine P) := by
  refine fun m => ⟨rfl, fun _ q o h => ?_⟩
  simp only [scanningApi, ScanningMap.getKeyValue, Res.ok.injEq] at h
  subst h
  obtain ⟨n, hn, hle⟩ := lookOn_ends (K := K) (Q := Q) (fun q => .ok (q, m.entries)) m.entries P.eq
    P.borrow q 0 m.entries
  exact ⟨(q, m.entries), n, rfl, hn, hle⟩

theorem common_reads (P : Probe K Q) :
    Engine.Reads (commonApi P) (fun m : CommonMap K V => m.engine P) :=
  fun m => ⟨rfl, fun _ q _ h => lookOn_finds (m.getHashInfo P) m.table.entries P.eq P.borrow q h⟩

theorem integer_reads :
    Engine.Reads integerApi (fun m : IntegerMap V => m.engine) :=
  fun m => ⟨rfl, fun _ q _ h => lookOn_finds m.getHashInfo m.table.entries _ _ q h⟩

theorem length_reads (borrow : K → Q) (eq : Q → Q → Bool) (lenQ : Q → Nat) :
    Engine.Reads (lengthApi borrow eq lenQ) (fun m : LengthMap K V => m.engine borrow eq lenQ) :=
  fun m => ⟨rfl, fun _ q _ h => lookOn_finds (m.getHashInfo lenQ) m.table.entries _ _ q h⟩

theorem left_reads : Engine.Reads leftApi (fun m : LeftSliceMap V => m.engine) :=
  fun m => ⟨rfl, fun _ q _ h => lookOn_finds m.getHashInfo m.table.entries _ _ q h⟩

variable [Target]

theorem right_reads (oc : Bool) : Engine.Reads (rightApi oc) (fun m : RightSliceMap V => m.engine oc) :=
  fun m => ⟨rfl, fun _ q _ h => lookOn_finds (m.getHashInfo oc) m.table.entries _ _ q h⟩

theorem range_reads (oc : Bool) (t : IntTy) :
    Engine.Reads (rangeApi oc t) (fun m : IntegerRangeMap V => m.engine oc t) := by
  refine fun m => ⟨rfl, fun _ q o h => ?_⟩
  simp only [rangeApi, IntegerRangeMap.getKeyValue, Res.bind_eq_ok] at h
  obtain ⟨p, hp, h⟩ := h
  refine ⟨p, 1, hp, .now ?_, by omega⟩
  cases p with
  | none => cases h; rfl
  | some i =>
    simp only [Res.bind_eq_ok, Res.pure_eq, Res.ok.injEq] at h
    obtain ⟨e, he, rfl⟩ := h
    show (do let e ← m.entryAt i; return Sum.inl (some (e.1, e.2.val))) = _
    rw [he]
    rfl

theorem IntegerRangeMap.begin_ne_ub (oc : Bool) (t : IntTy) (m : IntegerRangeMap V) (q : Int) :
    (m.engine oc t).begin q ≠ .ub := by
  show m.position oc t q ≠ .ub
  have ha : t.arith oc (q - m.min) ≠ .ub := by
    unfold IntTy.arith
    repeat' split
    all_goals simp
  unfold IntegerRangeMap.position
  cases h : t.arith oc (q - m.min) <;> simp_all <;> split <;> simp

theorem IntegerRangeMap.step_ne_ub (oc : Bool) (t : IntTy) (m : IntegerRangeMap V)
    (s : (m.engine oc t).State) : (m.engine oc t).step s ≠ .ub := by
  cases s with
  | none => exact fun h => by cases h
  | some i =>
    show (do let e ← m.entryAt i; return Sum.inl (some (e.1, e.2.val)) : Res _) ≠ .ub
    unfold IntegerRangeMap.entryAt
    cases m.entries[i]? <;> simp

omit [Target] in
theorem KeyTy.ofIntFound_eq (ty : KeyTy K) (r : Option (Int × Ref V)) :
    (ty.ofIntKV r).map (fun e => (e.1, e.2.val)) = ty.ofIntFound (r.map (fun e => (e.1, e.2.val))) := by
  unfold KeyTy.ofIntKV KeyTy.ofIntFound
  cases ty.kind <;> cases r <;> rfl

omit [Target] in
theorem KeyTy.ofBFound_eq (ty : KeyTy K) (r : Option (Bytes × Ref V)) :
    (ty.ofBKV r).map (fun e => (e.1, e.2.val)) = ty.ofBFound (r.map (fun e => (e.1, e.2.val))) := by
  unfold KeyTy.ofBKV KeyTy.ofBFound
  cases ty.kind <;> cases r <;> rfl

theorem frozen_reads (env : Env) (ty : KeyTy K) :
    Engine.Reads (frozenApi env ty) (fun m : FrozenMap K V => m.engine env ty) := by
  intro m
  refine ⟨by cases m <;> rfl, fun hl q o h => ?_⟩
  have int : ∀ {M : Type} {A : MapApi M Int V Int} {engine : M → Engine Int V Int} {m' : M},
      Engine.Reads A engine → (engine m').entries.length = A.len m' → ∀ {es : List (K × V)},
      es.length = (engine m').entries.length →
      (A.getKeyValue m' (ty.toInt q)).map ty.ofIntKV = .ok o →
      ((engine m').via ty.toInt ty.ofIntFound es : Engine K V K).Finds q
        (o.map (fun e => (e.1, e.2.val))) := by
    intro M A engine m' hr h1 es h2 h3
    cases hg : A.getKeyValue m' (ty.toInt q) with
    | ok r =>
      rw [hg] at h3
      cases h3
      rw [KeyTy.ofIntFound_eq]
      exact ((hr m').2 h1 _ _ hg).via ty.ofIntFound h2
    | panic => rw [hg] at h3; cases h3
    | ub => rw [hg] at h3; cases h3
  have str : ∀ {M : Type} {A : MapApi M Bytes V Bytes} {engine : M → Engine Bytes V Bytes} {m' : M},
      Engine.Reads A engine → (engine m').entries.length = A.len m' → ∀ {es : List (K × V)},
      es.length = (engine m').entries.length →
      (A.getKeyValue m' (ty.toB q)).map ty.ofBKV = .ok o →
      ((engine m').via ty.toB ty.ofBFound es : Engine K V K).Finds q
        (o.map (fun e => (e.1, e.2.val))) := by
    intro M A engine m' hr h1 es h2 h3
    cases hg : A.getKeyValue m' (ty.toB q) with
    | ok r =>
      rw [hg] at h3
      cases h3
      rw [KeyTy.ofBFound_eq]
      exact ((hr m').2 h1 _ _ hg).via ty.ofBFound h2
    | panic => rw [hg] at h3; cases h3
    | ub => rw [hg] at h3; cases h3
  cases m with
  | scanning m => exact (scanning_reads ty.probe m).2 rfl q o h
  | commonSmall m => exact (common_reads ty.probe m).2 rfl q o h
  | commonLarge m => exact (common_reads ty.probe m).2 rfl q o h
  | u32Small m => exact int integer_reads rfl hl h
  | u32Large m => exact int integer_reads rfl hl h
  | u32Range m => exact int (range_reads env.oc IntTy.u32) rfl hl h
  | leftSmall m => exact str left_reads rfl hl h
  | leftLarge m => exact str left_reads rfl hl h
  | rightSmall m => exact str (right_reads env.oc) rfl hl h
  | rightLarge m => exact str (right_reads env.oc) rfl hl h
  | lengthSmall m => exact str (length_reads id beq List.length) rfl hl h

end FC
