import Verif.Lemmas.UserThreads

/-
A thread that has the machine for itself does what the operations do one after the other.
-/

set_option autoImplicit false

namespace FC
variable {σ K V Q : Type}

/-- So many steps of one thread. -/
def UReader.steps (u : UserCode σ K Q) (m : UMap K V) : Nat → UReader K V Q → Call σ (UReader K V Q)
  | 0, r => pure r
  | n + 1, r => do
    let r' ← r.step u m
    UReader.steps u m n r'

theorem UMap.share_single (u : UserCode σ K Q) (m : UMap K V) (n : Nat) : ∀ (r : UReader K V Q) (s : σ),
    m.share u (List.replicate n (.thread 0)) [r] s
      = (r.steps u m n s).map (fun x => ([x.1], x.2)) := by
  induction n with
  | zero => exact fun r s => rfl
  | succ n ih =>
    intro r s
    show Res.bind (r.step u m s) _ = Res.map _ (Res.bind (r.step u m s) _)
    cases r.step u m s with
    | ok a => exact ih a.1 a.2
    | panic => rfl
    | ub => rfl

theorem UReader.steps_dead (u : UserCode σ K Q) (m : UMap K V) (n : Nat) {r : UReader K V Q}
    (hr : r.panicked = true) (s : σ) : r.steps u m n s = .ok (r, s) := by
  induction n with
  | zero => rfl
  | succ n ih =>
    unfold UReader.steps
    rw [Call.bind_apply]
    unfold UReader.step
    rw [if_pos hr]
    exact ih

theorem UReader.steps_done (u : UserCode σ K Q) (m : UMap K V) (n : Nat) (outs : List (Out K V))
    (b : Bool) (s : σ) :
    UReader.steps u m n (⟨[], .nothing, outs, b⟩ : UReader K V Q) s
      = .ok (⟨[], .nothing, outs, b⟩, s) := by
  induction n with
  | zero => rfl
  | succ n ih =>
    unfold UReader.steps
    rw [Call.bind_apply]
    cases b with
    | true => exact ih
    | false => exact ih

/-- What the thread does, given what the lookup does. -/
def UReader.Follows {α : Type} (u : UserCode σ K Q) (m : UMap K V) (how : Lookup) (B : Nat)
    (f : α → Option (K × V)) (ops : List (SharedOp Q)) (outs : List (Out K V))
    (x : Res (UReader K V Q × σ)) (y : Res (α × σ)) : Prop :=
  match y with
  | .ok (o, s') =>
    match how.answer (f o) with
    | some out => ∃ N', B ≤ N' ∧ x = UReader.steps u m N' ⟨ops, .nothing, outs ++ [out], false⟩ s'
    | none => ∃ t, t.panicked = true ∧ x = .ok (t, s')
  | .panic => ∃ t s', t.panicked = true ∧ x = .ok (t, s')
  | .ub => x = .ub

theorem UMap.turn_cons (u : UserCode σ K Q) (q : Q) (e : K × V) (es : List (K × V)) (s : σ) :
    UMap.turn u q (e :: es) s = match u.isMatch q e.1 s with
      | .ok b => .ok (if b.1 then .inl (some e) else .inr es, b.2)
      | .panic => .panic
      | .ub => .ub := by
  show Res.bind (u.isMatch q e.1 s) _ = _
  cases u.isMatch q e.1 s with
  | ok b =>
    obtain ⟨b, s'⟩ := b
    cases b <;> rfl
  | panic => rfl
  | ub => rfl

theorem UReader.steps_looking (u : UserCode σ K Q) (m : UMap K V) (how : Lookup) (q : Q)
    (ops : List (SharedOp Q)) (outs : List (Out K V)) (B : Nat) (es : List (K × V)) :
    ∀ (N i : Nat) (s : σ), B + es.length + 1 ≤ N →
      UReader.Follows u m how B (Option.map (fun e => (e.1, e.2.val))) ops outs
        (UReader.steps u m N ⟨ops, .looking how q es, outs, false⟩ s) (UMap.scan u q i es s) := by
  induction es with
  | nil =>
    intro N i s hN
    cases N with
    | zero => simp at hN
    | succ N =>
      unfold UReader.Follows UMap.scan
      have hstep : UReader.steps u m (N + 1) (⟨ops, .looking how q [], outs, false⟩ : UReader K V Q) s
          = UReader.steps u m N (match how.answer (K := K) (V := V) none with
            | some out => ⟨ops, .nothing, outs ++ [out], false⟩
            | none => ⟨ops, .looking how q [], outs, true⟩) s := rfl
      rw [hstep]
      simp only [Call.pure_apply, Option.map_none]
      cases how.answer (K := K) (V := V) none with
      | none => exact ⟨_, rfl, UReader.steps_dead u m N rfl s⟩
      | some out => exact ⟨N, by simp at hN; omega, rfl⟩
  | cons e es ih =>
    intro N i s hN
    cases N with
    | zero => simp at hN
    | succ N =>
      have hscan : UMap.scan u q i (e :: es) s = (u.isMatch q e.1 s).bind (fun b =>
          if b.1 then .ok (some (e.1, ⟨i, e.2⟩), b.2) else UMap.scan u q (i + 1) es b.2) := by
        show Res.bind (u.isMatch q e.1 s) _ = _
        cases u.isMatch q e.1 s with
        | ok b =>
          obtain ⟨b, s'⟩ := b
          cases b <;> rfl
        | panic => rfl
        | ub => rfl
      have hstep : UReader.steps u m (N + 1) (⟨ops, .looking how q (e :: es), outs, false⟩ : UReader K V Q) s
          = match u.isMatch q e.1 s with
            | .ok b =>
              if b.1 then UReader.steps u m N (match how.answer (some e) with
                | some out => ⟨ops, .nothing, outs ++ [out], false⟩
                | none => ⟨ops, .looking how q (e :: es), outs, true⟩) b.2
              else UReader.steps u m N ⟨ops, .looking how q es, outs, false⟩ b.2
            | .panic => UReader.steps u m N ⟨ops, .looking how q (e :: es), outs, true⟩ s
            | .ub => .ub := by
        show Res.bind (UReader.step u m _ s) _ = _
        have : UReader.step u m (⟨ops, .looking how q (e :: es), outs, false⟩ : UReader K V Q) s
            = match u.isMatch q e.1 s with
              | .ok b =>
                if b.1 then .ok (match how.answer (some e) with
                  | some out => ⟨ops, .nothing, outs ++ [out], false⟩
                  | none => ⟨ops, .looking how q (e :: es), outs, true⟩, b.2)
                else .ok (⟨ops, .looking how q es, outs, false⟩, b.2)
              | .panic => .ok (⟨ops, .looking how q (e :: es), outs, true⟩, s)
              | .ub => .ub := by
          show UReader.after _ (UMap.turn u q (e :: es)) _ s = _
          unfold UReader.after
          rw [UMap.turn_cons]
          cases u.isMatch q e.1 s with
          | ok b =>
            obtain ⟨b, s'⟩ := b
            cases b <;> rfl
          | panic => rfl
          | ub => rfl
        rw [this]
        cases u.isMatch q e.1 s with
        | ok b =>
          obtain ⟨b, s'⟩ := b
          cases b <;> rfl
        | panic => rfl
        | ub => rfl
      rw [hscan, hstep]
      cases u.isMatch q e.1 s with
      | ok b =>
        obtain ⟨b, s'⟩ := b
        cases b with
        | false =>
          exact ih N (i + 1) s' (by simp only [List.length_cons] at hN; omega)
        | true =>
          show match how.answer (some e) with
            | some out => _
            | none => _
          simp only [if_true]
          cases how.answer (some e) with
          | none => exact ⟨_, rfl, UReader.steps_dead u m N rfl s'⟩
          | some out => exact ⟨N, by simp only [List.length_cons] at hN; omega, rfl⟩
      | panic => exact ⟨_, _, rfl, UReader.steps_dead u m N rfl s⟩
      | ub => rfl

theorem UReader.steps_iterating (u : UserCode σ K Q) (m : UMap K V) (ops : List (SharedOp Q))
    (outs : List (Out K V)) (B : Nat) (left : List (K × V)) :
    ∀ (N : Nat) (seen : List (K × V)) (it : MapIter K V) (s : σ), it.At left → B + left.length + 1 ≤ N →
      ∃ N', B ≤ N' ∧ UReader.steps u m N (⟨ops, .iterating seen it, outs, false⟩ : UReader K V Q) s
        = UReader.steps u m N' ⟨ops, .nothing, outs ++ [.items (seen ++ left)], false⟩ s := by
  induction left with
  | nil =>
    intro N seen it s hat hN
    cases N with
    | zero => simp at hN
    | succ N =>
      refine ⟨N, by simp at hN; omega, ?_⟩
      have : it.next = (none, it.next.2) := Prod.ext hat.next.1 rfl
      unfold UReader.steps
      rw [Call.bind_apply]
      unfold UReader.step
      simp only
      rw [this, List.append_nil]
      cases N <;> rfl
  | cons e left ih =>
    intro N seen it s hat hN
    cases N with
    | zero => simp at hN
    | succ N =>
      obtain ⟨N', h1, h2⟩ := ih N (seen ++ [e]) it.next.2 s hat.next.2
        (by simp only [List.length_cons] at hN; omega)
      refine ⟨N', h1, ?_⟩
      have : it.next = (some e, it.next.2) := Prod.ext hat.next.1 rfl
      rw [show seen ++ e :: left = seen ++ [e] ++ left by simp, ← h2]
      show Res.bind (UReader.step u m _ s) _ = _
      unfold UReader.step
      simp only
      rw [this]
      rfl

/-- A lookup is its first step and the loop. -/
theorem UMap.lookup_start (u : UserCode σ K Q) (m : UMap K V) (q : Q) (s : σ) :
    match m.start u q s with
    | .ok x => x.1.length ≤ m.entries.length ∧ ∃ j, m.lookup u q s = UMap.scan u q j x.1 x.2
    | .panic => m.lookup u q s = .panic
    | .ub => m.lookup u q s = .ub := by
  cases m with
  | scanning es => exact ⟨Nat.le_refl _, 0, rfl⟩
  | hashed T =>
    have h1 : UMap.start u (.hashed T) q s = (u.probeCode q s).bind (fun c =>
        (T.getHashInfo c.1).bind (fun r => (sliceUnchecked T.entries r.1 r.2).bind (fun es =>
          .ok (es, c.2)))) := by
      unfold UMap.start
      simp only [Call.bind_apply]
      cases u.probeCode q s with
      | ok c =>
        show Res.bind (Res.map _ (T.getHashInfo c.1)) _ = Res.bind (T.getHashInfo c.1) _
        cases T.getHashInfo c.1 with
        | ok r =>
          show Res.map _ (sliceUnchecked T.entries r.1 r.2) = Res.bind (sliceUnchecked T.entries r.1 r.2) _
          cases sliceUnchecked T.entries r.1 r.2 <;> rfl
        | panic => rfl
        | ub => rfl
      | panic => rfl
      | ub => rfl
    have h2 : UMap.lookup u (.hashed T) q s = (u.probeCode q s).bind (fun c =>
        (T.getHashInfo c.1).bind (fun r => (sliceUnchecked T.entries r.1 r.2).bind (fun es =>
          UMap.scan u q r.1 es c.2))) := by
      unfold UMap.lookup
      simp only [Call.bind_apply]
      cases u.probeCode q s with
      | ok c =>
        show Res.bind (Res.map _ (T.getHashInfo c.1)) _ = Res.bind (T.getHashInfo c.1) _
        cases T.getHashInfo c.1 with
        | ok r =>
          show Res.bind (Res.map _ (sliceUnchecked T.entries r.1 r.2)) _
            = Res.bind (sliceUnchecked T.entries r.1 r.2) _
          cases sliceUnchecked T.entries r.1 r.2 <;> rfl
        | panic => rfl
        | ub => rfl
      | panic => rfl
      | ub => rfl
    rw [h1, h2]
    cases u.probeCode q s with
    | ok c =>
      cases hg : T.getHashInfo c.1 with
      | ok r =>
        cases hs : sliceUnchecked T.entries r.1 r.2 with
        | ok es =>
          simp only [Res.bind, hg, hs]
          refine ⟨?_, r.1, rfl⟩
          unfold sliceUnchecked at hs
          split at hs
          · cases hs
            show _ ≤ T.entries.length
            simp
          · cases hs
        | panic => simp only [Res.bind, hg, hs]
        | ub => simp only [Res.bind, hg, hs]
      | panic => simp only [Res.bind, hg]
      | ub => simp only [Res.bind, hg]
    | panic => rfl
    | ub => rfl

theorem UMap.step_look (u : UserCode σ K Q) (m : UMap K V) (how : Lookup) (q : Q) (s : σ) :
    m.step u (SharedOp.look how q).toMapOp s = (m.lookup u q s).bind (fun x =>
      match how.answer (x.1.map (fun e => (e.1, e.2.val))) with
      | some out => .ok ((out, m), x.2)
      | none => .panic) := by
  cases how <;>
  · show Res.bind (m.lookup u q s) _ = _
    cases m.lookup u q s with
    | ok x => obtain ⟨o, s'⟩ := x; cases o <;> rfl
    | panic => rfl
    | ub => rfl

/-- A whole program. -/
theorem UReader.steps_run (u : UserCode σ K Q) (m : UMap K V) (prog : List (SharedOp Q)) :
    ∀ (N : Nat) (outs : List (Out K V)) (s : σ), prog.length * (m.entries.length + 2) ≤ N →
      match m.run u (prog.map SharedOp.toMapOp) s with
      | .ok r => r.1.2 = m ∧ UReader.steps u m N ⟨prog, .nothing, outs, false⟩ s
          = .ok (⟨[], .nothing, outs ++ r.1.1, false⟩, r.2)
      | .panic => ∃ t s', t.panicked = true ∧
          UReader.steps u m N ⟨prog, .nothing, outs, false⟩ s = .ok (t, s')
      | .ub => UReader.steps u m N ⟨prog, .nothing, outs, false⟩ s = .ub := by
  induction prog with
  | nil =>
    intro N outs s _
    refine ⟨rfl, ?_⟩
    rw [UReader.steps_done]
    show _ = Res.ok (UReader.mk [] .nothing (outs ++ []) false, s)
    rw [List.append_nil]
  | cons op prog ih =>
    intro N outs s hN
    have hN' : prog.length * (m.entries.length + 2) + m.entries.length + 2 ≤ N := by
      rw [List.length_cons, Nat.add_one_mul] at hN; omega
    cases N with
    | zero => omega
    | succ N =>
    have hrun : ∀ x, m.step u op.toMapOp s = .ok x → x.1.2 = m →
        m.run u ((op :: prog).map SharedOp.toMapOp) s
          = (m.run u (prog.map SharedOp.toMapOp) x.2).bind (fun r => .ok ((x.1.1 :: r.1.1, r.1.2), r.2)) := by
      intro x hx hm
      show Res.bind (m.step u op.toMapOp s) _ = _
      rw [hx, ← hm]
      rfl
    have go : ∀ x N', m.step u op.toMapOp s = .ok x → x.1.2 = m →
        prog.length * (m.entries.length + 2) ≤ N' →
        UReader.steps u m (N + 1) ⟨op :: prog, .nothing, outs, false⟩ s
          = UReader.steps u m N' ⟨prog, .nothing, outs ++ [x.1.1], false⟩ x.2 →
        match m.run u ((op :: prog).map SharedOp.toMapOp) s with
        | .ok r => r.1.2 = m ∧ UReader.steps u m (N + 1) ⟨op :: prog, .nothing, outs, false⟩ s
            = .ok (⟨[], .nothing, outs ++ r.1.1, false⟩, r.2)
        | .panic => ∃ t s', t.panicked = true ∧
            UReader.steps u m (N + 1) ⟨op :: prog, .nothing, outs, false⟩ s = .ok (t, s')
        | .ub => UReader.steps u m (N + 1) ⟨op :: prog, .nothing, outs, false⟩ s = .ub := by
      intro x N' hx hm hle he
      rw [hrun x hx hm, he]
      have := ih N' (outs ++ [x.1.1]) x.2 hle
      revert this
      cases m.run u (prog.map SharedOp.toMapOp) x.2 with
      | ok r =>
        rintro ⟨h1, h2⟩
        refine ⟨h1, ?_⟩
        rw [h2]
        simp
      | panic => exact id
      | ub => exact id
    cases op with
    | len => exact go ((.number m.len, m), s) N rfl rfl (by omega) rfl
    | iter =>
      obtain ⟨N', h1, h2⟩ := UReader.steps_iterating u m prog outs (prog.length * (m.entries.length + 2))
        m.entries N [] (MapIter.new m.entries) s ⟨Nat.zero_le _, rfl⟩ (by omega)
      exact go ((.items m.entries, m), s) N' rfl rfl h1 h2
    | look how q =>
      have hstep : UReader.steps u m (N + 1) (⟨.look how q :: prog, .nothing, outs, false⟩ : UReader K V Q) s
          = match m.start u q s with
            | .ok x => UReader.steps u m N ⟨prog, .looking how q x.1, outs, false⟩ x.2
            | .panic => UReader.steps u m N ⟨.look how q :: prog, .nothing, outs, true⟩ s
            | .ub => .ub := by
        show Res.bind (UReader.after _ (m.start u q) _ s) _ = _
        unfold UReader.after
        cases m.start u q s with
        | ok x => rfl
        | panic => rfl
        | ub => rfl
      have hl := UMap.lookup_start u m q s
      have hsl := UMap.step_look u m how q s
      cases hst : m.start u q s with
      | ok x =>
        rw [hst] at hl hstep
        simp only at hl hstep
        obtain ⟨hlen, j, hl⟩ := hl
        have hf := UReader.steps_looking u m how q prog outs (prog.length * (m.entries.length + 2)) x.1
          N j x.2 (by omega)
        rw [← hl, ← hstep] at hf
        have hrun0 : m.run u ((SharedOp.look how q :: prog).map SharedOp.toMapOp) s
            = (m.step u (SharedOp.look how q).toMapOp s).bind (fun x => _) := rfl
        unfold UReader.Follows at hf
        cases hlk : m.lookup u q s with
        | ok y =>
          rw [hlk] at hf hsl
          simp only [Res.bind] at hf hsl
          cases ha : how.answer (y.1.map (fun e => (e.1, e.2.val))) with
          | some out =>
            rw [ha] at hf hsl
            obtain ⟨N', h1, h2⟩ := hf
            exact go ((out, m), y.2) N' hsl rfl h1 h2
          | none =>
            rw [ha] at hf hsl
            rw [hrun0, hsl]
            obtain ⟨t, h1, h2⟩ := hf
            exact ⟨t, y.2, h1, h2⟩
        | panic =>
          rw [hlk] at hf hsl
          rw [hrun0, hsl]
          exact hf
        | ub =>
          rw [hlk] at hf hsl
          rw [hrun0, hsl]
          exact hf
      | panic =>
        rw [hst] at hl hstep
        have hrun0 : m.run u ((SharedOp.look how q :: prog).map SharedOp.toMapOp) s
            = (m.step u (SharedOp.look how q).toMapOp s).bind (fun x => _) := rfl
        rw [hl] at hsl
        rw [hrun0, hsl, hstep]
        exact ⟨_, _, rfl, UReader.steps_dead u m N rfl s⟩
      | ub =>
        rw [hst] at hl hstep
        have hrun0 : m.run u ((SharedOp.look how q :: prog).map SharedOp.toMapOp) s
            = (m.step u (SharedOp.look how q).toMapOp s).bind (fun x => _) := rfl
        rw [hl] at hsl
        rw [hrun0, hsl, hstep]
        rfl

end FC
