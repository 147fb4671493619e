import Verif.Lemmas.StringCode
import Verif.Lemmas.IntTraits
import Verif.Spec.Catch

/-
Lemmas about histories in which panics are caught.
-/

set_option autoImplicit false

namespace FC
variable {σ M K V Q α β : Type}

/-- From every map satisfying `OK`: no undefined behaviour unless `u`; a return satisfies `post`, a panic
`pan`, each with the map as it is then. -/
def HBehaves (u : Prop) (c : Holding σ M α) (m : M) (post : α → M → Prop) (pan : M → Prop) : Prop :=
  ∀ s, match c m s with
    | .done a m' _ => post a m'
    | .panicked m' => pan m'
    | .ub => u

theorem HBehaves.pure {u : Prop} {a : α} {m : M} {post : α → M → Prop} {pan : M → Prop} (h : post a m) :
    HBehaves u (Pure.pure a : Holding σ M α) m post pan := fun _ => h

theorem HBehaves.bind {u : Prop} {c : Holding σ M α} {f : α → Holding σ M β} {m : M}
    {post : α → M → Prop} {post' : β → M → Prop} {pan : M → Prop} (h : HBehaves u c m post pan)
    (hf : ∀ a m', post a m' → HBehaves u (f a) m' post' pan) : HBehaves u (c >>= f) m post' pan := by
  intro s
  have := h s
  show match (match c m s with
    | .done a m' s' => f a m' s'
    | .panicked m' => .panicked m'
    | .ub => .ub : Landed σ M β) with
    | .done a m' _ => post' a m'
    | .panicked m' => pan m'
    | .ub => u
  cases e : c m s with
  | done a m' s' => rw [e] at this; exact hf a m' this s'
  | panicked m' => rw [e] at this; exact this
  | ub => rw [e] at this; exact this

theorem HBehaves.mono {u u' : Prop} {c : Holding σ M α} {m : M} {post post' : α → M → Prop}
    {pan pan' : M → Prop} (h : HBehaves u c m post pan) (hu : u → u') (hpost : ∀ a m', post a m' → post' a m')
    (hpan : ∀ m', pan m' → pan' m') : HBehaves u' c m post' pan' := by
  intro s
  have := h s
  cases e : c m s with
  | done a m' s' => rw [e] at this; exact hpost _ _ this
  | panicked m' => rw [e] at this; exact hpan _ this
  | ub => rw [e] at this; exact hu this

theorem HBehaves.read {u p : Prop} {c : M → Call σ α} {m : M} {post : α → Prop} {pan : M → Prop}
    (h : Behaves u p (c m) post) (hp : p → pan m) :
    HBehaves u (Holding.read c) m (fun a m' => m' = m ∧ post a) pan := by
  intro s
  have := h s
  show match (match c m s with
    | .ok r => .done r.1 m r.2
    | .panic => .panicked m
    | .ub => .ub : Landed σ M α) with
    | .done a m' _ => m' = m ∧ post a
    | .panicked m' => pan m'
    | .ub => u
  cases e : c m s with
  | ok r => rw [e] at this; exact ⟨rfl, this⟩
  | panic => rw [e] at this; exact hp this
  | ub => rw [e] at this; exact this

section
variable {A : CallApi σ M K V Q} {OK : M → Prop} {U p W : Prop} {R : Q → K → Prop}
  {At : M → Q → Nat → Prop} {D : Q → Q → Prop}

/-- Writing some, perhaps not all. -/
theorem CallApi.Sound.writeAll (h : A.Sound OK U p R At D W) (l : List (Ref V × V)) (stop : Option Nat)
    {m : M} (hm : OK m) {u : Prop} :
    HBehaves u (A.writeAll l stop) m
      (fun _ m' => stop = none ∧ OK m' ∧ A.entries m'
        = (l.map (fun rv => (rv.1.idx, rv.2))).foldl (fun d iv => Loose.assign d iv.1 iv.2) (A.entries m))
      (fun m' => ∃ n, stop = some n ∧ OK m' ∧ A.entries m' = ((l.map (fun rv => (rv.1.idx, rv.2))).take n).foldl
        (fun d iv => Loose.assign d iv.1 iv.2) (A.entries m)) := by
  induction l generalizing m stop with
  | nil =>
    rcases stop with _ | _ | n
    · exact .pure ⟨rfl, hm, rfl⟩
    · exact fun _ => ⟨0, rfl, hm, rfl⟩
    · exact fun _ => ⟨n + 1, rfl, hm, rfl⟩
  | cons rv l ih =>
    have main : ∀ stop' : Option Nat, HBehaves u (do
        A.assign rv.1.idx rv.2
        A.writeAll l stop') m
        (fun _ m' => stop' = none ∧ OK m' ∧ A.entries m' = ((rv :: l).map (fun rv => (rv.1.idx, rv.2))).foldl
          (fun d iv => Loose.assign d iv.1 iv.2) (A.entries m))
        (fun m' => ∃ n, stop' = some n ∧ OK m' ∧ A.entries m' =
          (((rv :: l).map (fun rv => (rv.1.idx, rv.2))).take (n + 1)).foldl
            (fun d iv => Loose.assign d iv.1 iv.2) (A.entries m)) := by
      intro stop'
      refine HBehaves.bind (post := fun _ m' => m' = A.write m rv.1.idx rv.2) (fun _ => rfl) ?_
      rintro _ _ rfl
      refine (ih stop' (h.write m rv.1.idx rv.2 hm)).mono id ?_ ?_
      · rintro _ m' ⟨h1, h2, h3⟩
        exact ⟨h1, h2, by rw [h3, h.entries]; rfl⟩
      · rintro m' ⟨n, h1, h2, h3⟩
        exact ⟨n, h1, h2, by rw [h3, h.entries]; rfl⟩
    rcases stop with _ | _ | n
    · exact (main none).mono id (fun _ _ h => h) (by rintro m' ⟨n, h, -⟩; cases h)
    · exact fun _ => ⟨0, rfl, hm, rfl⟩
    · refine (main (some n)).mono id (by rintro _ _ ⟨h, -⟩; cases h) ?_
      rintro m' ⟨n', h1, h2, h3⟩
      cases h1
      exact ⟨n + 1, rfl, h2, h3⟩

theorem CallApi.Sound.getManyMut (h : A.Sound OK U p R At D W) {m : M} (hm : OK m) (qs : List Q) :
    Behaves U p (A.getManyMut m qs)
      (fun o => ∀ rs ∈ o, List.Forall₂ (fun q r => ∃ k, (A.entries m)[r.idx]? = some (k, r.val) ∧
        R q k ∧ At m q r.idx) qs rs ∧ (¬ (rs.map Ref.idx).Nodup → W ∧ 2 ≤ qs.length)) := by
  unfold CallApi.getManyMut
  refine (h.hasDup qs []).bind fun b hb => .ite (fun _ => .pure (by simp)) fun hb' => ?_
  refine (h.getAll hm qs).mono id id fun o ho rs hrs => ⟨ho rs hrs, fun hn => ?_⟩
  exact h.nodup hm (by simpa using hb (by simpa using hb') .nil) (ho rs hrs) hn

theorem CallApi.Sound.attempt (h : A.Sound OK U p R At D W) {m : M} (hm : OK m) (x : Attempt V Q) :
    HBehaves (U ∨ (W ∧ x.op.isMany)) (A.attempt x) m
      (fun out m' => OK m' ∧ Loose.Caught R p (A.entries m) x (some out) (A.entries m'))
      (fun m' => OK m' ∧ Loose.Caught R p (A.entries m) x none (A.entries m')) := by
  obtain ⟨op, stop⟩ := x
  have hl : ∀ q, HBehaves (U ∨ (W ∧ op.isMany)) (Holding.read (A.lookup · q)) m
      (fun o m' => m' = m ∧ ∀ r ∈ o, (A.entries m)[r.2.idx]? = some (r.1, r.2.val) ∧ R q r.1)
      (fun m' => OK m' ∧ Loose.Caught R p (A.entries m) ⟨op, stop⟩ none (A.entries m')) :=
    fun q => HBehaves.read (c := (A.lookup · q))
      ((h.lookup m hm q).mono Or.inl id (fun _ h r hr => ⟨(h r hr).1, (h r hr).2.1⟩))
      (fun hp => ⟨hm, .nothing (Or.inl hp)⟩)
  -- nothing to write
  have idle : ∀ out, Loose.Step R (A.entries m) op out (A.entries m) →
      HBehaves (U ∨ (W ∧ op.isMany)) (do A.writeAll [] stop; return out : Holding σ M (Out K V)) m
        (fun out m' => OK m' ∧ Loose.Caught R p (A.entries m) ⟨op, stop⟩ (some out) (A.entries m'))
        (fun m' => OK m' ∧ Loose.Caught R p (A.entries m) ⟨op, stop⟩ none (A.entries m')) := by
    intro out hout
    refine HBehaves.bind ((h.writeAll [] stop hm).mono id (fun _ _ h => h) ?_) ?_
    · rintro m' ⟨n, rfl, h2, h3⟩
      simp only [List.map_nil, List.take_nil, List.foldl_nil] at h3
      exact ⟨h2, by rw [h3]; exact .nothing (Or.inr (Or.inr rfl))⟩
    · rintro _ m' ⟨rfl, h2, h3⟩
      simp only [List.map_nil, List.foldl_nil] at h3
      exact .pure ⟨h2, by rw [h3]; exact .returned hout⟩
  have plain : (∀ s r, A.step m op s = .ok r → r.1.2 = m) →
      HBehaves (U ∨ (W ∧ op.isMany))
        (do let out ← Holding.read (A.show op); A.writeAll [] stop; return out : Holding σ M (Out K V)) m
        (fun out m' => OK m' ∧ Loose.Caught R p (A.entries m) ⟨op, stop⟩ (some out) (A.entries m'))
        (fun m' => OK m' ∧ Loose.Caught R p (A.entries m) ⟨op, stop⟩ none (A.entries m')) := by
    intro hsame
    have hshow : Behaves (U ∨ (W ∧ op.isMany)) (p ∨ op.isIndex) (A.show op m)
        (fun out => Loose.Step R (A.entries m) op out (A.entries m)) := by
      intro s
      have h1 := h.step hm op s
      have h2 := hsame s
      unfold CallApi.show
      rw [Call.bind_apply]
      cases e : A.step m op s with
      | ok r =>
        rw [e] at h1
        have h4 : Loose.Step R (A.entries m) op r.1.1 (A.entries r.1.2) := h1.2
        rw [h2 r e] at h4
        exact h4
      | panic => rw [e] at h1; exact h1
      | ub => rw [e] at h1; exact h1
    refine HBehaves.bind (HBehaves.read hshow fun hp => ⟨hm, .nothing ?_⟩) ?_
    · exact hp.imp id Or.inl
    · rintro out _ ⟨rfl, hout⟩
      exact idle out hout
  have one : ∀ (r : K × Ref V) (v : V), (A.entries m)[r.2.idx]? = some (r.1, r.2.val) →
      (Loose.Step R (A.entries m) op (.value (some r.2.val)) (Loose.assign (A.entries m) r.2.idx v)) →
      (∀ n, 0 < n → Loose.Caught R p (A.entries m) ⟨op, some n⟩ none (Loose.assign (A.entries m) r.2.idx v)) →
      HBehaves (U ∨ (W ∧ op.isMany))
        (do A.writeAll [(r.2, v)] stop; return .value (some r.2.val) : Holding σ M (Out K V)) m
        (fun out m' => OK m' ∧ Loose.Caught R p (A.entries m) ⟨op, stop⟩ (some out) (A.entries m'))
        (fun m' => OK m' ∧ Loose.Caught R p (A.entries m) ⟨op, stop⟩ none (A.entries m')) := by
    intro r v hr hstep hcaught
    refine HBehaves.bind ((h.writeAll [(r.2, v)] stop hm).mono id (fun _ _ h => h) ?_) ?_
    · rintro m' ⟨n, rfl, h2, h3⟩
      refine ⟨h2, ?_⟩
      rw [h3]
      cases n with
      | zero => exact .nothing (Or.inr (Or.inr rfl))
      | succ n => simpa using hcaught (n + 1) (Nat.succ_pos n)
    · rintro _ m' ⟨rfl, h2, h3⟩
      refine .pure ⟨h2, ?_⟩
      rw [h3]
      exact .returned hstep
  cases op with
  | getMut q v =>
    refine HBehaves.bind (hl q) ?_
    intro o m' ho
    obtain ⟨e, ho⟩ := ho
    rw [e]
    clear e m'
    cases o with
    | none => exact idle _ (.getMutNone q v)
    | some r =>
      obtain ⟨h1, h2⟩ := ho r rfl
      exact one r v h1 (.getMut q v _ _ h1 h2) fun n hn => .getMut q v n _ _ h1 h2 hn
  | indexMut q v =>
    refine HBehaves.bind (hl q) ?_
    intro o m' ho
    obtain ⟨e, ho⟩ := ho
    rw [e]
    clear e m'
    cases o with
    | none => exact fun _ => ⟨hm, .nothing (Or.inr (Or.inl trivial))⟩
    | some r =>
      obtain ⟨h1, h2⟩ := ho r rfl
      exact one r v h1 (.indexMut q v _ _ h1 h2) fun n hn => .indexMut q v n _ _ h1 h2 hn
  | getManyMut qvs =>
    refine HBehaves.bind (HBehaves.read (c := (A.getManyMut · (qvs.map (·.1))))
      ((h.getManyMut hm (qvs.map (·.1))).mono Or.inl id fun _ h => h) fun hp => ⟨hm, .nothing (Or.inl hp)⟩) ?_
    intro o m' ho
    obtain ⟨e, ho⟩ := ho
    rw [e]
    clear e m'
    cases o with
    | none => exact idle _ (.manyNone qvs)
    | some rs =>
      obtain ⟨hf, hnd⟩ := ho rs rfl
      by_cases hn : (rs.map Ref.idx).Nodup
      · have hz : (rs.zip (qvs.map (·.2))).map (fun rv => (rv.1.idx, rv.2))
            = (rs.map Ref.idx).zip (qvs.map (·.2)) := by
          rw [List.zip_map_left]; rfl
        obtain ⟨es, hes, hR, hvals⟩ : ∃ es : List (K × V),
            List.Forall₂ (fun i e => (A.entries m)[i]? = some e) (rs.map Ref.idx) es ∧
            List.Forall₂ (fun q e => R q e.1) (qvs.map (·.1)) es ∧
            es.map (·.2) = rs.map Ref.val := by
          clear ho hnd hn hz idle plain one hl
          generalize qvs.map (·.1) = qs at hf
          induction hf with
          | nil => exact ⟨[], .nil, .nil, rfl⟩
          | cons h _ ih =>
            obtain ⟨es, a, b, c⟩ := ih
            obtain ⟨k, hk, hmm, _⟩ := h
            exact ⟨(k, _) :: es, .cons hk a, .cons hmm b, by simp [c]⟩
        have hR' := List.forall₂_map_left_iff.1 hR
        show HBehaves _ (if _ then _ else _) m _ _
        rw [if_pos hn]
        refine HBehaves.bind ((h.writeAll (rs.zip (qvs.map (·.2))) stop hm).mono id (fun _ _ h => h) ?_) ?_
        · rintro m' ⟨n, rfl, h2, h3⟩
          rw [hz] at h3
          exact ⟨h2, by rw [h3]; exact .many qvs n _ es hn hes hR'⟩
        · rintro _ m' ⟨rfl, h2, h3⟩
          rw [hz] at h3
          refine .pure ⟨h2, ?_⟩
          rw [h3, ← hvals]
          exact .returned (.many qvs _ es hn hes hR')
      · show HBehaves _ (if _ then _ else _) m _ _
        rw [if_neg hn]
        exact fun _ => Or.inr ⟨(hnd hn).1, by simpa [MapOp.isMany] using (hnd hn).2⟩
  | get q =>
    refine plain fun s r hr => ?_
    simp only [CallApi.step, Call.bind_apply, Res.bind_eq_ok] at hr
    obtain ⟨_, _, hr⟩ := hr; obtain rfl := Res.ok.inj hr; rfl
  | getKeyValue q =>
    refine plain fun s r hr => ?_
    simp only [CallApi.step, Call.bind_apply, Res.bind_eq_ok] at hr
    obtain ⟨_, _, hr⟩ := hr; obtain rfl := Res.ok.inj hr; rfl
  | containsKey q =>
    refine plain fun s r hr => ?_
    simp only [CallApi.step, Call.bind_apply, Res.bind_eq_ok] at hr
    obtain ⟨_, _, hr⟩ := hr; obtain rfl := Res.ok.inj hr; rfl
  | index q =>
    refine plain fun s r hr => ?_
    simp only [CallApi.step, Call.bind_apply, Res.bind_eq_ok] at hr
    obtain ⟨⟨o, s'⟩, _, hr⟩ := hr
    cases o with
    | none => cases hr
    | some e => obtain rfl := Res.ok.inj hr; rfl
  | len => exact plain fun s r hr => by obtain rfl := Res.ok.inj hr; rfl
  | iter => exact plain fun s r hr => by obtain rfl := Res.ok.inj hr; rfl
  | keys => exact plain fun s r hr => by obtain rfl := Res.ok.inj hr; rfl
  | values => exact plain fun s r hr => by obtain rfl := Res.ok.inj hr; rfl

theorem CallApi.Sound.caughtRun (h : A.Sound OK U p R At D W) (xs : List (Attempt V Q × σ)) :
    ∀ m : M, OK m → Behaves (U ∨ (W ∧ ∃ x ∈ xs, x.1.op.isMany)) False (A.caughtRun m xs)
      (fun r => OK r.2 ∧ Loose.CaughtRun R p (A.entries m) (xs.map (·.1)) r.1 (A.entries r.2)) := by
  induction xs with
  | nil => exact fun m hm => .pure ⟨hm, .nil _⟩
  | cons x xs ih =>
    intro m hm
    unfold CallApi.caughtRun
    have h1 : Behaves (U ∨ (W ∧ ∃ y ∈ x :: xs, y.1.op.isMany)) False (A.caught m x.1 x.2)
        (fun r => OK r.2 ∧ Loose.Caught R p (A.entries m) x.1 r.1 (A.entries r.2)) := by
      intro s
      have := h.attempt hm x.1 s
      unfold CallApi.caught
      cases e : A.attempt x.1 m s with
      | done out m' s' => rw [e] at this; exact this
      | panicked m' => rw [e] at this; exact this
      | ub => rw [e] at this; exact this.imp id fun ⟨a, b⟩ => ⟨a, x, by simp, b⟩
    refine h1.bind fun r hr => ?_
    exact ((ih r.2 hr.1).mono (Or.imp id (fun ⟨a, o, h1, h2⟩ => ⟨a, o, by simp [h1], h2⟩)) id
      (fun _ h => h)).bind (fun rs hrs => .pure ⟨hrs.1, .cons hr.2 hrs.2⟩)

theorem CallApi.Sound.caughtSession (h : A.Sound OK U p R At D W) {build : Call σ M} {payload : List (K × V)}
    (hb : Behaves U p build (fun m => OK m ∧ (A.entries m).Perm payload)) (xs : List (Attempt V Q × σ)) :
    Behaves (U ∨ (W ∧ ∃ x ∈ xs, x.1.op.isMany)) p (A.caughtSession build xs)
      (fun r => ∃ d : List (K × V), d.Perm payload ∧ Loose.CaughtRun R p d (xs.map (·.1)) r.1 r.2) := by
  unfold CallApi.caughtSession
  refine (hb.mono Or.inl id (fun _ h => h)).bind (fun m hm => ?_)
  exact ((h.caughtRun xs m hm.1).mono id False.elim fun _ h => h).bind (fun r hr => .pure ⟨_, hm.2, hr.2⟩)

end

/-! ### When the caller's own code does not panic -/

theorem Holding.bind_apply (c : Holding σ M α) (f : α → Holding σ M β) (m : M) (s : σ) :
    (c >>= f) m s = match c m s with
      | .done a m' s' => f a m' s'
      | .panicked m' => .panicked m'
      | .ub => .ub := rfl

theorem CallApi.writeAll_none (A : CallApi σ M K V Q) (l : List (Ref V × V)) (m : M) (s : σ) :
    A.writeAll l none m s = .done () (l.foldl (fun m rv => A.write m rv.1.idx rv.2) m) s := by
  induction l generalizing m with
  | nil => rfl
  | cons rv l ih => exact ih (A.write m rv.1.idx rv.2)

/-- What the code does is what it does without catching. -/
theorem CallApi.attempt_none (A : CallApi σ M K V Q) (op : MapOp V Q) (m : M) (s : σ) :
    A.attempt ⟨op, none⟩ m s = match A.step m op s with
      | .ok r => .done r.1.1 r.1.2 r.2
      | .panic => .panicked m
      | .ub => .ub := by
  have plain : (∀ s r, A.step m op s = .ok r → r.1.2 = m) →
      (do let out ← Holding.read (A.show op); A.writeAll [] none; return out : Holding σ M (Out K V)) m s
        = match A.step m op s with
          | .ok r => .done r.1.1 r.1.2 r.2
          | .panic => .panicked m
          | .ub => .ub := by
    intro hsame
    rw [Holding.bind_apply]
    unfold Holding.read CallApi.show
    rw [Call.bind_apply]
    cases e : A.step m op s with
    | ok r =>
      obtain ⟨⟨out, m'⟩, s'⟩ := r
      obtain rfl : m' = m := hsame s _ e
      rfl
    | panic => rfl
    | ub => rfl
  cases op with
  | getMut q v =>
    simp only [CallApi.attempt, CallApi.step]
    rw [Holding.bind_apply, Call.bind_apply]
    unfold Holding.read
    cases e : A.lookup m q s with
    | ok r => obtain ⟨o, s'⟩ := r; simp only [e]; cases o <;> rfl
    | panic => simp only [e]; rfl
    | ub => simp only [e]; rfl
  | indexMut q v =>
    simp only [CallApi.attempt, CallApi.step]
    rw [Holding.bind_apply, Call.bind_apply]
    unfold Holding.read
    cases e : A.lookup m q s with
    | ok r => obtain ⟨o, s'⟩ := r; simp only [e]; cases o <;> rfl
    | panic => simp only [e]; rfl
    | ub => simp only [e]; rfl
  | getManyMut qvs =>
    simp only [CallApi.attempt, CallApi.step]
    rw [Holding.bind_apply, Call.bind_apply]
    unfold Holding.read
    cases e : A.getManyMut m (qvs.map (·.1)) s with
    | ok r =>
      obtain ⟨o, s'⟩ := r
      simp only [e]
      cases o with
      | none => rfl
      | some rs =>
        by_cases hn : (rs.map Ref.idx).Nodup
        · simp only [if_pos hn]
          rw [Holding.bind_apply, CallApi.writeAll_none]
          simp only [Res.ok_bind, if_pos hn]
          rfl
        · simp only [if_neg hn, Res.ok_bind]
          rfl
    | panic => simp only [e]; rfl
    | ub => simp only [e]; rfl
  | get q =>
    refine plain fun s r hr => ?_
    simp only [CallApi.step, Call.bind_apply, Res.bind_eq_ok] at hr
    obtain ⟨_, _, hr⟩ := hr; obtain rfl := Res.ok.inj hr; rfl
  | getKeyValue q =>
    refine plain fun s r hr => ?_
    simp only [CallApi.step, Call.bind_apply, Res.bind_eq_ok] at hr
    obtain ⟨_, _, hr⟩ := hr; obtain rfl := Res.ok.inj hr; rfl
  | containsKey q =>
    refine plain fun s r hr => ?_
    simp only [CallApi.step, Call.bind_apply, Res.bind_eq_ok] at hr
    obtain ⟨_, _, hr⟩ := hr; obtain rfl := Res.ok.inj hr; rfl
  | index q =>
    refine plain fun s r hr => ?_
    simp only [CallApi.step, Call.bind_apply, Res.bind_eq_ok] at hr
    obtain ⟨⟨o, s'⟩, _, hr⟩ := hr
    cases o with
    | none => cases hr
    | some e => obtain rfl := Res.ok.inj hr; rfl
  | len => exact plain fun s r hr => by obtain rfl := Res.ok.inj hr; rfl
  | iter => exact plain fun s r hr => by obtain rfl := Res.ok.inj hr; rfl
  | keys => exact plain fun s r hr => by obtain rfl := Res.ok.inj hr; rfl
  | values => exact plain fun s r hr => by obtain rfl := Res.ok.inj hr; rfl

/-- A panic of the caller's own before its first write. -/
theorem CallApi.attempt_zero (A : CallApi σ M K V Q) (op : MapOp V Q) (m : M) (s : σ) :
    A.attempt ⟨op, some 0⟩ m s = match A.step m op s with
      | .ok _ => .panicked m
      | .panic => .panicked m
      | .ub => .ub := by
  have plain : (do let out ← Holding.read (A.show op); A.writeAll [] (some 0); return out :
        Holding σ M (Out K V)) m s
        = match A.step m op s with
          | .ok _ => .panicked m
          | .panic => .panicked m
          | .ub => .ub := by
    rw [Holding.bind_apply]
    unfold Holding.read CallApi.show
    rw [Call.bind_apply]
    cases e : A.step m op s <;> rfl
  cases op with
  | getMut q v =>
    simp only [CallApi.attempt, CallApi.step]
    rw [Holding.bind_apply, Call.bind_apply]
    unfold Holding.read
    cases e : A.lookup m q s with
    | ok r => obtain ⟨o, s'⟩ := r; simp only [e]; cases o <;> rfl
    | panic => simp only [e]; rfl
    | ub => simp only [e]; rfl
  | indexMut q v =>
    simp only [CallApi.attempt, CallApi.step]
    rw [Holding.bind_apply, Call.bind_apply]
    unfold Holding.read
    cases e : A.lookup m q s with
    | ok r => obtain ⟨o, s'⟩ := r; simp only [e]; cases o <;> rfl
    | panic => simp only [e]; rfl
    | ub => simp only [e]; rfl
  | getManyMut qvs =>
    simp only [CallApi.attempt, CallApi.step]
    rw [Holding.bind_apply, Call.bind_apply]
    unfold Holding.read
    cases e : A.getManyMut m (qvs.map (·.1)) s with
    | ok r =>
      obtain ⟨o, s'⟩ := r
      simp only [e]
      cases o with
      | none => rfl
      | some rs =>
        by_cases hn : (rs.map Ref.idx).Nodup
        · simp only [Res.ok_bind, if_pos hn]
          rw [Holding.bind_apply]
          cases (rs.zip (qvs.map (·.2))) <;> rfl
        · simp only [if_neg hn, Res.ok_bind]
          rfl
    | panic => simp only [e]; rfl
    | ub => simp only [e]; rfl
  | get q => exact plain
  | getKeyValue q => exact plain
  | containsKey q => exact plain
  | index q => exact plain
  | len => exact plain
  | iter => exact plain
  | keys => exact plain
  | values => exact plain

theorem CallApi.writeAll_late (A : CallApi σ M K V Q) (l : List (Ref V × V)) (n : Nat) (hn : l.length ≤ n)
    (m : M) (s : σ) :
    A.writeAll l (some n) m s = .panicked (l.foldl (fun m rv => A.write m rv.1.idx rv.2) m) := by
  induction l generalizing m n with
  | nil => cases n <;> rfl
  | cons rv l ih =>
    cases n with
    | zero => simp at hn
    | succ n => exact ih n (by simpa using hn) (A.write m rv.1.idx rv.2)

/-- A panic of the caller's own after its last write. -/
theorem CallApi.attempt_late (A : CallApi σ M K V Q) (op : MapOp V Q) (n : Nat)
    (hn : ∀ qvs, op = .getManyMut qvs → qvs.length ≤ n) (h1 : 0 < n) (m : M) (s : σ) :
    A.attempt ⟨op, some n⟩ m s = match A.attempt ⟨op, none⟩ m s with
      | .done _ m' _ => .panicked m'
      | .panicked m' => .panicked m'
      | .ub => .ub := by
  have plain : (do let out ← Holding.read (A.show op); A.writeAll [] (some n); return out :
        Holding σ M (Out K V)) m s
        = match (do let out ← Holding.read (A.show op); A.writeAll [] none; return out :
            Holding σ M (Out K V)) m s with
          | .done _ m' _ => .panicked m'
          | .panicked m' => .panicked m'
          | .ub => .ub := by
    rw [Holding.bind_apply, Holding.bind_apply]
    cases Holding.read (A.show op) m s with
    | done a m' s' =>
      dsimp only
      rw [Holding.bind_apply, CallApi.writeAll_late A [] n (by simp)]
      rfl
    | panicked m' => rfl
    | ub => rfl
  cases op with
  | getMut q v =>
    simp only [CallApi.attempt]
    rw [Holding.bind_apply, Holding.bind_apply]
    cases Holding.read (A.lookup · q) m s with
    | done a m' s' =>
      cases a with
      | none =>
        dsimp only
        rw [Holding.bind_apply, CallApi.writeAll_late A [] n (by simp)]
        rfl
      | some r =>
        dsimp only
        rw [Holding.bind_apply, CallApi.writeAll_late A [(r.2, v)] n h1]
        rfl
    | panicked m' => rfl
    | ub => rfl
  | indexMut q v =>
    simp only [CallApi.attempt]
    rw [Holding.bind_apply, Holding.bind_apply]
    cases Holding.read (A.lookup · q) m s with
    | done a m' s' =>
      cases a with
      | none => rfl
      | some r =>
        dsimp only
        rw [Holding.bind_apply, CallApi.writeAll_late A [(r.2, v)] n h1]
        rfl
    | panicked m' => rfl
    | ub => rfl
  | getManyMut qvs =>
    simp only [CallApi.attempt]
    rw [Holding.bind_apply, Holding.bind_apply]
    cases Holding.read (A.getManyMut · (qvs.map (·.1))) m s with
    | done a m' s' =>
      cases a with
      | none =>
        dsimp only
        rw [Holding.bind_apply, CallApi.writeAll_late A [] n (by simp)]
        rfl
      | some rs =>
        by_cases hd : (rs.map Ref.idx).Nodup
        · simp only [if_pos hd]
          rw [Holding.bind_apply, Holding.bind_apply,
            CallApi.writeAll_late A (rs.zip (qvs.map (·.2))) n
              (by have := hn qvs rfl; simp only [List.length_zip, List.length_map]; omega),
            CallApi.writeAll_none]
          rfl
        · simp only [if_neg hd]
          rfl
    | panicked m' => rfl
    | ub => rfl
  | get q => exact plain
  | getKeyValue q => exact plain
  | containsKey q => exact plain
  | index q => exact plain
  | len => exact plain
  | iter => exact plain
  | keys => exact plain
  | values => exact plain

namespace Loose

theorem Caught.mono {R R' : Q → K → Prop} (hR : ∀ q k, R q k → R' q k) {p : Prop} {d d' : List (K × V)}
    {x : Attempt V Q} {o : Option (Out K V)} (h : Caught R p d x o d') : Caught R' p d x o d' := by
  cases h with
  | returned h => exact .returned (h.mono hR)
  | nothing h => exact .nothing h
  | getMut q v n i e h1 h2 h3 => exact .getMut q v n i e h1 (hR _ _ h2) h3
  | indexMut q v n i e h1 h2 h3 => exact .indexMut q v n i e h1 (hR _ _ h2) h3
  | many qvs n is es h1 h2 h3 => exact .many qvs n is es h1 h2 (h3.imp fun _ _ h => hR _ _ h)

theorem CaughtRun.mono {R R' : Q → K → Prop} (hR : ∀ q k, R q k → R' q k) {p : Prop} {d d' : List (K × V)}
    {xs : List (Attempt V Q)} {os : List (Option (Out K V))} (h : CaughtRun R p d xs os d') :
    CaughtRun R' p d xs os d' := by
  induction h with
  | nil d => exact .nil d
  | cons h _ ih => exact .cons (h.mono hR) ih

end Loose

/-- The maps of Model/UserCode.lean. -/
theorem UMap.sound {p : Prop} {u : UserCode σ K Q} (hu : u.SafeLookup p) :
    ∃ At D, (UMap.api u : CallApi σ (UMap K V) K V Q).Sound UMap.OK False p u.MayMatch At D (¬ u.EqOK) := by
  have hmm : ∀ q k, Behaves True True (u.isMatch q k) (fun b => b = true → u.MayMatch q k) :=
    fun q k => (u.mayMatch hu q k).mono False.elim (fun _ => trivial) (fun _ h => h)
  by_cases hEq : u.EqOK
  · obtain ⟨C, ck, cq, h1, h2⟩ := hEq
    refine ⟨fun T q i => ∃ k v, T.entries[i]? = some (k, v) ∧ cq q = ck k,
      fun a b => cq a ≠ cq b, ⟨fun T hT q => ?_, fun a b => ?_, ?_, fun m i v hm => hm.write i v,
        fun m i v => m.write_entries i v⟩⟩
    · refine (UMap.lookup_behaves' hu hT q (P := fun k => u.MayMatch q k ∧ cq q = ck k)
        (fun k => ((hmm q k).also (h1 q k)).mono id id
          (fun _ h hb => ⟨h.1 hb, h.2 hb⟩))).mono id id (fun o ho r hr => ?_)
      obtain ⟨a, b, c⟩ := ho r hr
      exact ⟨a, b, _, _, a, c⟩
    · exact ((hu.isSame a b).also (h2 a b)).mono False.elim id (fun _ h => h.2)
    · rintro T a b i _ hne ⟨k, v, hk, ha⟩ ⟨k', v', hk', hb⟩
      rw [hk] at hk'
      cases hk'
      exact absurd (ha.trans hb.symm) hne
  · refine ⟨fun _ _ _ => True, fun _ _ => True, ⟨fun T hT q => ?_, fun a b => ?_,
      fun _ _ _ _ _ _ _ _ => hEq, fun m i v hm => hm.write i v, fun m i v => m.write_entries i v⟩⟩
    · exact (UMap.lookup_behaves' hu hT q (hmm q)).mono id id
        (fun o ho r hr => ⟨(ho r hr).1, (ho r hr).2, trivial⟩)
    · exact (hu.isSame a b).mono False.elim id (fun _ _ _ => trivial)

end FC
