import Verif.Lemmas.Catch
import Verif.Lemmas.Built
import Verif.Lemmas.History
import Verif.Lemmas.StringCode
import Verif.Spec.HonestCode

/-
Maps whose key code is right whenever it answers answer as a dictionary does, and go on doing so after
panics that were caught.
-/

set_option autoImplicit false

namespace FC
variable [Target]
variable {σ M K V Q : Type}

/-- What is needed of a map. -/
structure CallApi.Exact (A : CallApi σ M K V Q) (OK : M → Prop) (p : Prop) (eq : Q → Q → Bool)
    (borrow : K → Q) : Prop where
  lookup : ∀ m, OK m → ∀ q, Behaves False p (A.lookup m q) (fun o => o = scan eq borrow q 0 (A.entries m))
  same : ∀ a b, Behaves False p (A.same a b) (fun r => r = eq a b)
  write : ∀ m i v, OK m → OK (A.write m i v)
  entries : ∀ m i v, A.entries (A.write m i v) = setVal (A.entries m) i v
  lawful : LawfulEq eq

section
variable {A : CallApi σ M K V Q} {OK : M → Prop} {p : Prop} {eq : Q → Q → Bool} {borrow : K → Q}

omit [Target] in
theorem CallApi.Exact.sound (h : A.Exact OK p eq borrow) :
    A.Sound OK False p (fun q k => eq q (borrow k) = true)
      (fun m q i => ∃ k r, scan eq borrow q 0 (A.entries m) = some (k, r) ∧ r.idx = i)
      (fun a b => eq a b = false) False where
  lookup m hm q := (h.lookup m hm q).mono id id fun o ho r hr => by
    rw [ho] at hr
    obtain ⟨k, r⟩ := r
    obtain ⟨_, h1, h2, _⟩ := scan_some hr
    exact ⟨h1, h2, k, r, hr, rfl⟩
  same a b := (h.same a b).mono id id fun r hr hf => by rw [← hr, hf]
  apart m a b i _ hab := by
    rintro ⟨k, r, h1, rfl⟩ ⟨k', r', h2, hi⟩
    obtain ⟨_, h1, ha, _⟩ := scan_some h1
    obtain ⟨_, h2, hb, _⟩ := scan_some h2
    rw [hi, h1] at h2
    obtain ⟨rfl, -⟩ := Prod.mk.inj (Option.some.inj h2)
    have := h.lawful.trans _ _ _ ha (h.lawful.symm _ _ hb)
    rw [hab] at this
    cases this
  write := h.write
  entries m i v := h.entries m i v

omit [Target] in
theorem CallApi.Exact.getAll (h : A.Exact OK p eq borrow) {m : M} (hm : OK m) (qs : List Q) :
    Behaves False p (A.getAll m qs)
      (fun o => o = qs.mapM (fun q => (scan eq borrow q 0 (A.entries m)).map (·.2))) := by
  induction qs with
  | nil => exact .pure rfl
  | cons q qs ih =>
    unfold CallApi.getAll
    refine (h.lookup m hm q).bind (fun o ho => ?_)
    simp only [List.mapM_cons]
    rw [← ho]
    cases o with
    | none => exact .pure rfl
    | some r =>
      refine ih.bind (fun o' ho' => ?_)
      simp only [Option.map_some]
      rw [← ho']
      cases o' with
      | none => exact .pure rfl
      | some rs => exact .pure rfl

omit [Target] in
theorem CallApi.Exact.anyList (h : A.Exact OK p eq borrow) (k : Q) (l : List Q) :
    Behaves False p (Call.anyList (fun s => A.same s k) l) (fun b => b = l.any (fun s => eq s k)) := by
  induction l with
  | nil => exact .pure rfl
  | cons a l ih =>
    unfold Call.anyList
    refine (h.same a k).bind (fun b hb => .ite (fun h => .pure ?_) (fun h => ?_))
    · rw [List.any_cons, ← hb, h]; rfl
    · refine ih.mono id id (fun b' hb' => ?_)
      rw [List.any_cons, ← hb, hb', (by simpa using h : b = false)]
      rfl

omit [Target] in
theorem CallApi.Exact.hasDup (h : A.Exact OK p eq borrow) (ks : List Q) :
    ∀ seen : List Q, Behaves False p (A.hasDup seen ks) (fun b => b = FC.hasDup eq seen ks) := by
  induction ks with
  | nil => exact fun seen => .pure rfl
  | cons k ks ih =>
    intro seen
    unfold CallApi.hasDup FC.hasDup
    refine (h.anyList k seen).bind (fun b hb => .ite (fun h => .pure ?_) (fun h => ?_))
    · rw [← hb, h]; rfl
    · refine (ih (seen ++ [k])).mono id id (fun b' hb' => ?_)
      rw [← hb, hb', (by simpa using h : b = false)]
      rfl

omit [Target] in
/-- The first `n` writes through the references that scans returned are assignments by key. -/
theorem found_writes (heq : LawfulEq eq) {es : List (K × V)}
    (hd : DistinctKeys (fun a b => eq (borrow a) (borrow b)) es) {qvs : List (Q × V)} {rs : List (Ref V)}
    (hF : Found eq borrow es qvs rs) :
    ∀ (n : Nat) (es' : List (K × V)), es'.map (·.1) = es.map (·.1) →
      (((rs.zip (qvs.map (·.2))).map (fun rv => (rv.1.idx, rv.2))).take n).foldl
        (fun d iv => Loose.assign d iv.1 iv.2) es'
        = (qvs.take n).foldl (fun d qv => Dict.assign eq borrow d qv.1 qv.2) es' := by
  induction hF with
  | nil => intro n es' _; simp
  | cons h _ ih =>
    rename_i qv r qvs rs _
    intro n es' hk
    obtain ⟨k, hs⟩ := h
    cases n with
    | zero => rfl
    | succ n =>
      have he : Loose.assign es' r.idx qv.2 = Dict.assign eq borrow es' qv.1 qv.2 :=
        setVal_assign heq hd hk hs qv.2
      simp only [List.map_cons, List.zip_cons_cons, List.take_succ_cons, List.foldl_cons]
      rw [he]
      exact ih n _ (by rw [assign_keys, hk])

omit [Target] in
theorem foldl_assign_keys (qvs : List (Q × V)) : ∀ d : List (K × V),
    (qvs.foldl (fun d qv => Dict.assign eq borrow d qv.1 qv.2) d).map (·.1) = d.map (·.1) := by
  induction qvs with
  | nil => exact fun _ => rfl
  | cons qv qvs ih => intro d; rw [List.foldl_cons, ih, assign_keys]

omit [Target] in
theorem assign_absent {d : List (K × V)} {q : Q} (h : scan eq borrow q 0 d = none) (v : V) :
    Dict.assign eq borrow d q v = d := by
  unfold Dict.assign
  conv_rhs => rw [← List.map_id d]
  apply List.map_congr_left
  intro e he
  rw [scan_none.1 h e he]
  rfl

omit [Target] in
/-- One operation. -/
theorem CallApi.Exact.attempt (h : A.Exact OK p eq borrow) {m : M} (hm : OK m)
    (hd : DistinctKeys (fun a b => eq (borrow a) (borrow b)) (A.entries m)) (x : Attempt V Q) :
    HBehaves False (A.attempt x) m
      (fun out m' => (OK m' ∧ (A.entries m').map (·.1) = (A.entries m).map (·.1)) ∧
        Dict.Caught eq borrow p (A.entries m) x (some out) (A.entries m'))
      (fun m' => (OK m' ∧ (A.entries m').map (·.1) = (A.entries m).map (·.1)) ∧
        Dict.Caught eq borrow p (A.entries m) x none (A.entries m')) := by
  obtain ⟨op, stop⟩ := x
  have hf : ∀ q, Dict.find eq borrow (A.entries m) q
      = (scan eq borrow q 0 (A.entries m)).map (fun r => (r.1, r.2.val)) := fun q => (scan_dict _ _).symm
  have hl : ∀ q, HBehaves False (Holding.read (A.lookup · q)) m
      (fun o m' => m' = m ∧ o = scan eq borrow q 0 (A.entries m))
      (fun m' => (OK m' ∧ (A.entries m').map (·.1) = (A.entries m).map (·.1)) ∧
        Dict.Caught eq borrow p (A.entries m) ⟨op, stop⟩ none (A.entries m')) :=
    fun q => HBehaves.read (c := (A.lookup · q)) (h.lookup m hm q) (fun hp => ⟨⟨hm, rfl⟩, .keyCode hp⟩)
  -- nothing to write
  have idle : ∀ out, Dict.step eq borrow (A.entries m) op = .ok (out, A.entries m) →
      (∀ n, Dict.afterWrites eq borrow (A.entries m) n op = A.entries m) →
      HBehaves False (do A.writeAll [] stop; return out : Holding σ M (Out K V)) m
        (fun out m' => (OK m' ∧ (A.entries m').map (·.1) = (A.entries m).map (·.1)) ∧
          Dict.Caught eq borrow p (A.entries m) ⟨op, stop⟩ (some out) (A.entries m'))
        (fun m' => (OK m' ∧ (A.entries m').map (·.1) = (A.entries m).map (·.1)) ∧
          Dict.Caught eq borrow p (A.entries m) ⟨op, stop⟩ none (A.entries m')) := by
    intro out hout haft
    refine HBehaves.bind ((h.sound.writeAll [] stop hm).mono id (fun _ _ h => h) ?_) ?_
    · rintro m' ⟨n, rfl, h2, h3⟩
      simp only [List.map_nil, List.take_nil, List.foldl_nil] at h3
      refine ⟨⟨h2, by rw [h3]⟩, ?_⟩
      have := Dict.Caught.stopped (p := p) (n := n) hout
      rw [haft] at this
      rw [h3]
      exact this
    · rintro _ m' ⟨rfl, h2, h3⟩
      simp only [List.map_nil, List.foldl_nil] at h3
      exact .pure ⟨⟨h2, by rw [h3]⟩, by rw [h3]; exact .returned hout⟩
  have one : ∀ (q : Q) (k : K) (r : Ref V) (v : V), scan eq borrow q 0 (A.entries m) = some (k, r) →
      Dict.step eq borrow (A.entries m) op
        = .ok (.value (some r.val), Dict.assign eq borrow (A.entries m) q v) →
      (∀ n, Dict.afterWrites eq borrow (A.entries m) n op
        = if n = 0 then A.entries m else Dict.assign eq borrow (A.entries m) q v) →
      HBehaves False (do A.writeAll [(r, v)] stop; return .value (some r.val) : Holding σ M (Out K V)) m
        (fun out m' => (OK m' ∧ (A.entries m').map (·.1) = (A.entries m).map (·.1)) ∧
          Dict.Caught eq borrow p (A.entries m) ⟨op, stop⟩ (some out) (A.entries m'))
        (fun m' => (OK m' ∧ (A.entries m').map (·.1) = (A.entries m).map (·.1)) ∧
          Dict.Caught eq borrow p (A.entries m) ⟨op, stop⟩ none (A.entries m')) := by
    intro q k r v hs hstep haft
    have he : Loose.assign (A.entries m) r.idx v = Dict.assign eq borrow (A.entries m) q v :=
      setVal_assign h.lawful hd rfl hs v
    refine HBehaves.bind ((h.sound.writeAll [(r, v)] stop hm).mono id (fun _ _ h => h) ?_) ?_
    · rintro m' ⟨n, rfl, h2, h3⟩
      have hc := Dict.Caught.stopped (p := p) (n := n) hstep
      rw [haft] at hc
      cases n with
      | zero =>
        simp only [List.take_zero, List.foldl_nil] at h3
        exact ⟨⟨h2, by rw [h3]⟩, by rw [h3]; exact hc⟩
      | succ n =>
        simp only [List.map_cons, List.map_nil, List.take_succ_cons, List.take_nil, List.foldl_cons,
          List.foldl_nil] at h3
        rw [he] at h3
        exact ⟨⟨h2, by rw [h3, assign_keys]⟩, by rw [h3]; exact hc⟩
    · rintro _ m' ⟨rfl, h2, h3⟩
      simp only [List.map_cons, List.map_nil, List.foldl_cons, List.foldl_nil] at h3
      rw [he] at h3
      exact .pure ⟨⟨h2, by rw [h3, assign_keys]⟩, by rw [h3]; exact .returned hstep⟩
  -- an operation that writes nothing
  have plain : (∀ n, Dict.afterWrites eq borrow (A.entries m) n op = A.entries m) →
      Behaves False (p ∨ Dict.step eq borrow (A.entries m) op = .panic) (A.step m op)
        (fun r => Dict.step eq borrow (A.entries m) op = .ok (r.1, A.entries m)) →
      HBehaves False
        (do let out ← Holding.read (A.show op); A.writeAll [] stop; return out : Holding σ M (Out K V)) m
        (fun out m' => (OK m' ∧ (A.entries m').map (·.1) = (A.entries m).map (·.1)) ∧
          Dict.Caught eq borrow p (A.entries m) ⟨op, stop⟩ (some out) (A.entries m'))
        (fun m' => (OK m' ∧ (A.entries m').map (·.1) = (A.entries m).map (·.1)) ∧
          Dict.Caught eq borrow p (A.entries m) ⟨op, stop⟩ none (A.entries m')) := by
    intro haft hstep
    have hshow : Behaves False (p ∨ Dict.step eq borrow (A.entries m) op = .panic) (A.show op m)
        (fun out => Dict.step eq borrow (A.entries m) op = .ok (out, A.entries m)) :=
      hstep.bind fun r hr => .pure hr
    refine HBehaves.bind (HBehaves.read hshow fun hp => ⟨⟨hm, rfl⟩, ?_⟩) ?_
    · exact hp.elim .keyCode .absent
    · rintro out _ ⟨rfl, hout⟩
      exact idle out hout haft
  have hl' : ∀ q, Behaves False (p ∨ Dict.step eq borrow (A.entries m) op = .panic) (A.lookup m q)
      (fun o => o = scan eq borrow q 0 (A.entries m)) := fun q => (h.lookup m hm q).mono id Or.inl fun _ h => h
  cases op with
  | getMut q v =>
    refine HBehaves.bind (hl q) ?_
    intro o m' ho
    obtain ⟨e, ho⟩ := ho
    rw [e]
    clear e m'
    cases o with
    | none =>
      have ha := assign_absent ho.symm v
      refine idle _ ?_ fun n => ?_
      · simp only [Dict.step, hf, ← ho, ha]; rfl
      · simp only [Dict.afterWrites, ha, ite_self]
    | some r =>
      obtain ⟨k, r⟩ := r
      refine one q k r v ho.symm ?_ fun n => rfl
      simp only [Dict.step, hf, ← ho]; rfl
  | indexMut q v =>
    refine HBehaves.bind (hl q) ?_
    intro o m' ho
    obtain ⟨e, ho⟩ := ho
    rw [e]
    clear e m'
    cases o with
    | none =>
      refine fun _ => ⟨⟨hm, rfl⟩, .absent ?_⟩
      simp only [Dict.step, hf, ← ho]; rfl
    | some r =>
      obtain ⟨k, r⟩ := r
      refine one q k r v ho.symm ?_ fun n => rfl
      simp only [Dict.step, hf, ← ho]; rfl
  | getManyMut qvs =>
    have hmany : Behaves False p (A.getManyMut m (qvs.map (·.1)))
        (fun o => (∀ rs ∈ o, (rs.map Ref.idx).Nodup) ∧
          o = if FC.hasDup eq [] (qvs.map (·.1)) then none else
          (qvs.map (·.1)).mapM (fun q => (scan eq borrow q 0 (A.entries m)).map (·.2))) := by
      have hex : Behaves False p (A.getManyMut m (qvs.map (·.1)))
          (fun o => o = if FC.hasDup eq [] (qvs.map (·.1)) then none else
            (qvs.map (·.1)).mapM (fun q => (scan eq borrow q 0 (A.entries m)).map (·.2))) := by
        unfold CallApi.getManyMut
        refine Behaves.bind (h.hasDup (qvs.map (·.1)) []) ?_
        intro b hb
        rw [← hb]
        cases b with
        | true => exact .pure rfl
        | false => exact h.getAll hm _
      refine Behaves.mono ((h.sound.getManyMut hm (qvs.map (·.1))).and hex) And.left And.left ?_
      intro o ho
      refine ⟨fun rs hrs => ?_, ho.2⟩
      by_contra hn
      exact ((ho.1 rs hrs).2 hn).1
    refine HBehaves.bind (HBehaves.read (c := (A.getManyMut · (qvs.map (·.1)))) hmany
      fun hp => ⟨⟨hm, rfl⟩, .keyCode hp⟩) ?_
    intro o m' ho
    obtain ⟨e, hn, ho⟩ := ho
    rw [e]
    clear e m'
    by_cases hdup : FC.hasDup eq [] (qvs.map (·.1)) = true
    · rw [if_pos hdup] at ho
      subst ho
      have hno : ¬ ((qvs.map (·.1)).Pairwise (fun a b => eq a b = false) ∧
          ∀ qv ∈ qvs, (Dict.find eq borrow (A.entries m) qv.1).isSome = true) := by
        rintro ⟨hpw, -⟩
        rw [(hasDup_eq_false _ []).2 ⟨by simp, hpw⟩] at hdup
        cases hdup
      exact idle _ (by simp only [Dict.step]; rw [if_neg hno])
        (fun n => by simp only [Dict.afterWrites]; rw [if_neg hno])
    · have hpw := ((hasDup_eq_false _ []).1 (by simpa using hdup)).2
      rw [if_neg hdup] at ho
      cases o with
      | none =>
        obtain ⟨q, hq, hqn⟩ := (mapM_none_iff _).1 ho.symm
        obtain ⟨qv, hqv, rfl⟩ := List.mem_map.1 hq
        have hno : ¬ ((qvs.map (·.1)).Pairwise (fun a b => eq a b = false) ∧
            ∀ qv ∈ qvs, (Dict.find eq borrow (A.entries m) qv.1).isSome = true) := by
          rintro ⟨_, h⟩
          have := h qv hqv
          rw [hf] at this
          cases hs : scan eq borrow qv.1 0 (A.entries m) with
          | none => rw [hs] at this; simp at this
          | some r => rw [hs] at hqn; simp at hqn
        exact idle _ (by simp only [Dict.step]; rw [if_neg hno])
          (fun n => by simp only [Dict.afterWrites]; rw [if_neg hno])
      | some rs =>
        have hF := found_of_map ((mapM_some_iff _ _).1 ho.symm)
        have hyes : (qvs.map (·.1)).Pairwise (fun a b => eq a b = false) ∧
            ∀ qv ∈ qvs, (Dict.find eq borrow (A.entries m) qv.1).isSome = true := by
          refine ⟨hpw, fun qv hqv => ?_⟩
          obtain ⟨r, k, hs⟩ := found_mem hF qv hqv
          rw [hf, hs]
          rfl
        have hstep : Dict.step eq borrow (A.entries m) (.getManyMut qvs)
            = .ok (.many (some (rs.map Ref.val)),
                qvs.foldl (fun d qv => Dict.assign eq borrow d qv.1 qv.2) (A.entries m)) := by
          simp only [Dict.step]
          rw [if_pos hyes, found_values hF (fun q => (hf q).symm)]
        have hw := found_writes h.lawful hd hF
        show HBehaves _ (if _ then _ else _) m _ _
        rw [if_pos (hn rs rfl)]
        refine HBehaves.bind ((h.sound.writeAll (rs.zip (qvs.map (·.2))) stop hm).mono id
          (fun _ _ h => h) ?_) ?_
        · rintro m' ⟨n, rfl, h2, h3⟩
          rw [hw n _ rfl] at h3
          have hc := Dict.Caught.stopped (p := p) (n := n) hstep
          simp only [Dict.afterWrites] at hc
          rw [if_pos hyes] at hc
          exact ⟨⟨h2, by rw [h3, foldl_assign_keys]⟩, by rw [h3]; exact hc⟩
        · rintro _ m' ⟨rfl, h2, h3⟩
          have hlen : qvs.length = rs.length := hF.length_eq
          have := hw qvs.length _ rfl
          rw [List.take_of_length_le (by simp [hlen]), List.take_length] at this
          rw [this] at h3
          exact .pure ⟨⟨h2, by rw [h3, foldl_assign_keys]⟩, by rw [h3]; exact .returned hstep⟩
  | get q =>
    refine plain (fun _ => rfl) ((hl' q).bind fun o ho => .pure ?_)
    subst ho
    simp only [Dict.step, hf, Option.map_map]
    rfl
  | getKeyValue q =>
    refine plain (fun _ => rfl) ((hl' q).bind fun o ho => .pure ?_)
    subst ho
    simp only [Dict.step, hf]
  | containsKey q =>
    refine plain (fun _ => rfl) ((hl' q).bind fun o ho => .pure ?_)
    subst ho
    simp only [Dict.step, hf, Option.isSome_map]
  | index q =>
    refine plain (fun _ => rfl) ((hl' q).bind fun o ho => ?_)
    cases o with
    | none =>
      refine fun _ => Or.inr ?_
      simp only [Dict.step, hf, ← ho]; rfl
    | some r =>
      refine .pure ?_
      simp only [Dict.step, hf, ← ho]; rfl
  | len => exact plain (fun _ => rfl) (.pure rfl)
  | iter => exact plain (fun _ => rfl) (.pure rfl)
  | keys => exact plain (fun _ => rfl) (.pure rfl)
  | values => exact plain (fun _ => rfl) (.pure rfl)

omit [Target] in
theorem CallApi.Exact.caughtRun (h : A.Exact OK p eq borrow) (xs : List (Attempt V Q × σ)) :
    ∀ m : M, OK m → DistinctKeys (fun a b => eq (borrow a) (borrow b)) (A.entries m) →
      Behaves False False (A.caughtRun m xs)
        (fun r => Dict.CaughtRun eq borrow p (A.entries m) (xs.map (·.1)) r.1 (A.entries r.2)) := by
  induction xs with
  | nil => exact fun m _ _ => .pure (.nil _)
  | cons x xs ih =>
    intro m hm hd
    unfold CallApi.caughtRun
    have h1 : Behaves False False (A.caught m x.1 x.2)
        (fun r => (OK r.2 ∧ (A.entries r.2).map (·.1) = (A.entries m).map (·.1)) ∧
          Dict.Caught eq borrow p (A.entries m) x.1 r.1 (A.entries r.2)) := by
      intro s
      have := h.attempt hm hd x.1 s
      unfold CallApi.caught
      cases e : A.attempt x.1 m s with
      | done out m' s' => rw [e] at this; exact this
      | panicked m' => rw [e] at this; exact this
      | ub => rw [e] at this; exact this
    refine h1.bind fun r hr => ?_
    exact (ih r.2 hr.1.1 (hd.of_keys hr.1.2)).bind (fun rs hrs => .pure (.cons hr.2 hrs))

omit [Target] in
theorem CallApi.Exact.caughtSession (h : A.Exact OK p eq borrow) {build : Call σ M} {payload : List (K × V)}
    (hb : Behaves False p build (fun m => OK m ∧ (A.entries m).Perm payload))
    (hd : DistinctKeys (fun a b => eq (borrow a) (borrow b)) payload) (xs : List (Attempt V Q × σ)) :
    Behaves False p (A.caughtSession build xs)
      (fun r => ∃ d : List (K × V), d.Perm payload ∧
        Dict.CaughtRun eq borrow p d (xs.map (·.1)) r.1 r.2) := by
  unfold CallApi.caughtSession
  refine hb.bind fun m hm => ?_
  refine ((h.caughtRun xs m hm.1 (hd.perm (h.lawful.comap borrow) hm.2.symm)).mono id False.elim
    (fun _ h => h)).bind fun r hr => .pure ⟨_, hm.2, hr⟩

end

/-! ### About the specification -/

section
variable {p : Prop} {eq : Q → Q → Bool} {borrow : K → Q}

omit [Target] in
/-- The operations that returned are a history of the dictionary. -/
theorem Dict.CaughtRun.returned {ops : List (MapOp V Q)} {os : List (Option (Out K V))}
    {d d' : List (K × V)} (h : Dict.CaughtRun eq borrow p d (ops.map fun op => ⟨op, none⟩) os d') :
    os.length = ops.length ∧
      Dict.run eq borrow d (((ops.zip os).filterMap fun x => x.2.map fun out => (x.1, out)).map (·.1))
        = .ok (((ops.zip os).filterMap fun x => x.2.map fun out => (x.1, out)).map (·.2), d') := by
  induction ops generalizing os d with
  | nil => cases h; exact ⟨rfl, rfl⟩
  | cons op ops ih =>
    cases h with
    | cons hx hxs =>
      obtain ⟨h1, h2⟩ := ih hxs
      refine ⟨by simp [h1], ?_⟩
      cases hx with
      | returned hs =>
        simp only [List.zip_cons_cons, List.filterMap_cons, Option.map_some, List.map_cons, Dict.run, hs,
          Res.ok_bind, h2, Res.pure_eq]
      | keyCode _ => simpa using h2
      | absent _ => simpa using h2

omit [Target] in
theorem Dict.Caught.unique {d d₁ d₂ : List (K × V)} {x : Attempt V Q} {o₁ o₂ : Option (Out K V)}
    (h₁ : Dict.Caught eq borrow False d x o₁ d₁) (h₂ : Dict.Caught eq borrow False d x o₂ d₂) :
    o₁ = o₂ ∧ d₁ = d₂ := by
  cases h₁ with
  | returned h =>
    cases h₂ with
    | returned h' => rw [h] at h'; cases h'; exact ⟨rfl, rfl⟩
    | keyCode h' => exact h'.elim
    | absent h' => rw [h] at h'; cases h'
  | keyCode h => exact h.elim
  | absent h =>
    cases h₂ with
    | returned h' => rw [h] at h'; cases h'
    | keyCode h' => exact h'.elim
    | absent h' => exact ⟨rfl, rfl⟩
    | stopped h' => rw [h] at h'; cases h'
  | stopped h =>
    cases h₂ with
    | keyCode h' => exact h'.elim
    | absent h' => rw [h] at h'; cases h'
    | stopped h' => exact ⟨rfl, rfl⟩

omit [Target] in
theorem Dict.CaughtRun.unique {d d₁ d₂ : List (K × V)} {xs : List (Attempt V Q)}
    {os₁ os₂ : List (Option (Out K V))} (h₁ : Dict.CaughtRun eq borrow False d xs os₁ d₁)
    (h₂ : Dict.CaughtRun eq borrow False d xs os₂ d₂) : os₁ = os₂ ∧ d₁ = d₂ := by
  induction h₁ generalizing os₂ with
  | nil => cases h₂; exact ⟨rfl, rfl⟩
  | cons hx _ ih =>
    cases h₂ with
    | cons hx' hxs' =>
      obtain ⟨rfl, rfl⟩ := hx.unique hx'
      obtain ⟨rfl, rfl⟩ := ih hxs'
      exact ⟨rfl, rfl⟩

end

/-! ### The maps of Model/UserCode.lean -/

/-- `UserCode.Honest` with stored keys that satisfy `P`. -/
structure UserCode.Answers (p : Prop) (P : K → Prop) (u : UserCode σ K Q) (code : K → Nat)
    (probe : Q → Nat) (eq : Q → Q → Bool) (borrow : K → Q) : Prop where
  sizeCode : ∀ k, P k → Behaves False p (u.sizeCode k) (fun _ => True)
  slotCode : ∀ k, P k → Behaves False p (u.slotCode k) (fun c => c = code k)
  probeCode : ∀ q, Behaves False p (u.probeCode q) (fun c => c = probe q)
  isMatch : ∀ q k, Behaves False p (u.isMatch q k) (fun b => b = eq q (borrow k))
  isSame : ∀ a b, Behaves False p (u.isSame a b) (fun r => r = eq a b)
  lawful : LawfulEq eq
  hash : ∀ q k, P k → eq q (borrow k) = true → probe q = code k

omit [Target] in
theorem UserCode.Honest.answers {p : Prop} {u : UserCode σ K Q} {code : K → Nat} {probe : Q → Nat}
    {eq : Q → Q → Bool} {borrow : K → Q} (h : u.Honest p code probe eq borrow) :
    u.Answers p (fun _ => True) code probe eq borrow :=
  ⟨fun k _ => h.sizeCode k, fun k _ => h.slotCode k, h.probeCode, h.isMatch, h.isSame, h.lawful,
    fun q k _ => h.hash q k⟩

/-- The slots are those that `code` assigns. -/
def UMap.Placed (P : K → Prop) (code : K → Nat) : UMap K V → Prop
  | .scanning _ => True
  | .hashed T => ∃ g, TableOK g T ∧ ∀ e ∈ T.entries, P e.1 ∧ g e.1 = code e.1

section
variable {p : Prop} {P : K → Prop} {u : UserCode σ K Q} {code : K → Nat} {probe : Q → Nat} {eq : Q → Q → Bool}
  {borrow : K → Q}

omit [Target] in
theorem UMap.scan_honest (hu : u.Answers p P code probe eq borrow) (q : Q) (es : List (K × V)) :
    ∀ i, Behaves False p (UMap.scan u q i es) (fun o => o = FC.scan eq borrow q i es) := by
  induction es with
  | nil => exact fun _ => .pure rfl
  | cons e es ih =>
    intro i
    unfold UMap.scan FC.scan
    refine (hu.isMatch q e.1).bind fun b hb => .ite (fun h => .pure ?_) (fun h => ?_)
    · rw [← hb, if_pos h]
    · rw [← hb, if_neg h]; exact ih (i + 1)

omit [Target] in
theorem UMap.exact (hu : u.Answers p P code probe eq borrow) :
    (UMap.api u : CallApi σ (UMap K V) K V Q).Exact (UMap.Placed P code) p eq borrow where
  lookup m hm q := by
    cases m with
    | scanning es => exact UMap.scan_honest hu q es 0
    | hashed T =>
      obtain ⟨g, hT, hg⟩ := hm
      refine (hu.probeCode q).bind fun c hc => ?_
      subst hc
      have ht := tableLookup_eq hT (eq := eq) (borrow := borrow) (code := probe q) (q := q)
        fun e he h => (hg e he).2.trans (hu.hash q e.1 (hg e he).1 h).symm
      unfold tableLookup at ht
      simp only [Res.bind_eq_ok] at ht
      obtain ⟨r, h1, es, h2, h3⟩ := ht
      refine (Behaves.lift (post := fun x => x = r) h1 rfl).bind ?_
      rintro _ rfl
      refine (Behaves.lift (post := fun x => x = es) h2 rfl).bind ?_
      rintro _ rfl
      refine (UMap.scan_honest hu q _ _).mono id id fun o ho => ?_
      rw [ho]
      exact Res.ok.inj h3
  same := hu.isSame
  write m i v hm := by
    cases m with
    | scanning es => trivial
    | hashed T =>
      obtain ⟨g, hT, hg⟩ := hm
      refine ⟨g, hT.write i v, fun e he => ?_⟩
      have : e.1 ∈ (setVal T.entries i v).map (·.1) := List.mem_map_of_mem he
      rw [setVal_keys] at this
      obtain ⟨e', he', hk⟩ := List.mem_map.1 this
      rw [← hk]
      exact hg e' he'
  entries m i v := m.write_entries i v
  lawful := hu.lawful

/-- With honest hash codes the table is the one of Model/HashTable.lean. -/
theorem HashTable.newU_honest (env : Env) (S : IdxTy) (payload : List (K × V)) (n : Nat)
    {hash : K → Call σ Nat} (hh : ∀ e ∈ payload, Behaves False p (hash e.1) (fun c => c = code e.1)) :
    Behaves True True (HashTable.newU env S payload n hash)
      (fun T => HashTable.new env S payload n (fun k => .ok (code k)) = .ok T) := by
  unfold HashTable.newU HashTable.new
  refine .ite (fun he => .pure ?_) (fun he => ?_)
  · rw [if_pos he]; rfl
  · rw [if_neg he]
    cases hS : S.maxUsize with
    | none => exact fun _ => trivial
    | some cap =>
      refine (Behaves.lift (a := cap) (post := fun c => c = cap) rfl rfl).bind ?_
      rintro _ rfl
      simp only [Res.unwrap, Res.ok_bind]
      refine .ite (fun h _ => trivial) (fun hle => ?_)
      rw [if_neg hle]
      refine (Behaves.mapList (R := fun (e : K × V) (it : PrepItem K V) =>
        prepItem n (fun k => .ok (code k)) e = .ok it) (fun e he => ?_)).bind (fun prep hprep => ?_)
      · refine ((hh e he).mono (fun _ => trivial) (fun _ => trivial) (fun _ h => h)).bind (fun c hc => ?_)
        subst hc
        intro s
        rw [Call.bind_apply]
        unfold Call.lift
        cases hx : umod (code e.1) n with
        | ok x =>
          show prepItem n _ e = .ok ⟨x, e⟩
          unfold prepItem
          simp only [hx]
        | panic => trivial
        | ub => trivial
      · have hm : Res.mapList (prepItem n (fun k => .ok (code k))) payload = .ok prep := by
          clear hle he hh
          induction hprep with
          | nil => rfl
          | cons h _ ih => unfold Res.mapList; rw [h, ih]
        rw [hm]
        simp only [Res.ok_bind]
        intro s
        rw [Call.bind_apply]
        unfold Call.lift
        cases fillLoop env.oc S (env.srt.run PrepItem.slot prep).reverse (List.replicate n ⟨0, 0⟩) [] 0 with
        | ok r =>
          simp only [Res.map_ok, Res.ok_bind]
          by_cases h0 : r.1.length = 0
          · rw [if_pos h0]; trivial
          · rw [if_neg h0, if_neg h0]; rfl
        | panic => trivial
        | ub => trivial

theorem UMap.fromVec_honest (env : Env) {S : IdxTy} (hu : u.Answers p P code probe eq borrow)
    {payload : List (K × V)} (hP : ∀ e ∈ payload, P e.1) (h32 : payload.length < 2 ^ 32) (hbig : ¬ S.Holds payload.length → p) :
    Behaves False p (UMap.fromVec env S u payload)
      (fun m => UMap.Placed P code m ∧ m.entries.Perm payload) := by
  have h1 := UMap.fromVec_behaves' (u := u) env (S := S) (payload := payload)
    (fun e he => hu.sizeCode e.1 (hP e he))
    (fun e he => (hu.slotCode e.1 (hP e he)).mono id id fun _ _ => trivial) hbig
  have h2 : Behaves True True (UMap.fromVec env S u payload)
      (fun m => UMap.Placed P code m) := by
    unfold UMap.fromVec
    refine ((Behaves.mapList (R := fun _ _ => True) (fun e he => hu.sizeCode e.1 (hP e he))).mono
      (fun _ => trivial) (fun _ => trivial) (fun _ h => h)).bind (fun codes _ => ?_)
    obtain ⟨r, h1, _⟩ := analyze_total codes
    refine (Behaves.lift (post := fun a => a = r) h1 rfl).bind ?_
    rintro _ rfl
    refine (HashTable.newU_honest env S payload _ fun e he => hu.slotCode e.1 (hP e he)).bind fun T hT => .pure ?_
    obtain ⟨hp, g, hg, hOK, _⟩ := HashTable.new_inv hT h32
    exact ⟨g, hOK, fun e he => ⟨hP e (hp.mem_iff.1 he), (Res.ok.inj (hg e (hp.mem_iff.1 he))).symm⟩⟩
  exact (h1.also h2).mono id id fun m hm => ⟨hm.2, hm.1.2⟩

theorem UMap.facade_honest (env : Env) (hu : u.Answers p P code probe eq borrow)
    {payload : List (K × V)} (hP : ∀ e ∈ payload, P e.1) (h32 : payload.length < 2 ^ 32) (hbig : 2 ^ 31 ≤ payload.length → p) :
    Behaves False p (UMap.facade env u payload)
      (fun m => UMap.Placed P code m ∧ m.entries.Perm payload) := by
  unfold UMap.facade
  refine .ite (fun _ => .pure ⟨trivial, .refl _⟩) (fun _ => .ite (fun h => ?_) (fun _ => ?_))
  · exact UMap.fromVec_honest env hu hP h32 (fun hn => absurd ⟨255, by simp, h⟩ hn)
  · exact UMap.fromVec_honest env hu hP h32 (fun hn => hbig (Nat.le_of_not_lt (fun h =>
      hn ⟨2 ^ 31 - 1, by simp, by omega⟩)))

end

/-! ### Strings -/

section
variable {p : Prop} {h : HasherCode σ} {hk hw : Bytes → Nat}

omit [Target] in
theorem HasherCode.Honest.safe (hh : h.Honest p hk hw) : h.Safe p :=
  ⟨fun k => (hh.hashKey k).mono id id fun _ _ => trivial, hh.hashSub,
    fun k => (hh.writeSub k).mono id id fun _ _ => trivial⟩

omit [Target] in
theorem HasherCode.sliceHash_honest (hh : h.Honest p hk hw) {s : Bytes} {a b : Nat} (hab : a ≤ b)
    (hb : b ≤ s.length) :
    Behaves False p (h.sliceHash s a b) (fun c => c = hw ((s.drop a).take (b - a))) := by
  unfold HasherCode.sliceHash
  refine (Behaves.lift (post := fun x => x = (s.drop a).take (b - a)) (if_pos ⟨hab, hb⟩) rfl).bind ?_
  rintro _ rfl
  exact hh.writeSub _

omit [Target] in
theorem bytes_lawful : LawfulEq beq :=
  ⟨by simp [beq], by simp +contextual [beq], by simp +contextual [beq]⟩

theorem commonCode_answers (hh : h.Honest p hk hw) (oc : Bool) :
    (StringRep.common.code oc h).Answers p (fun _ => True) hk hk beq id where
  sizeCode k _ := (hh.hashKey k).mono id id fun _ _ => trivial
  slotCode k _ := hh.hashKey k
  probeCode q := hh.hashKey q
  isMatch q k := .pure rfl
  isSame a b := .pure rfl
  lawful := bytes_lawful
  hash q k _ hb := by
    have : q = k := by simpa [beq] using hb
    rw [this]

theorem lengthCode_answers (oc : Bool) :
    (StringRep.length.code oc h).Answers p (fun _ => True) List.length List.length beq id where
  sizeCode k _ := .pure trivial
  slotCode k _ := .pure rfl
  probeCode q := .pure rfl
  isMatch q k := .pure rfl
  isSame a b := .pure rfl
  lawful := bytes_lawful
  hash q k _ hb := by
    have : q = k := by simpa [beq] using hb
    rw [this]

theorem leftCode_answers (hh : h.Honest p hk hw) (oc : Bool) {a b : Nat} (hab : a ≤ b) :
    ((StringRep.left a b).code oc h).Answers p (fun k => b ≤ k.length)
      (fun k => hw ((k.drop a).take (b - a)))
      (fun q => if q.length ≥ b then hw ((q.drop a).take (b - a)) else 0) beq id where
  sizeCode k hk := by
    refine .ite (fun _ => ?_) (fun _ => .pure trivial)
    exact (HasherCode.sliceHash_honest hh hab hk).mono id id fun _ _ => trivial
  slotCode k hk := HasherCode.sliceHash_honest hh hab hk
  probeCode q := by
    refine .ite (fun hq => ?_) (fun hq => .pure ?_)
    · exact (HasherCode.sliceHash_honest hh hab hq).mono id id fun c hc => by rw [hc, if_pos hq]
    · rw [if_neg hq]
  isMatch q k := .pure rfl
  isSame a b := .pure rfl
  lawful := bytes_lawful
  hash q k hk hb := by
    have : q = k := by simpa [beq] using hb
    rw [this, if_pos hk]

theorem UMap.stringFacade_honest (env : Env) (hh : h.Honest p hk hw) {payload : List (Bytes × V)}
    (h32 : payload.length < 2 ^ 32) (hbig : 2 ^ 31 ≤ payload.length → p)
    (hlt : ∀ e ∈ payload, e.1.length < usz) :
    Behaves (TriesEnds (payload.map (·.1))) (p ∨ TriesEnds (payload.map (·.1)))
      (UMap.stringFacade env h payload)
      (fun m => ∃ P code probe, (m.1.code env.oc h).Answers p P code probe beq id ∧
        UMap.Placed P code m.2 ∧ m.2.entries.Perm payload) := by
  unfold UMap.stringFacade
  refine .ite (fun _ => .pure ⟨_, _, _, commonCode_answers hh env.oc, trivial, .refl _⟩) (fun h4 => ?_)
  have hne : payload ≠ [] := by rintro rfl; simp at h4
  have hmem : ∀ {k : Bytes → Prop}, (∀ x ∈ payload.map (·.1), k x) → ∀ e ∈ payload, k e.1 :=
    fun hk e he => hk _ (List.mem_map.2 ⟨e, he, rfl⟩)
  have hbuild : ∀ (S : IdxTy), (¬ S.Holds payload.length → p) → ∀ (v : SliceVerdict),
      GoodVerdict (payload.map (·.1)) v → ∀ rep, (rep = v.rep ∨ rep = .common) →
      Behaves (TriesEnds (payload.map (·.1))) (p ∨ TriesEnds (payload.map (·.1)))
        (do return (rep, ← UMap.fromVec env S (rep.code env.oc h) payload))
        (fun m => ∃ P code probe, (m.1.code env.oc h).Answers p P code probe beq id ∧
          UMap.Placed P code m.2 ∧ m.2.entries.Perm payload) := by
    intro S hS v hv rep hrep
    have hgood : ∀ (rep : StringRep) (P : Bytes → Prop) (code probe : Bytes → Nat),
        (rep.code env.oc h).Answers p P code probe beq id → (∀ e ∈ payload, P e.1) →
        Behaves (TriesEnds (payload.map (·.1))) (p ∨ TriesEnds (payload.map (·.1)))
          (do return (rep, ← UMap.fromVec env S (rep.code env.oc h) payload))
          (fun m => ∃ P code probe, (m.1.code env.oc h).Answers p P code probe beq id ∧
            UMap.Placed P code m.2 ∧ m.2.entries.Perm payload) :=
      fun rep P code probe ha hP => ((UMap.fromVec_honest env ha hP h32 hS).mono False.elim Or.inl
        (fun _ h => h)).bind (fun m hm => .pure ⟨P, code, probe, ha, hm⟩)
    have hcommon := hgood .common _ _ _ (commonCode_answers hh _) (fun _ _ => trivial)
    rcases hrep with rfl | rfl
    · cases v with
      | normal => exact hcommon
      | left i l =>
        exact hgood (.left i (i + l)) _ _ _ (leftCode_answers hh _ (Nat.le_add_right _ _))
          (hmem (hv.1 i l rfl))
      | right i l =>
        obtain ⟨hT, rfl, hin⟩ := hv.2 i l rfl
        exact ((fromVec_right_ub hne (hmem hin)).mono (fun _ => hT) False.elim
          (fun _ h => h)).bind (fun _ h => h.elim)
      | length => exact hgood .length _ _ _ (lengthCode_answers _) (fun _ _ => trivial)
    · exact hcommon
  refine ((analyzeSliceKeysU_behaves (keys := payload.map (·.1)) hh.safe (by simpa using h4)
    (fun k hk => by obtain ⟨e, he, rfl⟩ := List.mem_map.1 hk; exact hlt e he)).mono False.elim id
      (fun _ h => h)).bind (fun v hv => ?_)
  refine .ite (fun h255 => ?_) (fun _ => ?_)
  · exact hbuild IdxTy.u8 (fun hn => absurd ⟨255, by simp, h255⟩ hn) v hv _ (Or.inl rfl)
  · refine hbuild IdxTy.usize (fun hn => hbig (Nat.le_of_not_lt (fun h =>
      hn ⟨2 ^ 31 - 1, by simp, by omega⟩))) v hv _ ?_
    by_cases hv' : v = .length
    · rw [if_pos hv']; exact Or.inr rfl
    · rw [if_neg hv']; exact Or.inl rfl

end

end FC
