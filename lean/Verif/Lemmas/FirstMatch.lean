import Verif.Spec.FirstMatch
import Verif.Lemmas.History

/-
A map whose lookups are linear scans of its entries is its entry list.
-/

set_option autoImplicit false

namespace FC
variable [Target]
variable {M K V Q : Type}

omit [Target] in
theorem scan_firstMatch {eq : Q → Q → Bool} {borrow : K → Q} {q : Q} (es : List (K × V)) (i : Nat) :
    (scan eq borrow q i es).map (fun r => (r.1, r.2.val)) = FirstMatch.find eq borrow es q := by
  induction es generalizing i with
  | nil => rfl
  | cons e es ih =>
    unfold scan FirstMatch.find
    by_cases h : eq q (borrow e.1) = true
    · simp [h]
    · simp only [h, Bool.false_eq_true, if_false]
      exact ih _

omit [Target] in
theorem firstMatch_assign_none {eq : Q → Q → Bool} {borrow : K → Q} {q : Q} {es : List (K × V)}
    (h : ∀ e ∈ es, eq q (borrow e.1) = false) (v : V) :
    FirstMatch.assign eq borrow es q v = es := by
  induction es with
  | nil => rfl
  | cons e es ih =>
    unfold FirstMatch.assign
    rw [h e List.mem_cons_self, ih (fun e' he' => h e' (List.mem_cons_of_mem _ he'))]
    rfl

omit [Target] in
theorem firstMatch_assign_keys (eq : Q → Q → Bool) (borrow : K → Q) (d : List (K × V)) (q : Q)
    (v : V) : (FirstMatch.assign eq borrow d q v).map (·.1) = d.map (·.1) := by
  induction d with
  | nil => rfl
  | cons e d ih =>
    unfold FirstMatch.assign
    split
    · rfl
    · simp [ih]

omit [Target] in
/-- Writing through the reference a scan returned replaces the first match; the reference stays good
after other writes. -/
theorem setVal_firstMatch {eq : Q → Q → Bool} {borrow : K → Q} {es es' : List (K × V)}
    (hkeys : es'.map (·.1) = es.map (·.1)) {q : Q} {k : K} {r : Ref V} {i : Nat}
    (h : scan eq borrow q i es = some (k, r)) (v : V) :
    setVal es' (r.idx - i) v = FirstMatch.assign eq borrow es' q v := by
  induction es generalizing es' i with
  | nil => simp [scan] at h
  | cons e es ih =>
    cases es' with
    | nil => simp at hkeys
    | cons e' es' =>
      simp only [List.map_cons, List.cons.injEq] at hkeys
      obtain ⟨h1, _, _, _⟩ := scan_some h
      unfold scan at h
      unfold FirstMatch.assign
      rw [hkeys.1]
      by_cases hm : eq q (borrow e.1) = true
      · rw [if_pos hm] at h ⊢
        simp only [Option.some.injEq, Prod.mk.injEq] at h
        obtain ⟨_, rfl⟩ := h
        simp only [Nat.sub_self]
        apply List.ext_getElem?
        intro j
        rw [setVal_getElem?]
        cases j <;> simp [hkeys.1]
      · rw [if_neg hm] at h ⊢
        obtain ⟨h2, _, _, _⟩ := scan_some h
        rw [← ih hkeys.2 h]
        have hidx : r.idx - i = (r.idx - (i + 1)) + 1 := by omega
        rw [hidx]
        apply List.ext_getElem?
        intro j
        rw [setVal_getElem?]
        cases j with
        | zero => simp
        | succ j =>
          simp only [List.getElem?_cons_succ, setVal_getElem?, Nat.succ_eq_add_one,
            Nat.add_right_cancel_iff]

omit [Target] in
theorem found_values' {eq : Q → Q → Bool} {borrow : K → Q} {es : List (K × V)}
    {qvs : List (Q × V)} {rs : List (Ref V)} (h : Found eq borrow es qvs rs) :
    qvs.filterMap (fun qv => (FirstMatch.find eq borrow es qv.1).map (·.2)) = rs.map Ref.val := by
  induction h with
  | nil => rfl
  | cons h _ ih =>
    obtain ⟨k, hk⟩ := h
    rw [List.filterMap_cons, ← scan_firstMatch _ 0, hk]
    simp [ih]

omit [Target] in
theorem ScanMap.write_many_list {A : MapApi M K V Q} {eq : Q → Q → Bool} {borrow : K → Q}
    {Inv : M → Prop} {ents : M → List (K × V)} (hA : ScanMap A eq borrow Inv ents)
    {es : List (K × V)} {qvs : List (Q × V)} {rs : List (Ref V)} (hF : Found eq borrow es qvs rs) :
    ∀ {m : M}, Inv m → (ents m).map (·.1) = es.map (·.1) →
      let m' := (rs.zip (qvs.map (·.2))).foldl (fun m rv => A.write m rv.1.idx rv.2) m
      Inv m' ∧ ents m' = qvs.foldl (fun d qv => FirstMatch.assign eq borrow d qv.1 qv.2) (ents m) := by
  induction hF with
  | nil => intro m hm _; exact ⟨hm, rfl⟩
  | cons h _ ih =>
    rename_i qv r qvs rs _
    intro m hm hk
    obtain ⟨k, hs⟩ := h
    have he : ents (A.write m r.idx qv.2) = FirstMatch.assign eq borrow (ents m) qv.1 qv.2 := by
      rw [hA.ents_write, ← setVal_firstMatch hk hs]
      rfl
    have := ih (m := A.write m r.idx qv.2) (hA.inv_write _ _ _ hm)
      (by rw [he, firstMatch_assign_keys, hk])
    rw [he] at this
    exact this

omit [Target] in
/-- One step. -/
theorem ScanMap.step_list {A : MapApi M K V Q} {eq : Q → Q → Bool} {borrow : K → Q}
    {Inv : M → Prop} {ents : M → List (K × V)} (hA : ScanMap A eq borrow Inv ents) {m : M}
    (hm : Inv m) (op : MapOp V Q) :
    match FirstMatch.step eq borrow (ents m) op with
    | .ok (out, d') => ∃ m', A.step m op = .ok (out, m') ∧ Inv m' ∧ ents m' = d'
    | .panic => A.step m op = .panic
    | .ub => False := by
  have hf : ∀ q, (scan eq borrow q 0 (ents m)).map (fun r => (r.1, r.2.val))
      = FirstMatch.find eq borrow (ents m) q := fun q => scan_firstMatch _ 0
  have hval : ∀ q, ((scan eq borrow q 0 (ents m)).map (·.2)).map Ref.val
      = (FirstMatch.find eq borrow (ents m) q).map (·.2) := fun q => by
    rw [← hf, Option.map_map, Option.map_map]; rfl
  have hget := fun q => hA.get m q hm
  have hmut : ∀ q, A.getMut m q = .ok ((scan eq borrow q 0 (ents m)).map (·.2)) := fun q => by
    rw [hA.getMut, hget]
  cases op with
  | get q =>
    simp only [FirstMatch.step, MapApi.step, hget, Res.ok_bind, Res.pure_eq]
    exact ⟨_, by rw [hval], hm, rfl⟩
  | getKeyValue q =>
    simp only [FirstMatch.step, MapApi.step, hA.kv m q hm, Res.ok_bind, Res.pure_eq]
    exact ⟨_, by rw [hf], hm, rfl⟩
  | containsKey q =>
    simp only [FirstMatch.step, MapApi.step, hA.contains, hget, Res.map_ok, Res.ok_bind, Res.pure_eq]
    refine ⟨_, ?_, hm, rfl⟩
    rw [← hf]
    simp
  | index q =>
    simp only [FirstMatch.step, MapApi.step, hA.index, hget]
    rw [← hf]
    cases hs : scan eq borrow q 0 (ents m) with
    | none => simp [indexOf]
    | some r =>
      simp only [Option.map_some, indexOf, Res.ok_bind, Res.pure_eq]
      exact ⟨_, rfl, hm, rfl⟩
  | len =>
    simp only [FirstMatch.step, MapApi.step]
    exact ⟨_, by rw [hA.len m hm], hm, rfl⟩
  | iter =>
    simp only [FirstMatch.step, MapApi.step, hA.iter]
    refine ⟨_, ?_, hm, rfl⟩
    rw [MapIter.new, MapIter.fold_eq _ _ _ 0 _ rfl, List.drop_zero]
    have : ∀ (l acc : List (K × V)), l.foldl (fun l e => l ++ [e]) acc = acc ++ l := by
      intro l; induction l with
      | nil => simp
      | cons a l ih => intro acc; simp [ih]
    rw [this, List.nil_append]
  | keys =>
    simp only [FirstMatch.step, MapApi.step, hA.keys]
    refine ⟨_, ?_, hm, rfl⟩
    rw [MapKeys.fold, MapKeys.new, MapIter.new, MapIter.fold_eq _ _ _ 0 _ rfl, List.drop_zero]
    have : ∀ (l : List (K × V)) (acc : List K),
        l.foldl (fun l e => l ++ [e.1]) acc = acc ++ l.map (·.1) := by
      intro l; induction l with
      | nil => simp
      | cons a l ih => intro acc; simp [ih]
    rw [this, List.nil_append]
  | values =>
    simp only [FirstMatch.step, MapApi.step, hA.values]
    refine ⟨_, ?_, hm, rfl⟩
    rw [MapValues.fold, MapValues.new, MapIter.new, MapIter.fold_eq _ _ _ 0 _ rfl, List.drop_zero]
    have : ∀ (l : List (K × V)) (acc : List V),
        l.foldl (fun l e => l ++ [e.2]) acc = acc ++ l.map (·.2) := by
      intro l; induction l with
      | nil => simp
      | cons a l ih => intro acc; simp [ih]
    rw [this, List.nil_append]
  | getMut q v =>
    simp only [FirstMatch.step, MapApi.step, hmut]
    cases hs : scan eq borrow q 0 (ents m) with
    | none =>
      simp only [Option.map_none, Res.ok_bind, Res.pure_eq]
      refine ⟨m, ?_, hm, (firstMatch_assign_none (scan_none.1 hs) v).symm⟩
      rw [← hf, hs]; rfl
    | some r =>
      obtain ⟨k, r⟩ := r
      simp only [Option.map_some, Res.ok_bind, Res.pure_eq]
      refine ⟨A.write m r.idx v, ?_, hA.inv_write _ _ _ hm, ?_⟩
      · rw [← hf, hs]; rfl
      · rw [hA.ents_write, ← setVal_firstMatch rfl hs]
        rfl
  | indexMut q v =>
    simp only [FirstMatch.step, MapApi.step, hA.indexMut, hmut]
    rw [← hf]
    cases hs : scan eq borrow q 0 (ents m) with
    | none => simp [indexOf]
    | some r =>
      obtain ⟨k, r⟩ := r
      simp only [Option.map_some, indexOf, Res.ok_bind, Res.pure_eq]
      refine ⟨A.write m r.idx v, rfl, hA.inv_write _ _ _ hm, ?_⟩
      rw [hA.ents_write, ← setVal_firstMatch rfl hs]
      rfl
  | getManyMut qvs =>
    simp only [FirstMatch.step, MapApi.step, hA.many, getManyMut]
    have hall := getAll_eq (get := A.get m) (f := fun q => (scan eq borrow q 0 (ents m)).map (·.2))
      (qvs.map (·.1)) (fun k _ => hget k)
    by_cases hdup : hasDup eq [] (qvs.map (·.1)) = true
    · have hno : ¬ (qvs.map (·.1)).Pairwise (fun a b => eq a b = false) := by
        intro hpw
        rw [(hasDup_eq_false _ []).2 ⟨by simp, hpw⟩] at hdup
        cases hdup
      rw [if_pos hdup, if_neg (fun h => hno h.1)]
      exact ⟨_, rfl, hm, rfl⟩
    · have hpw := ((hasDup_eq_false _ []).1 (by simpa using hdup)).2
      rw [if_neg hdup, hall]
      simp only [Res.ok_bind]
      cases hmm : (qvs.map (·.1)).mapM (fun q => (scan eq borrow q 0 (ents m)).map (·.2)) with
      | none =>
        obtain ⟨q, hq, hqn⟩ := (mapM_none_iff _).1 hmm
        obtain ⟨qv, hqv, rfl⟩ := List.mem_map.1 hq
        rw [if_neg]
        · exact ⟨_, rfl, hm, rfl⟩
        · rintro ⟨_, h⟩
          have := h qv hqv
          rw [← hf] at this
          cases hs : scan eq borrow qv.1 0 (ents m) with
          | none => rw [hs] at this; simp at this
          | some r => rw [hs] at hqn; simp at hqn
      | some rs =>
        have hF := found_of_map ((mapM_some_iff _ _).1 hmm)
        rw [if_pos]
        · simp only [Res.pure_eq]
          obtain ⟨h1, h2⟩ := hA.write_many_list hF hm rfl
          refine ⟨_, ?_, h1, h2⟩
          rw [found_values' hF]
        · refine ⟨hpw, fun qv hqv => ?_⟩
          obtain ⟨r, k, hs⟩ := found_mem hF qv hqv
          rw [← hf, hs]
          rfl

omit [Target] in
/-- Whole histories, with the final states. -/
theorem ScanMap.run_list {A : MapApi M K V Q} {eq : Q → Q → Bool} {borrow : K → Q}
    {Inv : M → Prop} {ents : M → List (K × V)} (hA : ScanMap A eq borrow Inv ents) {m : M}
    (hm : Inv m) (ops : List (MapOp V Q)) :
    match FirstMatch.run eq borrow (ents m) ops with
    | .ok (outs, d') => ∃ m', A.run m ops = .ok (outs, m') ∧ Inv m' ∧ ents m' = d'
    | .panic => A.run m ops = .panic
    | .ub => False := by
  induction ops generalizing m with
  | nil => exact ⟨_, rfl, hm, rfl⟩
  | cons op ops ih =>
    have h1 := hA.step_list hm op
    unfold FirstMatch.run MapApi.run
    cases hs : FirstMatch.step eq borrow (ents m) op with
    | ub => rw [hs] at h1; exact h1.elim
    | panic => rw [hs] at h1; simp [h1]
    | ok r =>
      obtain ⟨out, d'⟩ := r
      rw [hs] at h1
      obtain ⟨m', ha, hi, rfl⟩ := h1
      have h2 := ih hi
      simp only [ha, Res.ok_bind]
      cases hr : FirstMatch.run eq borrow (ents m') ops with
      | ub => rw [hr] at h2; exact h2.elim
      | panic => rw [hr] at h2; simp [h2]
      | ok r =>
        obtain ⟨outs, d''⟩ := r
        rw [hr] at h2
        obtain ⟨m'', hb, hi', he⟩ := h2
        simp only [hb, Res.ok_bind, Res.pure_eq]
        exact ⟨_, rfl, hi', he⟩

omit [Target] in
theorem ScanMap.isList {A : MapApi M K V Q} {eq : Q → Q → Bool} {borrow : K → Q}
    {Inv : M → Prop} {ents : M → List (K × V)} (hA : ScanMap A eq borrow Inv ents) {m : M}
    (hm : Inv m) : IsList A eq borrow m (ents m) := by
  intro ops
  have h := hA.run_list hm ops
  cases hr : FirstMatch.run eq borrow (ents m) ops with
  | ub => rw [hr] at h; exact h
  | panic => rw [hr] at h; exact h
  | ok r =>
    rw [hr] at h
    obtain ⟨m', h1, _⟩ := h
    exact ⟨m', h1⟩

omit [Target] in
theorem ScanMap.eqIsList {A : MapApi M K V K} {eq : K → K → Bool}
    {Inv : M → Prop} {ents : M → List (K × V)} (hA : ScanMap A eq id Inv ents)
    (veq : V → V → Bool) {m₁ m₂ : M} (hm₁ : Inv m₁) (hm₂ : Inv m₂) :
    EqIsList A eq veq m₁ m₂ (ents m₁) (ents m₂) := by
  intro ops₁ ops₂ r₁ r₂ s₁ s₂ hr₁ hr₂ hs₁ hs₂
  have h₁ := hA.run_list hm₁ ops₁
  have h₂ := hA.run_list hm₂ ops₂
  rw [hs₁] at h₁
  rw [hs₂] at h₂
  obtain ⟨m₁', ha₁, hi₁, he₁⟩ := h₁
  obtain ⟨m₂', ha₂, hi₂, he₂⟩ := h₂
  rw [hr₁] at ha₁
  rw [hr₂] at ha₂
  cases ha₁
  cases ha₂
  unfold MapApi.partialEq mapEq
  rw [hA.len _ hi₁, hA.len _ hi₂, hA.iter, he₁, he₂]
  by_cases hlen : s₁.2.length = s₂.2.length
  · have hall : Res.allList (fun e => (A.get m₂' e.1).map
        (fun o => match o with | none => false | some r => veq e.2 r.val)) s₁.2
        = .ok (s₁.2.all (fun e => match FirstMatch.find eq id s₂.2 e.1 with
          | none => false | some e' => veq e.2 e'.2)) := by
      apply Res.allList_ok
      intro e _
      rw [hA.get _ _ hi₂, Res.map_ok, ← scan_firstMatch _ 0, he₂]
      cases scan eq id e.1 0 s₂.2 <;> rfl
    refine ⟨_, (if_neg (not_not.2 hlen)).trans hall, ?_⟩
    rw [List.all_eq_true]
    refine ⟨fun h => ⟨hlen, fun e he => ?_⟩, fun h e he => ?_⟩
    · have := h e he
      cases hf : FirstMatch.find eq id s₂.2 e.1 with
      | none => rw [hf] at this; cases this
      | some e' => rw [hf] at this; exact ⟨e', rfl, this⟩
    · obtain ⟨e', h1, h2⟩ := h.2 e he
      rw [h1]
      exact h2
  · exact ⟨false, by rw [if_pos hlen], by simp [hlen]⟩

end FC
