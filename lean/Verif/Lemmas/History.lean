import Verif.Spec.History
import Verif.Lemmas.Equality
import Verif.Props.MapIter

/-
A map whose lookups are linear scans of its entries refines the reference dictionary.
-/

set_option autoImplicit false

namespace FC
variable [Target]
variable {M K V Q : Type}

/-- What a map type guarantees on the states satisfying `Inv`, whose entries are `ents`. -/
structure ScanMap (A : MapApi M K V Q) (eq : Q → Q → Bool) (borrow : K → Q) (Inv : M → Prop)
    (ents : M → List (K × V)) : Prop where
  kv : ∀ m q, Inv m → A.getKeyValue m q = .ok (scan eq borrow q 0 (ents m))
  get : ∀ m q, Inv m → A.get m q = .ok ((scan eq borrow q 0 (ents m)).map (·.2))
  getMut : ∀ m q, A.getMut m q = A.get m q
  contains : ∀ m q, A.containsKey m q = (A.get m q).map Option.isSome
  index : ∀ m q, A.index m q = indexOf (A.get m q)
  indexMut : ∀ m q, A.indexMut m q = indexOf (A.getMut m q)
  many : ∀ m qs, A.getManyMut m qs = getManyMut eq (A.get m) qs
  len : ∀ m, Inv m → A.len m = (ents m).length
  iter : ∀ m, A.iter m = MapIter.new (ents m)
  keys : ∀ m, A.keys m = MapKeys.new (ents m)
  values : ∀ m, A.values m = MapValues.new (ents m)
  inv_write : ∀ m i v, Inv m → Inv (A.write m i v)
  ents_write : ∀ m i v, ents (A.write m i v) = setVal (ents m) i v

omit [Target] in
theorem scan_dict {eq : Q → Q → Bool} {borrow : K → Q} {q : Q} (es : List (K × V)) (i : Nat) :
    (scan eq borrow q i es).map (fun r => (r.1, r.2.val)) = Dict.find eq borrow es q := by
  induction es generalizing i with
  | nil => rfl
  | cons e es ih =>
    unfold scan Dict.find
    by_cases h : eq q (borrow e.1) = true
    · simp [h]
    · simp only [h, Bool.false_eq_true, if_false, List.find?_cons]
      exact ih _

omit [Target] in
theorem DistinctKeys.of_keys {K' : Type} {eq : K → K → Bool} {p : List (K × V)}
    {p' : List (K × K')} (h : p'.map (·.1) = p.map (·.1)) (hd : DistinctKeys eq p) :
    DistinctKeys eq p' := by
  unfold DistinctKeys at *
  have h1 : (p.map (·.1)).Pairwise (fun a b => eq a b = false) := List.pairwise_map.2 hd
  rw [← h] at h1
  exact List.pairwise_map.1 h1

omit [Target] in
theorem LawfulEq.comap {eq : Q → Q → Bool} (h : LawfulEq eq) (borrow : K → Q) :
    LawfulEq (fun a b => eq (borrow a) (borrow b)) :=
  ⟨fun _ => h.refl _, fun _ _ => h.symm _ _, fun _ _ _ => h.trans _ _ _⟩

omit [Target] in
/-- Two entries matching the same probe have equal keys. -/
theorem match_both {eq : Q → Q → Bool} (heq : LawfulEq eq) {q a b : Q} (ha : eq q a = true)
    (hb : eq q b = true) : eq a b = true := heq.trans _ _ _ (heq.symm _ _ ha) hb

omit [Target] in
theorem distinct_match {eq : Q → Q → Bool} (heq : LawfulEq eq) {borrow : K → Q}
    {p : List (K × V)} (hd : DistinctKeys (fun a b => eq (borrow a) (borrow b)) p) {i j : Nat}
    {a b : K × V} (hi : p[i]? = some a) (hj : p[j]? = some b) {q : Q}
    (ha : eq q (borrow a.1) = true) (hb : eq q (borrow b.1) = true) : i = j := by
  obtain ⟨hi', rfl⟩ := List.getElem?_eq_some_iff.1 hi
  obtain ⟨hj', rfl⟩ := List.getElem?_eq_some_iff.1 hj
  by_contra hne
  have hp := List.pairwise_iff_getElem.1 hd
  rcases Nat.lt_or_gt_of_ne hne with h | h
  · have := hp i j hi' hj' h
    simp only [match_both heq ha hb] at this
    cases this
  · have := hp j i hj' hi' h
    simp only [match_both heq hb ha] at this
    cases this

omit [Target] in
theorem find_perm {eq : Q → Q → Bool} (heq : LawfulEq eq) {borrow : K → Q} {p d : List (K × V)}
    (hp : p.Perm d) (hd : DistinctKeys (fun a b => eq (borrow a) (borrow b)) d) (q : Q) :
    Dict.find eq borrow p q = Dict.find eq borrow d q := by
  unfold Dict.find
  cases h1 : p.find? (fun e => eq q (borrow e.1)) with
  | none =>
    cases h2 : d.find? (fun e => eq q (borrow e.1)) with
    | none => rfl
    | some b =>
      have hb := List.mem_of_find?_eq_some h2
      exact absurd (List.find?_some h2) (List.find?_eq_none.1 h1 b (hp.mem_iff.2 hb))
  | some a =>
    have ha := hp.mem_iff.1 (List.mem_of_find?_eq_some h1)
    cases h2 : d.find? (fun e => eq q (borrow e.1)) with
    | none => exact absurd (List.find?_some h1) (List.find?_eq_none.1 h2 a ha)
    | some b =>
      have hb := List.mem_of_find?_eq_some h2
      obtain ⟨i, hi⟩ := List.mem_iff_getElem?.1 ha
      obtain ⟨j, hj⟩ := List.mem_iff_getElem?.1 hb
      have hqa : eq q (borrow a.1) = true := by simpa using List.find?_some h1
      have hqb : eq q (borrow b.1) = true := by simpa using List.find?_some h2
      have := distinct_match heq hd hi hj hqa hqb
      subst this
      rw [hi] at hj
      exact hj

omit [Target] in
theorem assign_keys (eq : Q → Q → Bool) (borrow : K → Q) (d : List (K × V)) (q : Q) (v : V) :
    (Dict.assign eq borrow d q v).map (·.1) = d.map (·.1) := by
  unfold Dict.assign
  rw [List.map_map]
  apply List.map_congr_left
  intro e _
  simp only [Function.comp]
  split <;> rfl

omit [Target] in
theorem assign_perm {eq : Q → Q → Bool} {borrow : K → Q} {p d : List (K × V)} (h : p.Perm d)
    (q : Q) (v : V) : (Dict.assign eq borrow p q v).Perm (Dict.assign eq borrow d q v) :=
  h.map _

omit [Target] in
/-- Writing through the reference a scan returned is assignment by key; the reference stays good
after other writes. -/
theorem setVal_assign {eq : Q → Q → Bool} (heq : LawfulEq eq) {borrow : K → Q}
    {es es' : List (K × V)} (hd : DistinctKeys (fun a b => eq (borrow a) (borrow b)) es)
    (hkeys : es'.map (·.1) = es.map (·.1)) {q : Q} {k : K} {r : Ref V}
    (h : scan eq borrow q 0 es = some (k, r)) (v : V) :
    setVal es' r.idx v = Dict.assign eq borrow es' q v := by
  obtain ⟨_, h1, h2, _⟩ := scan_some h
  apply List.ext_getElem?
  intro j
  unfold Dict.assign
  rw [setVal_getElem?, List.getElem?_map]
  have hj : (es'.map (·.1))[j]? = (es.map (·.1))[j]? := by rw [hkeys]
  rw [List.getElem?_map, List.getElem?_map] at hj
  cases he' : es'[j]? with
  | none => simp
  | some e' =>
    rw [he'] at hj
    cases he : es[j]? with
    | none => rw [he] at hj; cases hj
    | some e =>
      rw [he] at hj
      have hk : e'.1 = e.1 := by simpa using hj
      by_cases hm : eq q (borrow e'.1) = true
      · have : r.idx - 0 = j := distinct_match heq hd h1 he h2 (by rw [← hk]; exact hm)
        simp only [Nat.sub_zero] at this
        simp [this, hm]
      · have : r.idx ≠ j := by
          rintro rfl
          rw [Nat.sub_zero] at h1
          rw [h1] at he
          cases he
          exact hm (by rw [hk]; exact h2)
        simp [this, hm]

/-- Each reference is where a scan finds its probe. -/
abbrev Found (eq : Q → Q → Bool) (borrow : K → Q) (es : List (K × V)) (qvs : List (Q × V))
    (rs : List (Ref V)) : Prop :=
  List.Forall₂ (fun qv r => ∃ k, scan eq borrow qv.1 0 es = some (k, r)) qvs rs

omit [Target] in
theorem found_of_map {eq : Q → Q → Bool} {borrow : K → Q} {es : List (K × V)}
    {qvs : List (Q × V)} {rs : List (Ref V)}
    (h : (qvs.map (·.1)).map (fun q => (scan eq borrow q 0 es).map (·.2)) = rs.map some) :
    Found eq borrow es qvs rs := by
  induction qvs generalizing rs with
  | nil =>
    cases rs with
    | nil => exact .nil
    | cons r rs => simp at h
  | cons qv qvs ih =>
    cases rs with
    | nil => simp at h
    | cons r rs =>
      simp only [List.map_cons, List.cons.injEq] at h
      refine .cons ?_ (ih h.2)
      cases hs : scan eq borrow qv.1 0 es with
      | none => rw [hs] at h; simp at h
      | some x =>
        rw [hs] at h
        obtain ⟨k, r'⟩ := x
        have : r' = r := by simpa using h.1
        exact ⟨k, by rw [this]⟩

omit [Target] in
theorem found_mem {eq : Q → Q → Bool} {borrow : K → Q} {es : List (K × V)}
    {qvs : List (Q × V)} {rs : List (Ref V)} (h : Found eq borrow es qvs rs) :
    ∀ qv ∈ qvs, ∃ r k, scan eq borrow qv.1 0 es = some (k, r) := by
  induction h with
  | nil => simp
  | cons h _ ih =>
    intro qv hqv
    rcases List.mem_cons.1 hqv with rfl | hqv
    · obtain ⟨k, hk⟩ := h; exact ⟨_, k, hk⟩
    · exact ih qv hqv

omit [Target] in
theorem found_values {eq : Q → Q → Bool} {borrow : K → Q} {es d : List (K × V)}
    {qvs : List (Q × V)} {rs : List (Ref V)} (h : Found eq borrow es qvs rs)
    (hf : ∀ q, (scan eq borrow q 0 es).map (fun r => (r.1, r.2.val)) = Dict.find eq borrow d q) :
    qvs.filterMap (fun qv => (Dict.find eq borrow d qv.1).map (·.2)) = rs.map Ref.val := by
  induction h with
  | nil => rfl
  | cons h _ ih =>
    obtain ⟨k, hk⟩ := h
    rw [List.filterMap_cons, ← hf, hk]
    simp [ih]

omit [Target] in
/-- Writing through all references of one `get_many_mut` is assignment by key. -/
theorem ScanMap.write_many {A : MapApi M K V Q} {eq : Q → Q → Bool} {borrow : K → Q}
    {Inv : M → Prop} {ents : M → List (K × V)} (hA : ScanMap A eq borrow Inv ents)
    (heq : LawfulEq eq) {es : List (K × V)}
    (hde : DistinctKeys (fun a b => eq (borrow a) (borrow b)) es) {qvs : List (Q × V)}
    {rs : List (Ref V)} (hF : Found eq borrow es qvs rs) :
    ∀ {m : M} {d : List (K × V)}, Inv m → (ents m).Perm d →
      (ents m).map (·.1) = es.map (·.1) →
      let m' := (rs.zip (qvs.map (·.2))).foldl (fun m rv => A.write m rv.1.idx rv.2) m
      let d' := qvs.foldl (fun d qv => Dict.assign eq borrow d qv.1 qv.2) d
      Inv m' ∧ (ents m').Perm d' ∧ d'.map (·.1) = d.map (·.1) := by
  induction hF with
  | nil => intro m d hm hp _; exact ⟨hm, hp, rfl⟩
  | cons h _ ih =>
    rename_i qv r qvs rs _
    intro m d hm hp hk
    obtain ⟨k, hs⟩ := h
    have he : ents (A.write m r.idx qv.2) = Dict.assign eq borrow (ents m) qv.1 qv.2 := by
      rw [hA.ents_write, setVal_assign heq hde hk hs]
    have := ih (m := A.write m r.idx qv.2) (d := Dict.assign eq borrow d qv.1 qv.2)
      (hA.inv_write _ _ _ hm) (by rw [he]; exact assign_perm hp _ _)
      (by rw [he, assign_keys, hk])
    rw [assign_keys] at this
    exact this

omit [Target] in
/-- A map whose entries are those of the dictionary up to order behaves like it for one step. -/
theorem ScanMap.step {A : MapApi M K V Q} {eq : Q → Q → Bool} {borrow : K → Q} {Inv : M → Prop}
    {ents : M → List (K × V)} (hA : ScanMap A eq borrow Inv ents) (heq : LawfulEq eq) {m : M}
    (hm : Inv m) {d : List (K × V)} (hp : (ents m).Perm d)
    (hd : DistinctKeys (fun a b => eq (borrow a) (borrow b)) d) (op : MapOp V Q) :
    match Dict.step eq borrow d op with
    | .ok (out, d') => ∃ out' m', A.step m op = .ok (out', m') ∧ Out.Agree out out' ∧ Inv m' ∧
        (ents m').Perm d' ∧ d'.map (·.1) = d.map (·.1)
    | .panic => A.step m op = .panic
    | .ub => False := by
  have hde : DistinctKeys (fun a b => eq (borrow a) (borrow b)) (ents m) :=
    hd.perm (heq.comap borrow) hp.symm
  have hf : ∀ q, (scan eq borrow q 0 (ents m)).map (fun r => (r.1, r.2.val))
      = Dict.find eq borrow d q := fun q => by rw [scan_dict, find_perm heq hp hd]
  have hval : ∀ q, ((scan eq borrow q 0 (ents m)).map (·.2)).map Ref.val
      = (Dict.find eq borrow d q).map (·.2) := fun q => by
    rw [← hf, Option.map_map, Option.map_map]; rfl
  have hget := fun q => hA.get m q hm
  have hmut : ∀ q, A.getMut m q = .ok ((scan eq borrow q 0 (ents m)).map (·.2)) := fun q => by
    rw [hA.getMut, hget]
  cases op with
  | get q =>
    simp only [Dict.step, MapApi.step, hget, Res.ok_bind, Res.pure_eq]
    exact ⟨_, _, rfl, by rw [hval]; rfl, hm, hp, trivial⟩
  | getKeyValue q =>
    simp only [Dict.step, MapApi.step, hA.kv m q hm, Res.ok_bind, Res.pure_eq]
    exact ⟨_, _, rfl, by rw [hf]; rfl, hm, hp, trivial⟩
  | containsKey q =>
    simp only [Dict.step, MapApi.step, hA.contains, hget, Res.map_ok, Res.ok_bind, Res.pure_eq]
    refine ⟨_, _, rfl, ?_, hm, hp, trivial⟩
    rw [← hf]
    simp [Out.Agree]
  | index q =>
    simp only [Dict.step, MapApi.step, hA.index, hget]
    rw [← hf]
    cases hs : scan eq borrow q 0 (ents m) with
    | none => simp [indexOf]
    | some r =>
      simp only [Option.map_some, indexOf, Res.ok_bind, Res.pure_eq]
      exact ⟨_, _, rfl, rfl, hm, hp, trivial⟩
  | len =>
    simp only [Dict.step, MapApi.step]
    refine ⟨_, _, rfl, ?_, hm, hp, trivial⟩
    rw [hA.len m hm, hp.length_eq]
    rfl
  | iter =>
    simp only [Dict.step, MapApi.step, hA.iter]
    refine ⟨_, _, rfl, ?_, hm, hp, trivial⟩
    rw [MapIter.new, MapIter.fold_eq _ _ _ 0 _ rfl, List.drop_zero]
    have : ∀ (l acc : List (K × V)), l.foldl (fun l e => l ++ [e]) acc = acc ++ l := by
      intro l; induction l with
      | nil => simp
      | cons a l ih => intro acc; simp [ih]
    rw [this]
    exact hp.symm
  | keys =>
    simp only [Dict.step, MapApi.step, hA.keys]
    refine ⟨_, _, rfl, ?_, hm, hp, trivial⟩
    rw [MapKeys.fold, MapKeys.new, MapIter.new, MapIter.fold_eq _ _ _ 0 _ rfl, List.drop_zero]
    have : ∀ (l : List (K × V)) (acc : List K),
        l.foldl (fun l e => l ++ [e.1]) acc = acc ++ l.map (·.1) := by
      intro l; induction l with
      | nil => simp
      | cons a l ih => intro acc; simp [ih]
    rw [this]
    exact (hp.map _).symm
  | values =>
    simp only [Dict.step, MapApi.step, hA.values]
    refine ⟨_, _, rfl, ?_, hm, hp, trivial⟩
    rw [MapValues.fold, MapValues.new, MapIter.new, MapIter.fold_eq _ _ _ 0 _ rfl, List.drop_zero]
    have : ∀ (l : List (K × V)) (acc : List V),
        l.foldl (fun l e => l ++ [e.2]) acc = acc ++ l.map (·.2) := by
      intro l; induction l with
      | nil => simp
      | cons a l ih => intro acc; simp [ih]
    rw [this]
    exact (hp.map _).symm
  | getMut q v =>
    simp only [Dict.step, MapApi.step, hmut]
    cases hs : scan eq borrow q 0 (ents m) with
    | none =>
      simp only [Option.map_none, Res.ok_bind, Res.pure_eq]
      refine ⟨_, _, rfl, ?_, hm, ?_, assign_keys _ _ _ _ _⟩
      · rw [← hf, hs]; rfl
      · have : Dict.assign eq borrow d q v = d := by
          unfold Dict.assign
          conv_rhs => rw [← List.map_id d]
          apply List.map_congr_left
          intro e he
          rw [scan_none.1 hs e (hp.mem_iff.2 he)]
          rfl
        rw [this]; exact hp
    | some r =>
      obtain ⟨k, r⟩ := r
      simp only [Option.map_some, Res.ok_bind, Res.pure_eq]
      refine ⟨_, _, rfl, ?_, hA.inv_write _ _ _ hm, ?_, assign_keys _ _ _ _ _⟩
      · rw [← hf, hs]; rfl
      · rw [hA.ents_write, setVal_assign heq hde rfl hs]
        exact assign_perm hp q v
  | indexMut q v =>
    simp only [Dict.step, MapApi.step, hA.indexMut, hmut]
    rw [← hf]
    cases hs : scan eq borrow q 0 (ents m) with
    | none => simp [indexOf]
    | some r =>
      obtain ⟨k, r⟩ := r
      simp only [Option.map_some, indexOf, Res.ok_bind, Res.pure_eq]
      refine ⟨_, _, rfl, rfl, hA.inv_write _ _ _ hm, ?_, assign_keys _ _ _ _ _⟩
      rw [hA.ents_write, setVal_assign heq hde rfl hs]
      exact assign_perm hp q v
  | getManyMut qvs =>
    simp only [Dict.step, MapApi.step, hA.many, getManyMut]
    have hall := getAll_eq (get := A.get m) (f := fun q => (scan eq borrow q 0 (ents m)).map (·.2))
      (qvs.map (·.1)) (fun k _ => hget k)
    by_cases hdup : hasDup eq [] (qvs.map (·.1)) = true
    · have hno : ¬ (qvs.map (·.1)).Pairwise (fun a b => eq a b = false) := by
        intro hpw
        rw [(hasDup_eq_false _ []).2 ⟨by simp, hpw⟩] at hdup
        cases hdup
      rw [if_pos hdup, if_neg (fun h => hno h.1)]
      exact ⟨_, _, rfl, rfl, hm, hp, rfl⟩
    · have hpw := ((hasDup_eq_false _ []).1 (by simpa using hdup)).2
      rw [if_neg hdup, hall]
      simp only [Res.ok_bind]
      cases hmm : (qvs.map (·.1)).mapM (fun q => (scan eq borrow q 0 (ents m)).map (·.2)) with
      | none =>
        obtain ⟨q, hq, hqn⟩ := (mapM_none_iff _).1 hmm
        obtain ⟨qv, hqv, rfl⟩ := List.mem_map.1 hq
        rw [if_neg]
        · exact ⟨_, _, rfl, rfl, hm, hp, rfl⟩
        · rintro ⟨_, h⟩
          have := h qv hqv
          rw [← hf] at this
          cases hs : scan eq borrow qv.1 0 (ents m) with
          | none => rw [hs] at this; simp at this
          | some r => rw [hs] at hqn; simp at hqn
      | some rs =>
        have hF := found_of_map ((mapM_some_iff _ _).1 hmm)
        rw [if_pos]
        · simp only [Res.pure_eq]
          obtain ⟨h1, h2, h3⟩ := hA.write_many heq hde hF hm hp rfl
          refine ⟨_, _, rfl, ?_, h1, h2, h3⟩
          show Out.many _ = Out.many _
          rw [found_values hF (fun q => by rw [hf])]
        · refine ⟨hpw, fun qv hqv => ?_⟩
          obtain ⟨r, k, hs⟩ := found_mem hF qv hqv
          rw [← hf, hs]
          rfl

omit [Target] in
/-- Simulation of whole histories, with the final states. -/
theorem ScanMap.run {A : MapApi M K V Q} {eq : Q → Q → Bool} {borrow : K → Q}
    {Inv : M → Prop} {ents : M → List (K × V)} (hA : ScanMap A eq borrow Inv ents)
    (heq : LawfulEq eq) {m : M} (hm : Inv m) {d : List (K × V)} (hp : (ents m).Perm d)
    (hd : DistinctKeys (fun a b => eq (borrow a) (borrow b)) d) (ops : List (MapOp V Q)) :
    match Dict.run eq borrow d ops with
    | .ok (outs, d') => ∃ outs' m', A.run m ops = .ok (outs', m') ∧
        List.Forall₂ Out.Agree outs outs' ∧ Inv m' ∧ (ents m').Perm d' ∧ d'.map (·.1) = d.map (·.1)
    | .panic => A.run m ops = .panic
    | .ub => False := by
  induction ops generalizing m d with
  | nil => exact ⟨_, _, rfl, List.Forall₂.nil, hm, hp, rfl⟩
  | cons op ops ih =>
    have h1 := hA.step heq hm hp hd op
    unfold Dict.run MapApi.run
    cases hs : Dict.step eq borrow d op with
    | ub => rw [hs] at h1; exact h1.elim
    | panic => rw [hs] at h1; simp [h1]
    | ok r =>
      obtain ⟨out, d'⟩ := r
      rw [hs] at h1
      obtain ⟨out', m', ha, hag, hi, hp', hk⟩ := h1
      have h2 := ih hi hp' (hd.of_keys hk)
      simp only [ha, Res.ok_bind]
      cases hr : Dict.run eq borrow d' ops with
      | ub => rw [hr] at h2; exact h2.elim
      | panic => rw [hr] at h2; simp [h2]
      | ok r =>
        obtain ⟨outs, d''⟩ := r
        rw [hr] at h2
        obtain ⟨outs', m'', hb, hF, hi', hp'', hk'⟩ := h2
        simp only [hb, Res.ok_bind, Res.pure_eq]
        exact ⟨_, _, rfl, List.Forall₂.cons hag hF, hi', hp'', by rw [hk', hk]⟩

omit [Target] in
theorem ScanMap.refines {A : MapApi M K V Q} {eq : Q → Q → Bool} {borrow : K → Q}
    {Inv : M → Prop} {ents : M → List (K × V)} (hA : ScanMap A eq borrow Inv ents)
    (heq : LawfulEq eq) {m : M} (hm : Inv m) {d : List (K × V)} (hp : (ents m).Perm d)
    (hd : DistinctKeys (fun a b => eq (borrow a) (borrow b)) d) : Refines A eq borrow m d := by
  intro ops
  have h := hA.run heq hm hp hd ops
  cases hr : Dict.run eq borrow d ops with
  | ub => rw [hr] at h; exact h
  | panic => rw [hr] at h; exact h
  | ok r =>
    rw [hr] at h
    obtain ⟨outs', m', h1, h2, _⟩ := h
    exact ⟨outs', m', h1, h2⟩

omit [Target] in
theorem ScanMap.eqRefines {A : MapApi M K V K} {eq : K → K → Bool}
    {Inv : M → Prop} {ents : M → List (K × V)} (hA : ScanMap A eq id Inv ents)
    (heq : LawfulEq eq) (veq : V → V → Bool) {m₁ m₂ : M} (hm₁ : Inv m₁) (hm₂ : Inv m₂)
    {d₁ d₂ : List (K × V)} (hp₁ : (ents m₁).Perm d₁) (hp₂ : (ents m₂).Perm d₂)
    (hd₁ : DistinctKeys eq d₁) (hd₂ : DistinctKeys eq d₂) : EqRefines A eq veq m₁ m₂ d₁ d₂ := by
  intro ops₁ ops₂ r₁ r₂ s₁ s₂ hr₁ hr₂ hs₁ hs₂
  have h₁ := hA.run heq hm₁ hp₁ hd₁ ops₁
  have h₂ := hA.run heq hm₂ hp₂ hd₂ ops₂
  rw [hs₁] at h₁
  rw [hs₂] at h₂
  obtain ⟨_, m₁', ha₁, _, hi₁, hq₁, hk₁⟩ := h₁
  obtain ⟨_, m₂', ha₂, _, hi₂, hq₂, hk₂⟩ := h₂
  rw [hr₁] at ha₁
  rw [hr₂] at ha₂
  cases ha₁
  cases ha₂
  have hf₁ := hd₁.of_keys hk₁
  have hf₂ := hd₂.of_keys hk₂
  have he₁ := hf₁.perm heq hq₁.symm
  have he₂ := hf₂.perm heq hq₂.symm
  obtain ⟨b, hb, hiff⟩ := mapEq_spec heq veq he₁ he₂ (get := A.get m₂') (fun k => by
    refine ⟨_, hA.get _ k hi₂, ?_⟩
    rw [scan_value])
  refine ⟨b, ?_, ?_⟩
  · unfold MapApi.partialEq
    rw [hA.len _ hi₁, hA.len _ hi₂, hA.iter]
    exact hb
  · rw [hiff]
    constructor
    · intro h k
      rw [← lookup_perm heq hq₁ he₁, ← lookup_perm heq hq₂ he₂]
      exact h k
    · intro h k
      rw [lookup_perm heq hq₁ he₁, lookup_perm heq hq₂ he₂]
      exact h k

end FC
