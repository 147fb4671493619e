import Verif.Spec.Row
import Verif.Lemmas.FirstMatch

/-
Maps that find by place behave like the row of their entries.
-/

set_option autoImplicit false

namespace FC
variable [Target]
variable {M K V Q : Type}

/-- The lookup by place. -/
def rowScan (place : Q → Option Nat) (es : List (K × V)) (q : Q) : Option (K × Ref V) :=
  (place q).bind (fun i => es[i]?.map (fun e => (e.1, ⟨i, e.2⟩)))

/-- A map whose lookups go to a fixed place. -/
structure RowMap (A : MapApi M K V Q) (eq : Q → Q → Bool) (place : Q → Option Nat) (Inv : M → Prop)
    (ents : M → List (K × V)) : Prop where
  kv : ∀ m q, Inv m → A.getKeyValue m q = .ok (rowScan place (ents m) q)
  get : ∀ m q, Inv m → A.get m q = .ok ((rowScan place (ents m) q).map (·.2))
  getMut : ∀ m q, A.getMut m q = A.get m q
  contains : ∀ m q, A.containsKey m q = (A.get m q).map Option.isSome
  index : ∀ m q, A.index m q = indexOf (A.get m q)
  indexMut : ∀ m q, A.indexMut m q = indexOf (A.getMut m q)
  many : ∀ m qs, A.getManyMut m qs = getManyMut eq (A.get m) qs
  len : ∀ m, Inv m → A.len m = (ents m).length
  iter : ∀ m, A.iter m = MapIter.new (ents m)
  keys : ∀ m, A.keys m = MapKeys.new (ents m)
  values : ∀ m, A.values m = MapValues.new (ents m)
  inv_write : ∀ m i v, Inv m → Inv (A.write m i v)
  ents_write : ∀ m i v, ents (A.write m i v) = setVal (ents m) i v

omit [Target] in
theorem rowScan_find (place : Q → Option Nat) (es : List (K × V)) (q : Q) :
    (rowScan place es q).map (fun r => (r.1, r.2.val)) = Row.find place es q := by
  unfold rowScan Row.find
  cases place q with
  | none => rfl
  | some i => simp only [Option.bind_some, Option.map_map]; cases es[i]? <;> rfl

omit [Target] in
theorem rowScan_idx {place : Q → Option Nat} {es : List (K × V)} {q : Q} {k : K} {r : Ref V}
    (h : rowScan place es q = some (k, r)) : place q = some r.idx ∧ es[r.idx]? = some (k, r.val) := by
  unfold rowScan at h
  cases hp : place q with
  | none => rw [hp] at h; cases h
  | some i =>
    rw [hp] at h
    simp only [Option.bind_some, Option.map_eq_some_iff, Prod.mk.injEq] at h
    obtain ⟨e, he, rfl, rfl⟩ := h
    exact ⟨rfl, he⟩

omit [Target] in
theorem row_assign_none {place : Q → Option Nat} {es : List (K × V)} {q : Q}
    (h : rowScan place es q = none) (v : V) : Row.assign place es q v = es := by
  unfold Row.assign
  cases hp : place q with
  | none => rfl
  | some i =>
    unfold rowScan at h
    rw [hp] at h
    simp only [Option.bind_some, Option.map_eq_none_iff] at h
    simp only
    exact List.modify_eq_self (List.getElem?_eq_none_iff.1 h)

omit [Target] in
theorem row_assign_set {place : Q → Option Nat} {es : List (K × V)} {q : Q} {i : Nat}
    (h : place q = some i) (v : V) : Row.assign place es q v = setVal es i v := by
  unfold Row.assign
  rw [h]
  rfl

/-- The references found for the probes. -/
inductive RowFound (place : Q → Option Nat) (es : List (K × V)) :
    List (Q × V) → List (Ref V) → Prop where
  | nil : RowFound place es [] []
  | cons {qv : Q × V} {r : Ref V} {qvs : List (Q × V)} {rs : List (Ref V)} (k : K)
      (h : rowScan place es qv.1 = some (k, r)) (t : RowFound place es qvs rs) :
      RowFound place es (qv :: qvs) (r :: rs)

omit [Target] in
theorem rowFound_of_map {place : Q → Option Nat} {es : List (K × V)} {qvs : List (Q × V)}
    {rs : List (Ref V)}
    (h : (qvs.map (·.1)).mapM (fun q => (rowScan place es q).map (·.2)) = some rs) :
    RowFound place es qvs rs := by
  induction qvs generalizing rs with
  | nil => simp at h; subst h; exact .nil
  | cons qv qvs ih =>
    simp only [List.map_cons, List.mapM_cons, Option.bind_eq_bind, Option.bind_eq_some_iff,
      Option.pure_def, Option.some.injEq, Option.map_eq_some_iff] at h
    obtain ⟨r, ⟨⟨k, r'⟩, hs, rfl⟩, rs', h2, rfl⟩ := h
    exact .cons k hs (ih h2)

omit [Target] in
theorem rowFound_values {place : Q → Option Nat} {es : List (K × V)} {qvs : List (Q × V)}
    {rs : List (Ref V)} (h : RowFound place es qvs rs) :
    qvs.filterMap (fun qv => (Row.find place es qv.1).map (·.2)) = rs.map Ref.val := by
  induction h with
  | nil => rfl
  | cons k h _ ih =>
    rw [List.filterMap_cons, ← rowScan_find, h]
    simp [ih]

omit [Target] in
theorem rowFound_mem {place : Q → Option Nat} {es : List (K × V)} {qvs : List (Q × V)}
    {rs : List (Ref V)} (h : RowFound place es qvs rs) :
    ∀ qv ∈ qvs, (Row.find place es qv.1).isSome = true := by
  induction h with
  | nil => simp
  | cons k h _ ih =>
    intro qv hqv
    rcases List.mem_cons.1 hqv with rfl | hqv
    · rw [← rowScan_find, h]; rfl
    · exact ih qv hqv

omit [Target] in
theorem RowMap.write_many {A : MapApi M K V Q} {eq : Q → Q → Bool} {place : Q → Option Nat}
    {Inv : M → Prop} {ents : M → List (K × V)} (hA : RowMap A eq place Inv ents)
    {es : List (K × V)} {qvs : List (Q × V)} {rs : List (Ref V)} (hF : RowFound place es qvs rs) :
    ∀ {m : M}, Inv m →
      let m' := (rs.zip (qvs.map (·.2))).foldl (fun m rv => A.write m rv.1.idx rv.2) m
      Inv m' ∧ ents m' = qvs.foldl (fun d qv => Row.assign place d qv.1 qv.2) (ents m) := by
  induction hF with
  | nil => intro m hm; exact ⟨hm, rfl⟩
  | cons k h _ ih =>
    rename_i qv r qvs rs _
    intro m hm
    have he : ents (A.write m r.idx qv.2) = Row.assign place (ents m) qv.1 qv.2 := by
      rw [hA.ents_write, row_assign_set (rowScan_idx h).1]
    have := ih (m := A.write m r.idx qv.2) (hA.inv_write _ _ _ hm)
    rw [he] at this
    exact this

omit [Target] in
/-- One step. -/
theorem RowMap.step {A : MapApi M K V Q} {eq : Q → Q → Bool} {place : Q → Option Nat}
    {Inv : M → Prop} {ents : M → List (K × V)} (hA : RowMap A eq place Inv ents) {m : M}
    (hm : Inv m) (op : MapOp V Q) :
    match Row.step eq place (ents m) op with
    | .ok (out, d') => ∃ m', A.step m op = .ok (out, m') ∧ Inv m' ∧ ents m' = d'
    | .panic => A.step m op = .panic
    | .ub => False := by
  have hf : ∀ q, (rowScan place (ents m) q).map (fun r => (r.1, r.2.val))
      = Row.find place (ents m) q := fun q => rowScan_find _ _ _
  have hval : ∀ q, ((rowScan place (ents m) q).map (·.2)).map Ref.val
      = (Row.find place (ents m) q).map (·.2) := fun q => by
    rw [← hf, Option.map_map, Option.map_map]; rfl
  have hget := fun q => hA.get m q hm
  have hmut : ∀ q, A.getMut m q = .ok ((rowScan place (ents m) q).map (·.2)) := fun q => by
    rw [hA.getMut, hget]
  cases op with
  | get q =>
    simp only [Row.step, MapApi.step, hget, Res.ok_bind, Res.pure_eq]
    exact ⟨_, by rw [hval], hm, rfl⟩
  | getKeyValue q =>
    simp only [Row.step, MapApi.step, hA.kv m q hm, Res.ok_bind, Res.pure_eq]
    exact ⟨_, by rw [hf], hm, rfl⟩
  | containsKey q =>
    simp only [Row.step, MapApi.step, hA.contains, hget, Res.map_ok, Res.ok_bind, Res.pure_eq]
    refine ⟨_, ?_, hm, rfl⟩
    rw [← hf]
    simp
  | index q =>
    simp only [Row.step, MapApi.step, hA.index, hget]
    rw [← hf]
    cases hs : rowScan place (ents m) q with
    | none => simp [indexOf]
    | some r =>
      simp only [Option.map_some, indexOf, Res.ok_bind, Res.pure_eq]
      exact ⟨_, rfl, hm, rfl⟩
  | len =>
    simp only [Row.step, MapApi.step]
    exact ⟨_, by rw [hA.len m hm], hm, rfl⟩
  | iter =>
    simp only [Row.step, MapApi.step, hA.iter]
    refine ⟨_, ?_, hm, rfl⟩
    rw [MapIter.new, MapIter.fold_eq _ _ _ 0 _ rfl, List.drop_zero]
    have : ∀ (l acc : List (K × V)), l.foldl (fun l e => l ++ [e]) acc = acc ++ l := by
      intro l; induction l with
      | nil => simp
      | cons a l ih => intro acc; simp [ih]
    rw [this, List.nil_append]
  | keys =>
    simp only [Row.step, MapApi.step, hA.keys]
    refine ⟨_, ?_, hm, rfl⟩
    rw [MapKeys.fold, MapKeys.new, MapIter.new, MapIter.fold_eq _ _ _ 0 _ rfl, List.drop_zero]
    have : ∀ (l : List (K × V)) (acc : List K),
        l.foldl (fun l e => l ++ [e.1]) acc = acc ++ l.map (·.1) := by
      intro l; induction l with
      | nil => simp
      | cons a l ih => intro acc; simp [ih]
    rw [this, List.nil_append]
  | values =>
    simp only [Row.step, MapApi.step, hA.values]
    refine ⟨_, ?_, hm, rfl⟩
    rw [MapValues.fold, MapValues.new, MapIter.new, MapIter.fold_eq _ _ _ 0 _ rfl, List.drop_zero]
    have : ∀ (l : List (K × V)) (acc : List V),
        l.foldl (fun l e => l ++ [e.2]) acc = acc ++ l.map (·.2) := by
      intro l; induction l with
      | nil => simp
      | cons a l ih => intro acc; simp [ih]
    rw [this, List.nil_append]
  | getMut q v =>
    simp only [Row.step, MapApi.step, hmut]
    cases hs : rowScan place (ents m) q with
    | none =>
      simp only [Option.map_none, Res.ok_bind, Res.pure_eq]
      refine ⟨m, ?_, hm, (row_assign_none hs v).symm⟩
      rw [← hf, hs]; rfl
    | some r =>
      obtain ⟨k, r⟩ := r
      simp only [Option.map_some, Res.ok_bind, Res.pure_eq]
      refine ⟨A.write m r.idx v, ?_, hA.inv_write _ _ _ hm, ?_⟩
      · rw [← hf, hs]; rfl
      · rw [hA.ents_write, row_assign_set (rowScan_idx hs).1]
  | indexMut q v =>
    simp only [Row.step, MapApi.step, hA.indexMut, hmut]
    rw [← hf]
    cases hs : rowScan place (ents m) q with
    | none => simp [indexOf]
    | some r =>
      obtain ⟨k, r⟩ := r
      simp only [Option.map_some, indexOf, Res.ok_bind, Res.pure_eq]
      refine ⟨A.write m r.idx v, rfl, hA.inv_write _ _ _ hm, ?_⟩
      rw [hA.ents_write, row_assign_set (rowScan_idx hs).1]
  | getManyMut qvs =>
    simp only [Row.step, MapApi.step, hA.many, getManyMut]
    have hall := getAll_eq (get := A.get m) (f := fun q => (rowScan place (ents m) q).map (·.2))
      (qvs.map (·.1)) (fun k _ => hget k)
    by_cases hdup : hasDup eq [] (qvs.map (·.1)) = true
    · have hno : ¬ (qvs.map (·.1)).Pairwise (fun a b => eq a b = false) := by
        intro hpw
        rw [(hasDup_eq_false _ []).2 ⟨by simp, hpw⟩] at hdup
        cases hdup
      rw [if_pos hdup, if_neg (fun h => hno h.1)]
      exact ⟨_, rfl, hm, rfl⟩
    · have hpw := ((hasDup_eq_false _ []).1 (by simpa using hdup)).2
      rw [if_neg hdup, hall]
      simp only [Res.ok_bind]
      cases hmm : (qvs.map (·.1)).mapM (fun q => (rowScan place (ents m) q).map (·.2)) with
      | none =>
        obtain ⟨q, hq, hqn⟩ := (mapM_none_iff _).1 hmm
        obtain ⟨qv, hqv, rfl⟩ := List.mem_map.1 hq
        rw [if_neg]
        · exact ⟨_, rfl, hm, rfl⟩
        · rintro ⟨_, h⟩
          have := h qv hqv
          rw [← hf] at this
          cases hs : rowScan place (ents m) qv.1 with
          | none => rw [hs] at this; simp at this
          | some r => rw [hs] at hqn; simp at hqn
      | some rs =>
        have hF := rowFound_of_map hmm
        rw [if_pos]
        · simp only [Res.pure_eq]
          obtain ⟨h1, h2⟩ := hA.write_many hF hm
          refine ⟨_, ?_, h1, h2⟩
          rw [rowFound_values hF]
        · exact ⟨hpw, rowFound_mem hF⟩

omit [Target] in
/-- Whole histories, with the final states. -/
theorem RowMap.run {A : MapApi M K V Q} {eq : Q → Q → Bool} {place : Q → Option Nat}
    {Inv : M → Prop} {ents : M → List (K × V)} (hA : RowMap A eq place Inv ents) {m : M}
    (hm : Inv m) (ops : List (MapOp V Q)) :
    match Row.run eq place (ents m) ops with
    | .ok (outs, d') => ∃ m', A.run m ops = .ok (outs, m') ∧ Inv m' ∧ ents m' = d'
    | .panic => A.run m ops = .panic
    | .ub => False := by
  induction ops generalizing m with
  | nil => exact ⟨_, rfl, hm, rfl⟩
  | cons op ops ih =>
    have h1 := hA.step hm op
    unfold Row.run MapApi.run
    cases hs : Row.step eq place (ents m) op with
    | ub => rw [hs] at h1; exact h1.elim
    | panic => rw [hs] at h1; simp [h1]
    | ok r =>
      obtain ⟨out, d'⟩ := r
      rw [hs] at h1
      obtain ⟨m', ha, hi, rfl⟩ := h1
      have h2 := ih hi
      simp only [ha, Res.ok_bind]
      cases hr : Row.run eq place (ents m') ops with
      | ub => rw [hr] at h2; exact h2.elim
      | panic => rw [hr] at h2; simp [h2]
      | ok r =>
        obtain ⟨outs, d''⟩ := r
        rw [hr] at h2
        obtain ⟨m'', hb, hi', he⟩ := h2
        simp only [hb, Res.ok_bind, Res.pure_eq]
        exact ⟨_, rfl, hi', he⟩

omit [Target] in
theorem RowMap.isRow {A : MapApi M K V Q} {eq : Q → Q → Bool} {place : Q → Option Nat}
    {Inv : M → Prop} {ents : M → List (K × V)} (hA : RowMap A eq place Inv ents) {m : M}
    (hm : Inv m) : IsRow A eq place m (ents m) := by
  intro ops
  have h := hA.run hm ops
  cases hr : Row.run eq place (ents m) ops with
  | ub => rw [hr] at h; exact h
  | panic => rw [hr] at h; exact h
  | ok r =>
    rw [hr] at h
    obtain ⟨m', h1, _⟩ := h
    exact ⟨m', h1⟩

omit [Target] in
theorem RowMap.eqIsRow {A : MapApi M K V K} {eq : K → K → Bool} {place₁ place₂ : K → Option Nat}
    {Inv₁ Inv₂ : M → Prop} {ents : M → List (K × V)} (hA₁ : RowMap A eq place₁ Inv₁ ents)
    (hA₂ : RowMap A eq place₂ Inv₂ ents)
    (veq : V → V → Bool) {m₁ m₂ : M} (hm₁ : Inv₁ m₁) (hm₂ : Inv₂ m₂) :
    EqIsRow A eq place₁ place₂ veq m₁ m₂ (ents m₁) (ents m₂) := by
  intro ops₁ ops₂ r₁ r₂ s₁ s₂ hr₁ hr₂ hs₁ hs₂
  have h₁ := hA₁.run hm₁ ops₁
  have h₂ := hA₂.run hm₂ ops₂
  rw [hs₁] at h₁
  rw [hs₂] at h₂
  obtain ⟨m₁', ha₁, hi₁, he₁⟩ := h₁
  obtain ⟨m₂', ha₂, hi₂, he₂⟩ := h₂
  rw [hr₁] at ha₁
  rw [hr₂] at ha₂
  cases ha₁
  cases ha₂
  unfold MapApi.partialEq mapEq
  rw [hA₁.len _ hi₁, hA₂.len _ hi₂, hA₁.iter, he₁, he₂]
  by_cases hlen : s₁.2.length = s₂.2.length
  · have hall : Res.allList (fun e => (A.get m₂' e.1).map
        (fun o => match o with | none => false | some r => veq e.2 r.val)) s₁.2
        = .ok (s₁.2.all (fun e => match Row.find place₂ s₂.2 e.1 with
          | none => false | some e' => veq e.2 e'.2)) := by
      apply Res.allList_ok
      intro e _
      rw [hA₂.get _ _ hi₂, Res.map_ok, ← rowScan_find, he₂]
      cases rowScan place₂ s₂.2 e.1 <;> rfl
    refine ⟨_, (if_neg (not_not.2 hlen)).trans hall, ?_⟩
    rw [List.all_eq_true]
    refine ⟨fun h => ⟨hlen, fun e he => ?_⟩, fun h e he => ?_⟩
    · have := h e he
      cases hs : Row.find place₂ s₂.2 e.1 with
      | none => rw [hs] at this; cases this
      | some e' => rw [hs] at this; exact ⟨e', rfl, this⟩
    · obtain ⟨e', h1, h2⟩ := h.2 e he
      rw [h1]
      exact h2
  · refine ⟨false, if_pos hlen, by simp [hlen]⟩

omit [Target] in
theorem stableSort_filter {α : Type} (key : α → Int) (l : List α) (n : Int) :
    (stableSortByKey key l).filter (fun e => decide (key e = n))
      = l.filter (fun e => decide (key e = n)) := by
  haveI : Std.Total (fun a b : α => key a ≤ key b) := ⟨fun _ _ => le_total _ _⟩
  haveI : IsTrans _ (fun a b : α => key a ≤ key b) := ⟨fun _ _ _ => le_trans⟩
  have hsub : (l.filter (fun e => decide (key e = n))).Sublist (stableSortByKey key l) := by
    refine List.sublist_insertionSort ?_ List.filter_sublist
    refine List.pairwise_of_forall_mem_list ?_
    intro a ha b hb
    have h1 := of_decide_eq_true (List.mem_filter.1 ha).2
    have h2 := of_decide_eq_true (List.mem_filter.1 hb).2
    omega
  have h2 : (l.filter (fun e => decide (key e = n))).Sublist
      ((stableSortByKey key l).filter (fun e => decide (key e = n))) := by
    have := hsub.filter (fun e => decide (key e = n))
    rwa [List.filter_filter, show (fun a => decide (key a = n) && decide (key a = n))
      = (fun a => decide (key a = n)) by funext a; simp] at this
  exact (h2.eq_of_length (((stableSort_perm key l).filter _).length_eq).symm).symm

end FC
