import Verif.Spec.Programs
import Verif.Props.Clone
import Verif.Props.SetAlgebra
import Verif.Props.SetConstruct
import Verif.Props.MapConstruct

/-
Programs with any number of maps and sets: what holds between what the program holds and plain lists.
-/

set_option autoImplicit false

namespace FC
variable [Target]
variable {K V : Type}

/-- A map is well formed and holds the pairs of the list. -/
abbrev MapLike (ty : KeyTy K) (m : FrozenMap K V) (d : List (K × V)) : Prop :=
  Stands ty.eq id (Good ty) (fun m : FrozenMap K V => m.entries ty) m d

/-- A set is well formed and holds the elements of the list. -/
abbrev SetLike (ty : KeyTy K) (s : FrozenSet K) (l : List K) : Prop :=
  MapLike ty s.toMap (unitPayload l)

/-- What the program holds and the plain lists. -/
structure Shelf.Like (ty : KeyTy K) (h : Shelf K V) (w : PlainLists K V) : Prop where
  maps : List.Forall₂ (MapLike ty) h.maps w.maps
  sets : List.Forall₂ (SetLike ty) h.sets w.sets

theorem SetLike.presents {ty : KeyTy K} (hty : LawfulKey ty) (env : Env) {s : FrozenSet K} {l : List K}
    (h : SetLike ty s l) : Presents ty.eq (s.toSetI env ty) l := by
  have hi : (s.toSetI env ty).iter = (s.toMap.entries ty).map (·.1) := by
    simp only [FrozenSet.toSetI, FrozenSet.iter_toMap, items_new]
  refine FC.presents hty.eq (distinctKeys_unit.1 h.distinct)
    ⟨answers_of_scan (es := s.toMap.entries ty) (fun x => ?_) hi ?_, ?_⟩
  · simp only [FrozenSet.toSetI]
    rw [FrozenSet.contains_toMap (Or.inl h.inv), h.inv.getKeyValue hty]
  · simp only [FrozenSet.toSetI, FrozenSet.len_toMap, h.inv.len]
  · rw [hi]; exact unit_perm h.perm

theorem SetLike.get {ty : KeyTy K} (hty : LawfulKey ty) (env : Env) {s : FrozenSet K} {l : List K}
    (h : SetLike ty s l) (x : K) : s.get env ty x = .ok (l.find? fun y => ty.eq x y) := by
  have h1 := find_perm hty.eq h.perm h.distinct x
  rw [← scan_dict _ 0] at h1
  have h2 := congrArg (Option.map Prod.fst) h1
  rw [FrozenSet.get_toMap, h.inv.getKeyValue hty]
  simp only [keyOf, Res.map_ok, Res.ok.injEq]
  rw [Option.map_map] at h2
  rw [show (fun e : K × Ref Unit => e.1) = Prod.fst ∘ (fun r : K × Ref Unit => (r.1, r.2.val)) from rfl, h2]
  unfold Dict.find unitPayload
  rw [List.find?_map, Option.map_map]
  simp [Function.comp_def]

theorem MapLike.clone {ty : KeyTy K} (hty : LawfulKey ty) {ck : K → K}
    (hck : ∀ k, ty.eq (ck k) k = true) (cv : V → V) {m : FrozenMap K V} {d : List (K × V)}
    (h : MapLike ty m d) : MapLike ty (m.clone ck cv) (d.map fun e => (ck e.1, cv e.2)) :=
  ⟨h.inv.clone hty hck cv, by rw [FrozenMap.clone_entries hty hck cv m]; exact h.perm.map _,
    DistinctKeys.clone (borrow := id) hty.eq hck cv h.distinct⟩

theorem SetLike.clone {ty : KeyTy K} (hty : LawfulKey ty) {ck : K → K}
    (hck : ∀ k, ty.eq (ck k) k = true) {s : FrozenSet K} {l : List K}
    (h : SetLike ty s l) : SetLike ty (s.clone ck) (l.map ck) := by
  have := MapLike.clone hty hck id h
  unfold SetLike
  rw [FrozenSet.clone_toMap]
  simpa [unitPayload, Function.comp_def] using this

/-- Construction succeeds. -/
theorem new_fine (env : Env) {ty : KeyTy K} (hty : LawfulKey ty) {p : List (K × V)} {bh : Hasher}
    (hd : DistinctKeys ty.eq p) (hcap : p.length < 2 ^ 31)
    (hs : ∀ f g, ty.kind = .string f g → Constructible bh (p.map fun e => f e.1)) :
    ∃ m, FrozenMap.new env ty p bh = .ok m ∧ MapLike ty m p := by
  have : ∃ m, FrozenMap.new env ty p bh = .ok m := by
    cases hk : ty.kind with
    | u32 f g => exact C02_u32_construction_total env ty hty f g hk p hcap bh
    | string f g => exact (C03_string_construction_partial env ty hty f g hk p hcap bh).1.2 (hs f g hk)
    | other => exact C02_other_construction_total env ty hk p hcap bh
  obtain ⟨m, hm⟩ := this
  have hb := new_built env hty (by omega) hm
  exact ⟨m, hm, hb.good (Or.inr hd), hb.perm, hd⟩

omit [Target] in
theorem Dict.step_panic {eq : K → K → Bool} {d : List (K × V)} {op : MapOp V K}
    (h : Dict.step eq id d op = .panic) :
    ∃ q, ¬ Present eq d q ∧ (op = .index q ∨ ∃ v, op = .indexMut q v) := by
  have absent : ∀ q, Dict.find eq id d q = none → ¬ Present eq d q := by
    rintro q hq ⟨e, he, h⟩
    have := List.find?_eq_none.1 hq e he
    exact this h
  cases op with
  | index q =>
    simp only [Dict.step] at h
    cases hf : Dict.find eq id d q with
    | none => exact ⟨q, absent q hf, Or.inl rfl⟩
    | some e => rw [hf] at h; cases h
  | indexMut q v =>
    simp only [Dict.step] at h
    cases hf : Dict.find eq id d q with
    | none => exact ⟨q, absent q hf, Or.inr ⟨v, rfl⟩⟩
    | some e => rw [hf] at h; cases h
  | getManyMut qvs =>
    simp only [Dict.step] at h
    split at h <;> cases h
  | _ => simp [Dict.step] at h

theorem SetQuestion.apply_spec (u : Surround K V) (hty : LawfulKey u.ty) (q : SetQuestion)
    {a b : FrozenSet K} {l l' : List K} (ha : SetLike u.ty a l) (hb : SetLike u.ty b l') :
    ∃ r, q.apply u a b = .ok r ∧ (r = true ↔ q.holds u.ty.eq l l') := by
  obtain ⟨ca, pa⟩ := ha.presents hty u.env
  obtain ⟨cb, pb⟩ := hb.presents hty u.env
  have ma := fun x => has_perm (eq := u.ty.eq) pa x
  have mb := fun x => has_perm (eq := u.ty.eq) pb x
  cases q with
  | isSubset => simpa only [ma, mb, SetQuestion.apply, SetQuestion.holds] using C35_is_subset u.ty.eq hty.eq _ _ ca cb
  | isSuperset => simpa only [ma, mb, SetQuestion.apply, SetQuestion.holds] using C35_is_superset u.ty.eq hty.eq _ _ ca cb
  | isDisjoint => 
    have := C35_is_disjoint u.ty.eq (a.toSetI u.env u.ty) (b.toSetI u.env u.ty) cb hty.eq
    simpa only [ma, mb, SetQuestion.apply, SetQuestion.holds] using this
  | equal =>
    simp only [SetQuestion.apply, SetQuestion.holds]
    rw [FrozenSet.eq_toSetI (Or.inl hb.inv)]
    simpa only [ma, mb] using C37_eq_iff u.ty.eq hty.eq _ _ ca cb

/-- The iterators. -/
theorem SetOperator.iterate_spec {T : Type} {eq : T → T → Bool} (heq : LawfulEq eq) (o : SetOperator)
    {a b : SetI T} (ca : Consistent eq a) (cb : Consistent eq b) :
    ∃ l, o.iterate a b = .ok l ∧ Distinct eq l ∧
      (∀ x, Has eq l x ↔ o.holds (Has eq a.iter x) (Has eq b.iter x)) ∧
      ∀ x ∈ l, x ∈ a.iter ∨ x ∈ b.iter := by
  obtain ⟨c1, h1, k1⟩ := ca.total
  obtain ⟨c2, h2, k2⟩ := cb.total
  cases o with
  | or =>
    obtain ⟨l, hl, hd, hm, hi⟩ := C32_union eq heq a b ca cb
    exact ⟨l, drain_eq (union_describes h1 h2) _ ⟨rfl, rfl⟩ hl, hd, hm, hi⟩
  | and =>
    obtain ⟨l, hl, hd, hm, hi⟩ := C33_intersection eq heq a b ca cb
    exact ⟨l, drain_eq (intersection_describes h1 h2) _ ⟨rfl, rfl⟩ hl, hd, hm, hi⟩
  | xor =>
    obtain ⟨l, hl, hd, hm, hi⟩ := C33_symmetric_difference eq heq a b ca cb
    exact ⟨l, drain_eq (symDiff_describes h1 h2) _ ⟨rfl, rfl⟩ hl, hd, hm, hi⟩
  | sub =>
    obtain ⟨l, hl, hd, hm, hi⟩ := C33_difference eq heq a b ca cb
    exact ⟨l, drain_eq (difference_describes (a := a) h2) _ ⟨rfl, rfl⟩ hl, hd, hm, fun x hx => Or.inl (hi x hx)⟩

/-- One action. -/
theorem Shelf.Like.perform (u : Surround K V) (hty : LawfulKey u.ty)
    (hck : ∀ k, u.ty.eq (u.ck k) k = true) (hord : ∀ l, (u.order l).Perm l) {h : Shelf K V}
    {w : PlainLists K V} (hl : h.Like u.ty w) (c : Cmd K V) (hc : c.Fine u.ty) :
    match h.perform u c with
    | .ok (r, h') => ∃ w', w.Does u.ty.eq u.ck u.cv u.veq c r w' ∧ h'.Like u.ty w'
    | .panic => w.Panics u.ty.eq c
    | .ub => False := by
  have hA := frozen_scanMap (V := V) u.env hty
  cases c with
  | newMap p bh =>
    obtain ⟨m, hm, hlike⟩ := new_fine u.env hty hc.1 hc.2.1 hc.2.2
    simp only [Shelf.perform, hm, Res.ok_bind, Res.pure_eq]
    exact ⟨_, .newMap p bh, forall₂_snoc hl.maps hlike, hl.sets⟩
  | onMap i op =>
    simp only [Shelf.perform]
    rcases forall₂_get hl.maps i with ⟨h1, h2⟩ | ⟨m, d, h1, h2, hs⟩
    · simp only [h1]
      exact ⟨_, .noMap i _ h2 (Or.inl ⟨op, rfl⟩), hl⟩
    · simp only [h1]
      have hst := hA.step hty.eq hs.inv hs.perm hs.distinct op
      cases hd : Dict.step u.ty.eq id d op with
      | ub => rw [hd] at hst; exact hst.elim
      | panic =>
        rw [hd] at hst
        simp only [hst, Res.panic_bind]
        obtain ⟨q, hq, hop⟩ := Dict.step_panic hd
        refine ⟨i, d, q, h2, hq, ?_⟩
        rcases hop with rfl | ⟨v, rfl⟩
        · exact Or.inl rfl
        · exact Or.inr ⟨v, rfl⟩
      | ok r =>
        obtain ⟨out, d'⟩ := r
        rw [hd] at hst
        obtain ⟨out', m', ha, hag, hi', hp', hk⟩ := hst
        simp only [ha, Res.ok_bind, Res.pure_eq]
        exact ⟨_, .onMap i op d d' out out' h2 hd hag,
          forall₂_set hl.maps i ⟨hi', hp', hs.distinct.of_keys hk⟩, hl.sets⟩
  | cloneMap i =>
    simp only [Shelf.perform]
    rcases forall₂_get hl.maps i with ⟨h1, h2⟩ | ⟨m, d, h1, h2, hs⟩
    · simp only [h1]
      exact ⟨_, .noMap i _ h2 (Or.inr (Or.inl rfl)), hl⟩
    · simp only [h1]
      exact ⟨_, .cloneMap i d h2, forall₂_snoc hl.maps (hs.clone hty hck u.cv), hl.sets⟩
  | sameMaps i j =>
    simp only [Shelf.perform]
    rcases forall₂_get hl.maps i with ⟨h1, h2⟩ | ⟨m, d, h1, h2, hs⟩
    · simp only [h1]
      exact ⟨_, .noMap i _ h2 (Or.inr (Or.inr ⟨j, Or.inl rfl⟩)), hl⟩
    rcases forall₂_get hl.maps j with ⟨h1', h2'⟩ | ⟨m', d', h1', h2', hs'⟩
    · simp only [h1, h1']
      exact ⟨_, .noMap j _ h2' (Or.inr (Or.inr ⟨i, Or.inr rfl⟩)), hl⟩
    · obtain ⟨b, hb1, hb2⟩ := hA.eqRefines hty.eq u.veq hs.inv hs'.inv hs.perm hs'.perm hs.distinct
        hs'.distinct [] [] ([], m) ([], m') ([], d) ([], d') rfl rfl rfl rfl
      simp only [h1, h1']
      simp only at hb1
      simp only [hb1, Res.ok_bind, Res.pure_eq]
      exact ⟨_, .sameMaps i j d d' b h2 h2' hb2, hl⟩
  | newSet p bh =>
    obtain ⟨m, hm, hlike⟩ := new_fine (V := Unit) u.env hty (p := unitPayload p) (bh := bh)
      (distinctKeys_unit.2 hc.1) (by rw [unitPayload_length]; exact hc.2.1)
      (fun f g hk => by
        have := hc.2.2 f g hk
        simpa [unitPayload, Function.comp_def] using this)
    obtain ⟨s, hs⟩ := FrozenSet.new_ok_iff.2 ⟨m, hm⟩
    have hsm : s.toMap = m := by
      have := FrozenSet.new_ok hs
      rw [hm] at this
      cases this; rfl
    simp only [Shelf.perform, hs, Res.ok_bind, Res.pure_eq]
    exact ⟨_, .newSet p bh, hl.maps, forall₂_snoc hl.sets (by unfold SetLike; rw [hsm]; exact hlike)⟩
  | contains i x =>
    simp only [Shelf.perform]
    rcases forall₂_get hl.sets i with ⟨h1, h2⟩ | ⟨s, l, h1, h2, hs⟩
    · simp only [h1]
      exact ⟨_, .noSet i _ h2 (Or.inl ⟨x, Or.inl rfl⟩), hl⟩
    · obtain ⟨ca, pa⟩ := SetLike.presents hty u.env hs
      obtain ⟨b, hb1, hb2⟩ := ca.contains x
      have hb1 : s.contains u.env u.ty x = .ok b := hb1
      simp only [h1, hb1, Res.ok_bind, Res.pure_eq]
      exact ⟨_, .contains i x l b h2 (hb2.trans (has_perm pa x)), hl⟩
  | getIn i x =>
    simp only [Shelf.perform]
    rcases forall₂_get hl.sets i with ⟨h1, h2⟩ | ⟨s, l, h1, h2, hs⟩
    · simp only [h1]
      exact ⟨_, .noSet i _ h2 (Or.inl ⟨x, Or.inr rfl⟩), hl⟩
    · simp only [h1, SetLike.get hty u.env hs x, Res.ok_bind, Res.pure_eq]
      exact ⟨_, .getIn i x l h2, hl⟩
  | setLen i =>
    simp only [Shelf.perform]
    rcases forall₂_get hl.sets i with ⟨h1, h2⟩ | ⟨s, l, h1, h2, hs⟩
    · simp only [h1]
      exact ⟨_, .noSet i _ h2 (Or.inr (Or.inl rfl)), hl⟩
    · obtain ⟨ca, pa⟩ := SetLike.presents hty u.env hs
      have hlen : s.len = l.length := ca.len.trans pa.length_eq
      simp only [h1, hlen]
      exact ⟨_, .setLen i l h2, hl⟩
  | listSet i =>
    simp only [Shelf.perform]
    rcases forall₂_get hl.sets i with ⟨h1, h2⟩ | ⟨s, l, h1, h2, hs⟩
    · simp only [h1]
      exact ⟨_, .noSet i _ h2 (Or.inr (Or.inr (Or.inl rfl))), hl⟩
    · obtain ⟨ca, pa⟩ := SetLike.presents hty u.env hs
      simp only [h1]
      exact ⟨_, .listSet i l _ h2 pa, hl⟩
  | cloneSet i =>
    simp only [Shelf.perform]
    rcases forall₂_get hl.sets i with ⟨h1, h2⟩ | ⟨s, l, h1, h2, hs⟩
    · simp only [h1]
      exact ⟨_, .noSet i _ h2 (Or.inr (Or.inr (Or.inr (Or.inl rfl)))), hl⟩
    · simp only [h1]
      exact ⟨_, .cloneSet i l h2, hl.maps, forall₂_snoc hl.sets (SetLike.clone hty hck hs)⟩
  | ask q i j =>
    simp only [Shelf.perform]
    rcases forall₂_get hl.sets i with ⟨h1, h2⟩ | ⟨s, l, h1, h2, hs⟩
    · simp only [h1]
      exact ⟨_, .noSet i _ h2 (Or.inr (Or.inr (Or.inr (Or.inr (Or.inl ⟨q, j, Or.inl rfl⟩))))), hl⟩
    rcases forall₂_get hl.sets j with ⟨h1', h2'⟩ | ⟨s', l', h1', h2', hs'⟩
    · simp only [h1, h1']
      exact ⟨_, .noSet j _ h2' (Or.inr (Or.inr (Or.inr (Or.inr (Or.inl ⟨q, i, Or.inr rfl⟩))))), hl⟩
    · obtain ⟨b, hb1, hb2⟩ := q.apply_spec u hty hs hs'
      simp only [h1, h1', hb1, Res.ok_bind, Res.pure_eq]
      exact ⟨_, .ask q i j l l' b h2 h2' hb2, hl⟩
  | combine o i j =>
    simp only [Shelf.perform]
    rcases forall₂_get hl.sets i with ⟨h1, h2⟩ | ⟨s, l, h1, h2, hs⟩
    · simp only [h1]
      exact ⟨_, .noSet i _ h2 (Or.inr (Or.inr (Or.inr (Or.inr (Or.inr (Or.inl ⟨o, j, Or.inl rfl⟩)))))), hl⟩
    rcases forall₂_get hl.sets j with ⟨h1', h2'⟩ | ⟨s', l', h1', h2', hs'⟩
    · simp only [h1, h1']
      exact ⟨_, .noSet j _ h2' (Or.inr (Or.inr (Or.inr (Or.inr (Or.inr (Or.inl ⟨o, i, Or.inr rfl⟩)))))), hl⟩
    · obtain ⟨ca, pa⟩ := SetLike.presents hty u.env hs
      obtain ⟨cb, pb⟩ := SetLike.presents hty u.env hs'
      obtain ⟨r, hr1, hr2, hr3⟩ := o.apply_spec u.ty.eq hty.eq _ _ ca cb
      simp only [h1, h1', hr1, Res.ok_bind, Res.pure_eq]
      refine ⟨_, .combine o i j l l' _ h2 h2' (Distinct.perm hty.eq (hord _).symm hr2) (fun x => ?_), hl⟩
      rw [has_perm (hord _) x, ← has_perm pa x, ← has_perm pb x]
      refine Iff.trans ?_ (hr3 x)
      simp only [StdSet.contains, Has, List.any_eq_true]
      exact ⟨fun ⟨y, hy, h⟩ => ⟨y, hy, hty.eq.symm _ _ h⟩, fun ⟨y, hy, h⟩ => ⟨y, hy, hty.eq.symm _ _ h⟩⟩
  | visit o i j =>
    simp only [Shelf.perform]
    rcases forall₂_get hl.sets i with ⟨h1, h2⟩ | ⟨s, l, h1, h2, hs⟩
    · simp only [h1]
      exact ⟨_, .noSet i _ h2 (Or.inr (Or.inr (Or.inr (Or.inr (Or.inr (Or.inr ⟨o, j, Or.inl rfl⟩)))))), hl⟩
    rcases forall₂_get hl.sets j with ⟨h1', h2'⟩ | ⟨s', l', h1', h2', hs'⟩
    · simp only [h1, h1']
      exact ⟨_, .noSet j _ h2' (Or.inr (Or.inr (Or.inr (Or.inr (Or.inr (Or.inr ⟨o, i, Or.inr rfl⟩)))))), hl⟩
    · obtain ⟨ca, pa⟩ := SetLike.presents hty u.env hs
      obtain ⟨cb, pb⟩ := SetLike.presents hty u.env hs'
      obtain ⟨r, hr1, hr2, hr3, hr4⟩ := o.iterate_spec hty.eq ca cb
      simp only [h1, h1', hr1, Res.ok_bind, Res.pure_eq]
      refine ⟨_, .visit o i j l l' _ h2 h2' hr2 (fun x => ?_) (fun x hx => ?_), hl⟩
      · rw [← has_perm pa x, ← has_perm pb x]; exact hr3 x
      · rw [← pa.mem_iff, ← pb.mem_iff]; exact hr4 x hx

/-- All actions. -/
theorem Shelf.Like.run (u : Surround K V) (hty : LawfulKey u.ty)
    (hck : ∀ k, u.ty.eq (u.ck k) k = true) (hord : ∀ l, (u.order l).Perm l)
    (prog : List (Reply K V) → Cmd K V) (hprog : ∀ seen, (prog seen).Fine u.ty) (n : Nat) :
    ∀ {seen : List (Reply K V)} {h : Shelf K V} {w : PlainLists K V}, h.Like u.ty w →
    match Shelf.run u prog n seen h with
    | .ok (seen', h') => ∃ w', PlainLists.Runs u.ty.eq u.ck u.cv u.veq prog n seen w seen' w' ∧ h'.Like u.ty w'
    | .panic => ∃ k seen' w', k < n ∧ PlainLists.Runs u.ty.eq u.ck u.cv u.veq prog k seen w seen' w' ∧
        w'.Panics u.ty.eq (prog seen')
    | .ub => False := by
  induction n with
  | zero => intro seen h w hl; exact ⟨w, .stop seen w, hl⟩
  | succ n ih =>
    intro seen h w hl
    have h1 := hl.perform u hty hck hord (prog seen) (hprog seen)
    unfold Shelf.run
    cases hp : h.perform u (prog seen) with
    | ub => rw [hp] at h1; exact h1.elim
    | panic =>
      rw [hp] at h1
      exact ⟨0, seen, w, by omega, .stop seen w, h1⟩
    | ok r =>
      obtain ⟨r, h'⟩ := r
      rw [hp] at h1
      obtain ⟨w', hd, hl'⟩ := h1
      have h2 := ih (seen := seen ++ [r]) hl'
      simp only [Res.ok_bind]
      cases hr : Shelf.run u prog n (seen ++ [r]) h' with
      | ub => rw [hr] at h2; exact h2.elim
      | panic =>
        rw [hr] at h2
        obtain ⟨k, seen', w'', hk, hrun, hpan⟩ := h2
        exact ⟨k + 1, seen', w'', by omega, .act hd hrun, hpan⟩
      | ok x =>
        obtain ⟨seen', h''⟩ := x
        rw [hr] at h2
        obtain ⟨w'', hrun, hl''⟩ := h2
        exact ⟨w'', .act hd hrun, hl''⟩

/-- All actions, with panics caught. -/
theorem Shelf.Like.runCaught (u : Surround K V) (hty : LawfulKey u.ty)
    (hck : ∀ k, u.ty.eq (u.ck k) k = true) (hord : ∀ l, (u.order l).Perm l)
    (prog : List (Option (Reply K V)) → Cmd K V) (hprog : ∀ seen, (prog seen).Fine u.ty) (n : Nat) :
    ∀ {seen : List (Option (Reply K V))} {h : Shelf K V} {w : PlainLists K V}, h.Like u.ty w →
    ∃ seen' h' w', Shelf.runCaught u prog n seen h = .ok (seen', h') ∧
      PlainLists.RunsCaught u.ty.eq u.ck u.cv u.veq prog n seen w seen' w' := by
  induction n with
  | zero => intro seen h w hl; exact ⟨seen, h, w, rfl, .stop seen w⟩
  | succ n ih =>
    intro seen h w hl
    have h1 := hl.perform u hty hck hord (prog seen) (hprog seen)
    unfold Shelf.runCaught
    cases hp : h.perform u (prog seen) with
    | ub => rw [hp] at h1; exact h1.elim
    | panic =>
      rw [hp] at h1
      obtain ⟨seen', h', w', hr, hw⟩ := ih (seen := seen ++ [none]) hl
      exact ⟨seen', h', w', hr, .caught h1 hw⟩
    | ok r =>
      rw [hp] at h1
      obtain ⟨w₁, hd, hl'⟩ := h1
      obtain ⟨seen', h', w', hr, hw⟩ := ih (seen := seen ++ [some r.1]) hl'
      exact ⟨seen', h', w', hr, .act hd hw⟩

end FC
