import Verif.Lemmas.UserCodeAgree
import Verif.Lemmas.StringCodeAgree
import Verif.Lemmas.History
import Verif.Lemmas.UserCode
import Verif.Spec.PureCode

/-
Histories performed with arbitrary code for the key type, when that code happens to be pure: they are
the histories of Spec/History.lean, and the state around the code is left alone.
-/

set_option autoImplicit false

namespace FC
variable [Target]
variable {σ M K V Q : Type}

/-- `um` is `m` without its hasher, and `u` is the code `m` calls; all of it pure. -/
structure Purely (A : MapApi M K V Q) (eq : Q → Q → Bool) (borrow : K → Q) (u : UserCode σ K Q)
    (R : M → UMap K V → Prop) : Prop where
  isMatch : ∀ q k, u.isMatch q k = pure (eq q (borrow k))
  isSame : ∀ a b, u.isSame a b = pure (eq a b)
  look : ∀ m um, R m um → ∀ q s, um.lookup u q s = (A.getKeyValue m q).map (fun o => (o, s))
  get : ∀ m um, R m um → ∀ q, A.get m q = (A.getKeyValue m q).map (Option.map (·.2))
  getMut : ∀ m q, A.getMut m q = A.get m q
  contains : ∀ m q, A.containsKey m q = (A.get m q).map Option.isSome
  index : ∀ m q, A.index m q = indexOf (A.get m q)
  indexMut : ∀ m q, A.indexMut m q = indexOf (A.getMut m q)
  many : ∀ m qs, A.getManyMut m qs = getManyMut eq (A.get m) qs
  len : ∀ m um, R m um → A.len m = um.entries.length
  iter : ∀ m um, R m um → A.iter m = MapIter.new um.entries
  keys : ∀ m um, R m um → A.keys m = MapKeys.new um.entries
  values : ∀ m um, R m um → A.values m = MapValues.new um.entries
  write : ∀ m um i v, R m um → R (A.write m i v) (um.write i v)

/-- Two computations that end alike, in related maps. -/
def Tracks {α : Type} (R : M → UMap K V → Prop) (s : σ) (x : Res (α × M))
    (y : Res ((α × UMap K V) × σ)) : Prop :=
  match x with
  | .ok r => ∃ um, y = .ok ((r.1, um), s) ∧ R r.2 um
  | .panic => y = .panic
  | .ub => y = .ub

omit [Target] in
/-- A pure scan finds an entry the probe equals. -/
theorem UMap.scan_pure {u : UserCode σ K Q} {eq : Q → Q → Bool} {borrow : K → Q}
    (hu : ∀ q k, u.isMatch q k = pure (eq q (borrow k))) (q : Q) (es : List (K × V)) (s : σ) :
    ∀ i, UMap.scan u q i es s = .ok (FC.scan eq borrow q i es, s) := by
  induction es with
  | nil => exact fun _ => rfl
  | cons e es ih =>
    intro i
    unfold UMap.scan FC.scan
    rw [hu, Call.pure_bind']
    cases eq q (borrow e.1) with
    | true => rfl
    | false => exact ih _

omit [Target] in
theorem UMap.lookup_pure {u : UserCode σ K Q} {eq : Q → Q → Bool} {borrow : K → Q}
    (hu : ∀ q k, u.isMatch q k = pure (eq q (borrow k))) (um : UMap K V) (q : Q) (s s' : σ)
    (k : K) (r : Ref V) (h : um.lookup u q s = .ok (some (k, r), s')) :
    um.entries[r.idx]? = some (k, r.val) ∧ eq q (borrow k) = true := by
  cases um with
  | scanning es =>
    rw [show UMap.lookup u (.scanning es) q = UMap.scan u q 0 es from rfl, UMap.scan_pure hu] at h
    simp only [Res.ok.injEq, Prod.mk.injEq] at h
    obtain ⟨_, h1, h2, _⟩ := scan_some h.1
    exact ⟨h1, h2⟩
  | hashed T =>
    unfold UMap.lookup at h
    simp only [Call.bind_apply, Res.bind_eq_ok] at h
    obtain ⟨c, _, r', _, es, hes, h⟩ := h
    unfold Call.lift at hes
    rw [UMap.scan_pure hu] at h
    simp only [Res.ok.injEq, Prod.mk.injEq] at h
    obtain ⟨h0, h1, h2, _⟩ := scan_some h.1
    refine ⟨?_, h2⟩
    unfold sliceUnchecked at hes
    split at hes
    · simp only [Res.map_ok, Res.ok.injEq] at hes
      subst hes
      have hlt : r.idx - r'.1.1 < r'.1.2 - r'.1.1 := by
        have := (List.getElem?_eq_some_iff.1 h1).1
        simp at this
        omega
      rw [List.getElem?_take_of_lt hlt, List.getElem?_drop] at h1
      show T.entries[r.idx]? = _
      rw [← h1]
      congr 1
      omega
    · cases hes

omit [Target] in
theorem Tracks.cases {R : M → UMap K V → Prop} {s : σ} {x : Res M} {y : Res (UMap K V × σ)}
    (h : Tracks (α := Unit) R s (x.map (fun m => ((), m))) (y.map (fun r => (((), r.1), r.2)))) :
    (x = .panic ∧ y = .panic) ∨ (x = .ub ∧ y = .ub) ∨
      ∃ m um, x = .ok m ∧ y = .ok (um, s) ∧ R m um := by
  cases x with
  | panic => cases y <;> first | exact Or.inl ⟨rfl, rfl⟩ | cases h
  | ub => cases y <;> first | exact Or.inr (Or.inl ⟨rfl, rfl⟩) | cases h
  | ok m =>
    obtain ⟨um, he, hR⟩ := h
    cases y with
    | panic => cases he
    | ub => cases he
    | ok r =>
      simp only [Res.map_ok, Res.ok.injEq, Prod.mk.injEq, true_and] at he
      obtain ⟨rfl, rfl⟩ := he
      exact Or.inr (Or.inr ⟨m, _, rfl, rfl, hR⟩)

variable {A : MapApi M K V Q} {eq : Q → Q → Bool} {borrow : K → Q} {u : UserCode σ K Q}
  {R : M → UMap K V → Prop}

omit [Target] in
theorem Purely.hasDup (h : Purely A eq borrow u R) (s : σ) (ks : List Q) :
    ∀ seen, UMap.hasDup u seen ks s = .ok (FC.hasDup eq seen ks, s) := by
  have hany : ∀ (k : Q) (l : List Q), Call.anyList (fun x => u.isSame x k) l s
      = .ok (l.any (fun x => eq x k), s) := by
    intro k l
    induction l with
    | nil => rfl
    | cons a l ih =>
      unfold Call.anyList
      rw [h.isSame, Call.pure_bind', List.any_cons]
      cases eq a k with
      | true => rfl
      | false => exact ih
  induction ks with
  | nil => exact fun _ => rfl
  | cons k ks ih =>
    intro seen
    unfold UMap.hasDup FC.hasDup
    rw [Call.bind_apply, hany]
    simp only [Res.ok_bind]
    cases seen.any (fun x => eq x k) with
    | true => rfl
    | false => exact ih _

omit [Target] in
theorem Purely.getAll (h : Purely A eq borrow u R) {m : M} {um : UMap K V} (hR : R m um) (s : σ)
    (ks : List Q) :
    um.getAll u ks s = (FC.getAll (A.get m) ks).map (fun o => (o, s)) := by
  induction ks with
  | nil => rfl
  | cons k ks ih =>
    unfold UMap.getAll FC.getAll
    rw [Call.bind_apply, h.look m um hR, h.get m um hR]
    cases A.getKeyValue m k with
    | panic => rfl
    | ub => rfl
    | ok o =>
      cases o with
      | none => rfl
      | some r =>
        simp only [Res.map_ok, Res.ok_bind, Option.map_some]
        rw [Call.bind_apply, ih]
        cases FC.getAll (A.get m) ks with
        | panic => rfl
        | ub => rfl
        | ok o => cases o <;> rfl

omit [Target] in
theorem Purely.getManyMut (h : Purely A eq borrow u R) {m : M} {um : UMap K V} (hR : R m um) (s : σ)
    (ks : List Q) :
    um.getManyMut u ks s = (A.getManyMut m ks).map (fun o => (o, s)) := by
  rw [h.many]
  unfold UMap.getManyMut FC.getManyMut
  rw [Call.bind_apply, h.hasDup]
  simp only [Res.ok_bind]
  cases FC.hasDup eq [] ks with
  | true => rfl
  | false => exact h.getAll hR s ks

omit [Target] in
theorem hasDup_pairwise {eq : Q → Q → Bool} (ks : List Q) :
    ∀ seen : List Q, seen.Pairwise (fun a b => eq a b = false) → FC.hasDup eq seen ks = false →
      (seen ++ ks).Pairwise (fun a b => eq a b = false) := by
  induction ks with
  | nil => intro seen h _; simpa using h
  | cons k ks ih =>
    intro seen hs h
    unfold FC.hasDup at h
    rw [Bool.or_eq_false_iff] at h
    have := ih (seen ++ [k]) (List.pairwise_append.2 ⟨hs, by simp, ?_⟩) h.2
    · simpa using this
    · intro a ha b hb
      simp only [List.mem_singleton] at hb
      subst hb
      have := List.any_eq_false.1 h.1 a ha
      simpa using this

omit [Target] in
theorem Purely.getAll_found (h : Purely A eq borrow u R) {m : M} {um : UMap K V} (hR : R m um)
    (s : σ) (ks : List Q) :
    ∀ rs : List (Ref V), FC.getAll (A.get m) ks = .ok (some rs) → List.Forall₂
      (fun q r => ∃ k, um.entries[r.idx]? = some (k, r.val) ∧ eq q (borrow k) = true) ks rs := by
  induction ks with
  | nil =>
    intro rs hrs
    simp only [FC.getAll, Res.ok.injEq, Option.some.injEq] at hrs
    subst hrs
    exact .nil
  | cons k ks ih =>
    intro rs hrs
    unfold FC.getAll at hrs
    rw [h.get m um hR] at hrs
    have hl := h.look m um hR k s
    cases hk : A.getKeyValue m k with
    | panic => rw [hk] at hrs; cases hrs
    | ub => rw [hk] at hrs; cases hrs
    | ok o =>
      rw [hk] at hrs hl
      cases o with
      | none => cases hrs
      | some r =>
        simp only [Res.map_ok, Option.map_some] at hrs hl
        cases hks : FC.getAll (A.get m) ks with
        | panic => rw [hks] at hrs; cases hrs
        | ub => rw [hks] at hrs; cases hrs
        | ok o =>
          rw [hks] at hrs
          cases o with
          | none => cases hrs
          | some rs' =>
            simp only [Res.ok.injEq, Option.some.injEq] at hrs
            subst hrs
            exact .cons ⟨r.1, UMap.lookup_pure h.isMatch um k s s r.1 r.2 hl⟩ (ih rs' hks)

omit [Target] in
theorem Purely.nodup (h : Purely A eq borrow u R) (heq : LawfulEq eq) {m : M} {um : UMap K V}
    (hR : R m um) (s : σ) (ks : List Q) (rs : List (Ref V))
    (hrs : A.getManyMut m ks = .ok (some rs)) : (rs.map Ref.idx).Nodup := by
  rw [h.many] at hrs
  unfold FC.getManyMut at hrs
  split at hrs
  · cases hrs
  · next hd =>
    have hp := hasDup_pairwise ks [] .nil (by simpa using hd)
    simp only [List.nil_append] at hp
    have hf := h.getAll_found hR s ks rs hrs
    clear hrs hd
    induction hf with
    | nil => simp
    | @cons q r qs rs hq hf ih =>
      obtain ⟨hpq, hp⟩ := List.pairwise_cons.1 hp
      rw [List.map_cons, List.nodup_cons]
      refine ⟨?_, ih hp⟩
      intro hmem
      obtain ⟨r', hr', hidx⟩ := List.mem_map.1 hmem
      obtain ⟨q', hq', k', hk', hc'⟩ := forall₂_mem_right hf hr'
      obtain ⟨k, hk, hc⟩ := hq
      rw [hidx, hk] at hk'
      have hkk : k = k' := congrArg Prod.fst (Option.some.inj hk')
      subst hkk
      have := heq.trans _ _ _ hc (heq.symm _ _ hc')
      rw [hpq q' hq'] at this
      cases this

omit [Target] in
theorem Purely.writes (h : Purely A eq borrow u R) (l : List (Ref V × V)) :
    ∀ {m : M} {um : UMap K V}, R m um →
      R (l.foldl (fun m rv => A.write m rv.1.idx rv.2) m)
        (l.foldl (fun m rv => m.write rv.1.idx rv.2) um) := by
  induction l with
  | nil => exact fun h => h
  | cons rv l ih => exact fun hR => ih (h.write _ _ _ _ hR)

omit [Target] in
theorem Purely.step (h : Purely A eq borrow u R) (heq : LawfulEq eq) {m : M} {um : UMap K V}
    (hR : R m um) (op : MapOp V Q) (s : σ) :
    Tracks R s (A.step m op) (um.step u op s) := by
  have hl := h.look m um hR
  have hg := h.get m um hR
  cases op with
  | get q =>
    unfold MapApi.step UMap.step
    simp only
    rw [Call.bind_apply, hl, hg]
    cases A.getKeyValue m q with
    | panic => rfl
    | ub => rfl
    | ok o => exact ⟨um, by cases o <;> rfl, hR⟩
  | getKeyValue q =>
    unfold MapApi.step UMap.step
    simp only
    rw [Call.bind_apply, hl]
    cases A.getKeyValue m q with
    | panic => rfl
    | ub => rfl
    | ok o => exact ⟨um, rfl, hR⟩
  | containsKey q =>
    unfold MapApi.step UMap.step
    simp only
    rw [Call.bind_apply, hl, h.contains, hg]
    cases A.getKeyValue m q with
    | panic => rfl
    | ub => rfl
    | ok o => exact ⟨um, by cases o <;> rfl, hR⟩
  | index q =>
    unfold MapApi.step UMap.step
    simp only
    rw [Call.bind_apply, hl, h.index, hg]
    cases A.getKeyValue m q with
    | panic => rfl
    | ub => rfl
    | ok o =>
      cases o with
      | none => rfl
      | some r => exact ⟨um, rfl, hR⟩
  | len => exact ⟨um, by rw [h.len m um hR]; rfl, hR⟩
  | iter =>
    refine ⟨um, ?_, hR⟩
    simp only [h.iter m um hR]
    rw [MapIter.new, MapIter.fold_eq _ _ _ 0 _ rfl, List.drop_zero]
    have : ∀ (l acc : List (K × V)), l.foldl (fun l e => l ++ [e]) acc = acc ++ l := by
      intro l; induction l with
      | nil => simp
      | cons a l ih => intro acc; simp [ih]
    rw [this]
    rfl
  | keys =>
    refine ⟨um, ?_, hR⟩
    simp only [h.keys m um hR]
    rw [MapKeys.fold, MapKeys.new, MapIter.new, MapIter.fold_eq _ _ _ 0 _ rfl, List.drop_zero]
    have : ∀ (l : List (K × V)) (acc : List K),
        l.foldl (fun l e => l ++ [e.1]) acc = acc ++ l.map (·.1) := by
      intro l; induction l with
      | nil => simp
      | cons a l ih => intro acc; simp [ih]
    rw [this]
    rfl
  | values =>
    refine ⟨um, ?_, hR⟩
    simp only [h.values m um hR]
    rw [MapValues.fold, MapValues.new, MapIter.new, MapIter.fold_eq _ _ _ 0 _ rfl, List.drop_zero]
    have : ∀ (l : List (K × V)) (acc : List V),
        l.foldl (fun l e => l ++ [e.2]) acc = acc ++ l.map (·.2) := by
      intro l; induction l with
      | nil => simp
      | cons a l ih => intro acc; simp [ih]
    rw [this]
    rfl
  | getMut q v =>
    unfold MapApi.step UMap.step
    simp only
    rw [Call.bind_apply, hl, h.getMut, hg]
    cases A.getKeyValue m q with
    | panic => rfl
    | ub => rfl
    | ok o =>
      cases o with
      | none => exact ⟨um, rfl, hR⟩
      | some r => exact ⟨_, rfl, h.write _ _ _ _ hR⟩
  | indexMut q v =>
    unfold MapApi.step UMap.step
    simp only
    rw [Call.bind_apply, hl, h.indexMut, h.getMut, hg]
    cases A.getKeyValue m q with
    | panic => rfl
    | ub => rfl
    | ok o =>
      cases o with
      | none => rfl
      | some r => exact ⟨_, rfl, h.write _ _ _ _ hR⟩
  | getManyMut qvs =>
    unfold MapApi.step UMap.step
    simp only
    rw [Call.bind_apply, h.getManyMut hR]
    cases hm : A.getManyMut m (qvs.map (·.1)) with
    | panic => rfl
    | ub => rfl
    | ok o =>
      cases o with
      | none => exact ⟨um, rfl, hR⟩
      | some rs =>
        have hnd := h.nodup heq hR s _ rs hm
        refine ⟨_, ?_, h.writes _ hR⟩
        simp only [Res.map_ok, Res.ok_bind]
        rw [if_pos hnd]
        rfl

omit [Target] in
theorem Purely.run (h : Purely A eq borrow u R) (heq : LawfulEq eq) (ops : List (MapOp V Q)) (s : σ) :
    ∀ {m : M} {um : UMap K V}, R m um → Tracks R s (A.run m ops) (um.run u ops s) := by
  induction ops with
  | nil => exact fun hR => ⟨_, rfl, hR⟩
  | cons op ops ih =>
    intro m um hR
    have hs := h.step heq hR op s
    unfold MapApi.run UMap.run
    rw [Call.bind_apply]
    cases hstep : A.step m op with
    | panic => rw [hstep] at hs; rw [show um.step u op s = _ from hs]; rfl
    | ub => rw [hstep] at hs; rw [show um.step u op s = _ from hs]; rfl
    | ok r =>
      rw [hstep] at hs
      obtain ⟨um', he, hR'⟩ := hs
      rw [he]
      simp only [Res.ok_bind]
      rw [Call.bind_apply]
      have hr := ih hR'
      cases hrun : A.run r.2 ops with
      | panic => rw [hrun] at hr; rw [show um'.run u ops s = _ from hr]; rfl
      | ub => rw [hrun] at hr; rw [show um'.run u ops s = _ from hr]; rfl
      | ok rs =>
        rw [hrun] at hr
        obtain ⟨um'', he', hR''⟩ := hr
        rw [he']
        exact ⟨um'', rfl, hR''⟩

omit [Target] in
theorem Purely.session {A : MapApi M K V Q} {eq : Q → Q → Bool} {borrow : K → Q}
    {u : UserCode σ K Q} {R : M → UMap K V → Prop} (h : Purely A eq borrow u R) (heq : LawfulEq eq)
    {build : Call σ (UMap K V)} {build' : Res M}
    (hb : ∀ s, Tracks (α := Unit) R s (build'.map (fun m => ((), m)))
      ((build s).map (fun r => (((), r.1), r.2)))) (ops : List (MapOp V Q)) :
    LeavesAlone (UMap.session u build ops) (A.session build' ops) := by
  intro s
  have hs := hb s
  unfold UMap.session MapApi.session
  rw [Call.bind_apply]
  cases hb' : build' with
  | panic =>
    rw [hb'] at hs
    cases hbs : build s with
    | panic => rfl
    | ub => rw [hbs] at hs; cases hs
    | ok r => rw [hbs] at hs; cases hs
  | ub =>
    rw [hb'] at hs
    cases hbs : build s with
    | panic => rw [hbs] at hs; cases hs
    | ub => rfl
    | ok r => rw [hbs] at hs; cases hs
  | ok m =>
    rw [hb'] at hs
    obtain ⟨um, he, hR⟩ := hs
    cases hbs : build s with
    | panic => rw [hbs] at he; cases he
    | ub => rw [hbs] at he; cases he
    | ok r =>
      rw [hbs] at he
      simp only [Res.map_ok, Res.ok.injEq, Prod.mk.injEq, true_and] at he
      obtain ⟨h1, h2⟩ := he
      subst h1
      simp only [Res.ok_bind]
      rw [Call.bind_apply, h2]
      have hr := h.run heq ops s hR
      cases hrun : A.run m ops with
      | panic => rw [hrun] at hr; rw [show r.1.run u ops s = _ from hr]; rfl
      | ub => rw [hrun] at hr; rw [show r.1.run u ops s = _ from hr]; rfl
      | ok rs =>
        rw [hrun] at hr
        obtain ⟨um', he', _⟩ := hr
        rw [he']
        rfl

omit [Target] in
/-- `==` with pure code. -/
theorem Purely.partialEq {A : MapApi M K V K} {eq : K → K → Bool} {u : UserCode σ K K}
    {R : M → UMap K V → Prop} (h : Purely A eq id u R) (veq : V → V → Bool) {m n : M}
    {um un : UMap K V} (hlen : A.len m = um.entries.length)
    (hiter : A.iter m = MapIter.new um.entries) (hn : R n un) :
    LeavesAlone (UMap.partialEq u (fun a b => pure (veq a b)) um un) (A.partialEq veq m n) := by
  intro s
  unfold UMap.partialEq MapApi.partialEq mapEq
  rw [hlen, h.len n un hn, hiter]
  unfold UMap.len
  by_cases hl : um.entries.length ≠ un.entries.length
  · rw [if_pos hl, if_pos hl]; rfl
  · rw [if_neg hl, if_neg hl]
    show _ = (Res.allList _ um.entries).map _
    induction um.entries with
    | nil => rfl
    | cons e es ih =>
      unfold Call.allList Res.allList
      rw [Call.bind_apply, Call.bind_apply, h.look n un hn, h.get n un hn]
      cases A.getKeyValue n e.1 with
      | panic => rfl
      | ub => rfl
      | ok o =>
        cases o with
        | none => rfl
        | some r =>
          simp only [Res.map_ok, Res.ok_bind, Option.map_some]
          rw [show (pure (veq e.2 r.2.val) : Call σ Bool) s = .ok (veq e.2 r.2.val, s) from rfl]
          simp only [Res.ok_bind]
          cases veq e.2 r.2.val with
          | false => rfl
          | true => exact ih

/-- A map of strings that uses the hasher `bh`. -/
def FrozenMap.StringsWith (bh : Hasher) : FrozenMap Bytes V → Prop
  | .scanning _ | .lengthSmall _ => True
  | .commonSmall m | .commonLarge m => m.bh = bh
  | .leftSmall m | .leftLarge m => m.bh = bh
  | .rightSmall m | .rightLarge m => m.bh = bh
  | .u32Small _ | .u32Large _ | .u32Range _ => False

theorem FrozenMap.new_stringsWith {env : Env} {enc : Bytes → List HCall}
    {payload : List (Bytes × V)} {bh : Hasher} {m : FrozenMap Bytes V}
    (h : FrozenMap.new env (bytesTy enc) payload bh = .ok m) : m.StringsWith bh := by
  have hc : ∀ S (p : List (Bytes × V)) m,
      CommonMap.fromVecWithHasher env S enc p bh = .ok m → m.bh = bh := by
    intro S p m hm
    unfold CommonMap.fromVecWithHasher at hm
    simp only [Res.bind_eq_ok, Res.pure_eq, Res.ok.injEq] at hm
    obtain ⟨_, _, _, _, rfl⟩ := hm
    rfl
  have hl : ∀ S (p : List (Bytes × V)) a b m,
      LeftSliceMap.fromVecWithHasher env S p a b bh = .ok m → m.bh = bh := by
    intro S p a b m hm
    unfold LeftSliceMap.fromVecWithHasher at hm
    simp only [Res.bind_eq_ok, Res.pure_eq, Res.ok.injEq] at hm
    obtain ⟨_, _, _, _, _, _, rfl⟩ := hm
    rfl
  have hr : ∀ S (p : List (Bytes × V)) a b m,
      RightSliceMap.fromVecWithHasher env S p a b bh = .ok m → m.bh = bh := by
    intro S p a b m hm
    unfold RightSliceMap.fromVecWithHasher at hm
    simp only [Res.bind_eq_ok, Res.pure_eq, Res.ok.injEq] at hm
    obtain ⟨_, _, _, _, _, _, rfl⟩ := hm
    rfl
  unfold FrozenMap.new at h
  split at h
  · cases h; trivial
  · simp only [bytesTy] at h
    unfold FrozenMap.newStringMap at h
    simp only [Res.bind_eq_ok] at h
    obtain ⟨v, _, h⟩ := h
    split at h
    · cases v <;> simp only [Res.bind_eq_ok, Res.pure_eq, Res.ok.injEq] at h <;>
        obtain ⟨m', hm', rfl⟩ := h
      · exact hc _ _ _ hm'
      · exact hl _ _ _ _ _ hm'
      · exact hr _ _ _ _ _ hm'
      · trivial
    · cases v <;> simp only [Res.bind_eq_ok, Res.pure_eq, Res.ok.injEq] at h <;>
        obtain ⟨m', hm', rfl⟩ := h
      · exact hc _ _ _ hm'
      · exact hl _ _ _ _ _ hm'
      · exact hr _ _ _ _ _ hm'
      · exact hc _ _ _ hm'

theorem strings_purely (env : Env) (bh : Hasher) (enc : Bytes → List HCall)
    (rep : StringRep) :
    Purely (frozenApi env (bytesTy enc)) beq id
      (rep.code env.oc (HasherCode.det bh enc) : UserCode σ Bytes Bytes)
      (fun (m : FrozenMap Bytes V) um => m.stripped = (rep, um) ∧ m.StringsWith bh) := by
  have hid : ∀ es : List (Bytes × V), (bytesTy enc).ofBEntries es = es := by
    intro es
    show es.map (fun e => (id e.1, e.2)) = es
    simp
  have hkv : ∀ o : Option (Bytes × Ref V), (bytesTy enc).ofBKV o = o := by
    intro o
    cases o <;> rfl
  have hkv' : ∀ r : Res (Option (Bytes × Ref V)), r.map (bytesTy enc).ofBKV = r := by
    intro r
    cases r with
    | ok o => rw [Res.map_ok, hkv]
    | panic => rfl
    | ub => rfl
  refine ⟨fun q k => by cases rep <;> rfl, fun a b => by cases rep <;> rfl, ?_, ?_,
    fun m q => m.getMut_eq env _ q, fun _ _ => rfl, fun _ _ => rfl, fun _ _ => rfl,
    fun _ _ => rfl, ?_, ?_, ?_, ?_, ?_⟩
  · rintro m um ⟨hs, hw⟩ q s
    cases m with
    | scanning m => cases hs; exact UMap.scan_pure (fun _ _ => rfl) q _ s 0
    | commonSmall m =>
      cases hs; cases hw
      exact UMap.lookup_common _ (⟨id, beq, enc⟩ : Probe Bytes Bytes) enc q s
    | commonLarge m =>
      cases hs; cases hw
      exact UMap.lookup_common _ (⟨id, beq, enc⟩ : Probe Bytes Bytes) enc q s
    | leftSmall m =>
      cases hs; cases hw
      refine Eq.trans ?_ ((UMap.lookup_left m q s).trans (congrArg _ (hkv' _).symm))
      unfold StringRep.code
      rw [sliceHash_det]
    | leftLarge m =>
      cases hs; cases hw
      refine Eq.trans ?_ ((UMap.lookup_left m q s).trans (congrArg _ (hkv' _).symm))
      unfold StringRep.code
      rw [sliceHash_det]
    | rightSmall m =>
      cases hs; cases hw
      refine Eq.trans ?_ ((UMap.lookup_right env.oc m q s).trans (congrArg _ (hkv' _).symm))
      unfold StringRep.code
      rw [sliceHash_det]
    | rightLarge m =>
      cases hs; cases hw
      refine Eq.trans ?_ ((UMap.lookup_right env.oc m q s).trans (congrArg _ (hkv' _).symm))
      unfold StringRep.code
      rw [sliceHash_det]
    | lengthSmall m =>
      cases hs
      exact (UMap.lookup_length m List.length List.length beq id q s).trans
        (congrArg _ (hkv' _).symm)
    | u32Small m => exact hw.elim
    | u32Large m => exact hw.elim
    | u32Range m => exact hw.elim
  · rintro m um ⟨hs, hw⟩ q
    cases m with
    | scanning m => rfl
    | commonSmall m => exact CommonMap.get_eq_kv _ _ q
    | commonLarge m => exact CommonMap.get_eq_kv _ _ q
    | leftSmall m => exact (LeftSliceMap.get_eq_kv m q).trans (congrArg _ (hkv' _).symm)
    | leftLarge m => exact (LeftSliceMap.get_eq_kv m q).trans (congrArg _ (hkv' _).symm)
    | rightSmall m => exact (RightSliceMap.get_eq_kv env.oc m q).trans (congrArg _ (hkv' _).symm)
    | rightLarge m => exact (RightSliceMap.get_eq_kv env.oc m q).trans (congrArg _ (hkv' _).symm)
    | lengthSmall m =>
      exact (LengthMap.get_eq_kv id beq List.length m q).trans (congrArg _ (hkv' _).symm)
    | u32Small m => exact hw.elim
    | u32Large m => exact hw.elim
    | u32Range m => exact hw.elim
  · rintro m um ⟨hs, hw⟩
    cases m <;> first | exact hw.elim | (cases hs; rfl)
  · rintro m um ⟨hs, hw⟩
    have he : um.entries = m.entries (bytesTy enc) := by
      cases m <;> first | exact hw.elim | (cases hs; first | rfl | exact (hid _).symm)
    rw [he]
    rfl
  · rintro m um ⟨hs, hw⟩
    have he : um.entries = m.entries (bytesTy enc) := by
      cases m <;> first | exact hw.elim | (cases hs; first | rfl | exact (hid _).symm)
    rw [he]
    rfl
  · rintro m um ⟨hs, hw⟩
    have he : um.entries = m.entries (bytesTy enc) := by
      cases m <;> first | exact hw.elim | (cases hs; first | rfl | exact (hid _).symm)
    rw [he]
    rfl
  · rintro m um i v ⟨hs, hw⟩
    cases m <;> first | exact hw.elim | (cases hs; exact ⟨rfl, hw⟩)

/-- A map over a key type of the caller's own, without its hasher `bh`. -/
def FrozenMap.IsOther (bh : Hasher) (m : FrozenMap K V) (um : UMap K V) : Prop :=
  match m with
  | .scanning m => um = .scanning m.entries
  | .commonSmall m | .commonLarge m => um = .hashed m.table ∧ m.bh = bh
  | _ => False

/-- Pure code of a key type of the caller's own. -/
def KeyTy.pureCode (ty : KeyTy K) (bh : Hasher) : UserCode σ K K :=
  commonCode (fun k => pure (bh (ty.enc k))) (fun q => pure (bh (ty.enc q)))
    (fun q k => pure (ty.eq q k)) (fun a b => pure (ty.eq a b))

theorem facade_purely (env : Env) (ty : KeyTy K) (bh : Hasher) :
    Purely (frozenApi (V := V) env ty) ty.eq id (ty.pureCode bh : UserCode σ K K)
      (FrozenMap.IsOther bh) := by
  refine ⟨fun _ _ => rfl, fun _ _ => rfl, ?_, ?_, fun m q => m.getMut_eq env ty q, fun _ _ => rfl,
    fun _ _ => rfl, fun _ _ => rfl, fun _ _ => rfl, ?_, ?_, ?_, ?_, ?_⟩
  · intro m um hR q s
    cases m <;> try exact hR.elim
    · subst hR; exact UMap.scan_pure (fun _ _ => rfl) q _ s 0
    · obtain ⟨rfl, rfl⟩ := hR; exact UMap.lookup_common _ ty.probe ty.enc q s
    · obtain ⟨rfl, rfl⟩ := hR; exact UMap.lookup_common _ ty.probe ty.enc q s
  · intro m um hR q
    cases m <;> try exact hR.elim
    · rfl
    · exact CommonMap.get_eq_kv ty.probe _ q
    · exact CommonMap.get_eq_kv ty.probe _ q
  · intro m um hR
    cases m <;> try exact hR.elim
    · subst hR; rfl
    · obtain ⟨rfl, _⟩ := hR; rfl
    · obtain ⟨rfl, _⟩ := hR; rfl
  · intro m um hR
    cases m <;> try exact hR.elim
    · subst hR; rfl
    · obtain ⟨rfl, _⟩ := hR; rfl
    · obtain ⟨rfl, _⟩ := hR; rfl
  · intro m um hR
    cases m <;> try exact hR.elim
    · subst hR; rfl
    · obtain ⟨rfl, _⟩ := hR; rfl
    · obtain ⟨rfl, _⟩ := hR; rfl
  · intro m um hR
    cases m <;> try exact hR.elim
    · subst hR; rfl
    · obtain ⟨rfl, _⟩ := hR; rfl
    · obtain ⟨rfl, _⟩ := hR; rfl
  · intro m um i v hR
    cases m <;> try exact hR.elim
    · subst hR; rfl
    · obtain ⟨rfl, h⟩ := hR; exact ⟨rfl, h⟩
    · obtain ⟨rfl, h⟩ := hR; exact ⟨rfl, h⟩

theorem facade_tracks (env : Env) (ty : KeyTy K) (hk : ty.kind = .other) (bh : Hasher)
    (payload : List (K × V)) (s : σ) :
    Tracks (α := Unit) (FrozenMap.IsOther bh)
      s ((FrozenMap.new env ty payload bh).map (fun m => ((), m)))
      ((UMap.facade env (ty.pureCode bh : UserCode σ K K) payload s).map
        (fun r => (((), r.1), r.2))) := by
  have hc : ∀ S, UMap.fromVec env S (ty.pureCode bh : UserCode σ K K) payload s
      = (CommonMap.fromVecWithHasher env S ty.enc payload bh).map
          (fun m => (.hashed m.table, s)) :=
    fun S => UMap.fromVec_common env S bh ty.probe ty.enc payload s
  have hbh : ∀ S m, CommonMap.fromVecWithHasher env S ty.enc payload bh = .ok m → m.bh = bh := by
    intro S m hm
    unfold CommonMap.fromVecWithHasher at hm
    simp only [Res.bind_eq_ok, Res.pure_eq, Res.ok.injEq] at hm
    obtain ⟨_, _, _, _, rfl⟩ := hm
    rfl
  unfold UMap.facade FrozenMap.new
  by_cases h4 : payload.length < 4
  · rw [if_pos h4, if_pos h4]; exact ⟨_, rfl, rfl⟩
  · rw [if_neg h4, if_neg h4, hk]
    simp only
    unfold FrozenMap.newCommonMap
    by_cases h255 : payload.length ≤ 255
    · rw [if_pos h255, if_pos h255, hc]
      cases hm : CommonMap.fromVecWithHasher env IdxTy.u8 ty.enc payload bh with
      | panic => rfl
      | ub => rfl
      | ok m => exact ⟨_, rfl, rfl, hbh _ _ hm⟩
    · rw [if_neg h255, if_neg h255, hc]
      cases hm : CommonMap.fromVecWithHasher env IdxTy.usize ty.enc payload bh with
      | panic => rfl
      | ub => rfl
      | ok m => exact ⟨_, rfl, rfl, hbh _ _ hm⟩

end FC
