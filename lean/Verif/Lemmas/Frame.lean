import Verif.Spec.Frame
import Verif.Lemmas.Cost
import Verif.Props.MapIter

/-
Writing a value moves nothing.
-/

set_option autoImplicit false

namespace FC
variable [Target]
variable {M K V Q : Type}

/-! ### Histories -/

theorem MapApi.step_ind (A : MapApi M K V Q) {R : M → M → Prop} (hr : ∀ m, R m m)
    (ht : ∀ a b c, R a b → R b c → R a c) (hw : ∀ m i v, R m (A.write m i v)) {m : M}
    {op : MapOp V Q} {r : Out K V × M} (h : A.step m op = .ok r) : R m r.2 := by
  have hmany : ∀ (l : List (Ref V × V)) (m : M),
      R m (l.foldl (fun m rv => A.write m rv.1.idx rv.2) m) := by
    intro l
    induction l with
    | nil => exact hr
    | cons a l ih => exact fun m => ht _ _ _ (hw _ _ _) (ih _)
  cases op <;> simp only [MapApi.step, Res.bind_eq_ok, Res.pure_eq, Res.ok.injEq] at h
  case getMut q v =>
    obtain ⟨o, _, h⟩ := h
    cases o <;> cases h
    · exact hr m
    · exact hw _ _ _
  case indexMut q v =>
    obtain ⟨o, _, h⟩ := h
    cases h
    exact hw _ _ _
  case getManyMut qvs =>
    obtain ⟨o, _, h⟩ := h
    cases o <;> cases h
    · exact hr m
    · exact hmany _ _
  all_goals first
    | (obtain ⟨o, _, h⟩ := h; cases h; exact hr m)
    | (cases h; exact hr m)

/-- What no write changes, no history changes. -/
theorem MapApi.run_ind (A : MapApi M K V Q) {R : M → M → Prop} (hr : ∀ m, R m m)
    (ht : ∀ a b c, R a b → R b c → R a c) (hw : ∀ m i v, R m (A.write m i v))
    (ops : List (MapOp V Q)) : ∀ {m m' : M} {outs : List (Out K V)},
    A.run m ops = .ok (outs, m') → R m m' := by
  induction ops with
  | nil =>
    intro m m' outs h
    cases h
    exact hr m
  | cons op ops ih =>
    intro m m' outs h
    simp only [MapApi.run, Res.bind_eq_ok, Res.pure_eq, Res.ok.injEq] at h
    obtain ⟨r, hr', rs, hrs, h⟩ := h
    cases h
    exact ht _ _ _ (A.step_ind hr ht hw hr') (ih hrs)

theorem Unmoved.refl (A : MapApi M K V Q) (find : M → Q → Res (Option (K × Ref V) × Nat)) (m : M) :
    Unmoved A find m m :=
  ⟨fun _ => rfl, fun _ => rfl, fun _ => rfl, fun _ => rfl, fun _ => rfl, fun _ => rfl, fun _ => rfl,
    rfl, rfl⟩

theorem Unmoved.trans {A : MapApi M K V Q} {find : M → Q → Res (Option (K × Ref V) × Nat)}
    {a b c : M} (h : Unmoved A find a b) (h' : Unmoved A find b c) : Unmoved A find a c :=
  ⟨fun q => (h'.search q).trans (h.search q), fun q => (h'.get q).trans (h.get q),
    fun q => (h'.getMut q).trans (h.getMut q), fun q => (h'.index q).trans (h.index q),
    fun q => (h'.indexMut q).trans (h.indexMut q), fun q => (h'.getManyMut q).trans (h.getManyMut q),
    fun q => (h'.containsKey q).trans (h.containsKey q), h'.keys.trans h.keys, h'.len.trans h.len⟩

theorem onlyValuesChange {A : MapApi M K V Q} {find : M → Q → Res (Option (K × Ref V) × Nat)}
    (hw : ∀ m i v, Unmoved A find m (A.write m i v)) : OnlyValuesChange A find :=
  fun _ ops _ _ h => A.run_ind (R := Unmoved A find) (Unmoved.refl A find)
    (fun _ _ _ => Unmoved.trans) hw ops h

/-! ### References -/

omit [Target] in
theorem indexOf_idx {r r' : Res (Option (Ref V))}
    (h : r'.map (Option.map Ref.idx) = r.map (Option.map Ref.idx)) :
    (indexOf r').map Ref.idx = (indexOf r).map Ref.idx := by
  cases r with
  | ok o =>
    cases r' with
    | ok o' =>
      cases o <;> cases o' <;> simp_all [Res.map, indexOf]
    | panic => cases h
    | ub => cases h
  | panic => cases r' <;> first | rfl | cases h
  | ub => cases r' <;> first | rfl | cases h

omit [Target] in
theorem isSome_idx {r r' : Res (Option (Ref V))}
    (h : r'.map (Option.map Ref.idx) = r.map (Option.map Ref.idx)) :
    r'.map Option.isSome = r.map Option.isSome := by
  cases r with
  | ok o =>
    cases r' with
    | ok o' =>
      cases o <;> cases o' <;> simp_all [Res.map]
    | panic => cases h
    | ub => cases h
  | panic => cases r' <;> first | rfl | cases h
  | ub => cases r' <;> first | rfl | cases h

omit [Target] in
/-- The places a lookup leads to are those of the counted lookup. -/
theorem idx_of_trace {r r' : Res (Option (K × Ref V) × Nat)} (h : searchTrace r' = searchTrace r) :
    (r'.map (fun x => x.1.map (·.2))).map (Option.map Ref.idx)
      = (r.map (fun x => x.1.map (·.2))).map (Option.map Ref.idx) := by
  have : ∀ x : Res (Option (K × Ref V) × Nat), (x.map (fun x => x.1.map (·.2))).map
      (Option.map Ref.idx) = (searchTrace x).map (fun y => y.1.map (·.2)) := by
    intro x
    cases x with
    | ok x => simp [searchTrace, Res.map, Option.map_map, Function.comp_def]
    | panic => rfl
    | ub => rfl
  rw [this, this, h]

omit [Target] in
theorem getAll_idx {get get' : Q → Res (Option (Ref V))}
    (h : ∀ q, (get' q).map (Option.map Ref.idx) = (get q).map (Option.map Ref.idx)) (qs : List Q) :
    (getAll get' qs).map (Option.map (List.map Ref.idx))
      = (getAll get qs).map (Option.map (List.map Ref.idx)) := by
  induction qs with
  | nil => rfl
  | cons q qs ih =>
    have hq := h q
    unfold getAll
    revert hq ih
    cases get q with
    | ok o =>
      cases get' q with
      | ok o' =>
        cases o with
        | none => cases o' <;> simp [Res.map]
        | some r =>
          cases o' with
          | none => simp [Res.map]
          | some r' =>
            cases getAll get qs with
            | ok l =>
              cases getAll get' qs with
              | ok l' => cases l <;> cases l' <;> simp_all [Res.map]
              | panic => simp [Res.map]
              | ub => simp [Res.map]
            | panic => cases getAll get' qs <;> simp [Res.map]
            | ub => cases getAll get' qs <;> simp [Res.map]
      | panic => simp [Res.map]
      | ub => simp [Res.map]
    | panic => cases get' q <;> simp [Res.map]
    | ub => cases get' q <;> simp [Res.map]

omit [Target] in
theorem getManyMut_idx {eq : Q → Q → Bool} {get get' : Q → Res (Option (Ref V))}
    (h : ∀ q, (get' q).map (Option.map Ref.idx) = (get q).map (Option.map Ref.idx)) (qs : List Q) :
    (getManyMut eq get' qs).map (Option.map (List.map Ref.idx))
      = (getManyMut eq get qs).map (Option.map (List.map Ref.idx)) := by
  unfold getManyMut
  split
  · rfl
  · exact getAll_idx h qs

omit [Target] in
theorem keys_collect (es : List (K × V)) :
    (MapKeys.new es).fold (fun l k => l ++ [k]) [] = es.map (·.1) := by
  rw [MapKeys.fold, MapKeys.new, MapIter.new, MapIter.fold_eq _ _ _ 0 _ rfl, List.drop_zero]
  have : ∀ (l : List (K × V)) (acc : List K),
      l.foldl (fun l e => l ++ [e.1]) acc = acc ++ l.map (·.1) := by
    intro l
    induction l with
    | nil => simp
    | cons a l ih => intro acc; simp [ih]
  exact (this es []).trans (by simp)

/-! ### One search -/

omit [Target] in
/-- A scan looks at keys only. -/
theorem scanCounted_trace (eq : Q → Q → Bool) (borrow : K → Q) (q : Q) (es : List (K × V)) :
    ∀ (es' : List (K × V)) (i : Nat), es'.map (·.1) = es.map (·.1) →
      ((scanCounted eq borrow q i es').1.map (fun e => (e.1, e.2.idx)), (scanCounted eq borrow q i es').2)
        = ((scanCounted eq borrow q i es).1.map (fun e => (e.1, e.2.idx)),
          (scanCounted eq borrow q i es).2) := by
  induction es with
  | nil =>
    intro es' i h
    rw [List.map_nil, List.map_eq_nil_iff] at h
    rw [h]
  | cons e es ih =>
    intro es' i h
    cases es' with
    | nil => cases h
    | cons e' es' =>
      simp only [List.map_cons, List.cons.injEq] at h
      have := ih es' (i + 1) h.2
      simp only [Prod.mk.injEq] at this
      simp only [scanCounted, h.1]
      split
      · rfl
      · simp only [this.1, this.2]

/-- The body shared by the counted lookups of the hash-based maps. -/
def bodyCounted (eq : Q → Q → Bool) (borrow : K → Q) (q : Q) (info : Res (Nat × Nat))
    (es : List (K × V)) : Res (Option (K × Ref V) × Nat) := do
  let r ← info
  let es ← sliceUnchecked es r.1 r.2
  return scanCounted eq borrow q r.1 es

/-- The body shared by their `get` and `get_mut`. -/
def bodyGet (eq : Q → Q → Bool) (borrow : K → Q) (q : Q) (info : Res (Nat × Nat))
    (es : List (K × V)) : Res (Option (Ref V)) := do
  let r ← info
  let es ← sliceUnchecked es r.1 r.2
  return (scan eq borrow q r.1 es).map (·.2)

omit [Target] in
theorem bodyGet_eq (eq : Q → Q → Bool) (borrow : K → Q) (q : Q) (info : Res (Nat × Nat))
    (es : List (K × V)) :
    bodyGet eq borrow q info es = (bodyCounted eq borrow q info es).map (fun x => x.1.map (·.2)) := by
  unfold bodyGet bodyCounted
  cases info with
  | ok r =>
    simp only [Res.ok_bind]
    cases sliceUnchecked es r.1 r.2 with
    | ok es => simp [scanCounted_fst]
    | panic => rfl
    | ub => rfl
  | panic => rfl
  | ub => rfl

omit [Target] in
theorem bodyCounted_trace (eq : Q → Q → Bool) (borrow : K → Q) (q : Q) (info : Res (Nat × Nat))
    {es es' : List (K × V)} (h : es'.map (·.1) = es.map (·.1)) :
    searchTrace (bodyCounted eq borrow q info es') = searchTrace (bodyCounted eq borrow q info es) := by
  have hlen : es'.length = es.length := by simpa using congrArg List.length h
  unfold bodyCounted sliceUnchecked
  cases info with
  | ok r =>
    simp only [Res.ok_bind, hlen]
    split
    · refine congrArg Res.ok (scanCounted_trace eq borrow q _ _ _ ?_)
      simp only [List.map_take, List.map_drop, h]
    · rfl
  | panic => rfl
  | ub => rfl

omit [Target] in
theorem bodyGet_idx (eq : Q → Q → Bool) (borrow : K → Q) (q : Q) (info : Res (Nat × Nat))
    {es es' : List (K × V)} (h : es'.map (·.1) = es.map (·.1)) :
    (bodyGet eq borrow q info es').map (Option.map Ref.idx)
      = (bodyGet eq borrow q info es).map (Option.map Ref.idx) := by
  rw [bodyGet_eq, bodyGet_eq]
  exact idx_of_trace (bodyCounted_trace eq borrow q info h)

/-! ### One write -/

/-- A write moves nothing if no lookup notices it. -/
theorem Unmoved.of {A : MapApi M K V Q} {find : M → Q → Res (Option (K × Ref V) × Nat)}
    {eq : Q → Q → Bool} {es : M → List (K × V)} (hi : ∀ m q, A.index m q = indexOf (A.get m q))
    (him : ∀ m q, A.indexMut m q = indexOf (A.getMut m q))
    (hmany : ∀ m qs, A.getManyMut m qs = FC.getManyMut eq (A.get m) qs)
    (hc : ∀ m q, A.containsKey m q = (A.get m q).map Option.isSome)
    (hk : ∀ m, A.keys m = MapKeys.new (es m)) {m m' : M}
    (search : ∀ q, searchTrace (find m' q) = searchTrace (find m q))
    (get : ∀ q, (A.get m' q).map (Option.map Ref.idx) = (A.get m q).map (Option.map Ref.idx))
    (getMut : ∀ q, (A.getMut m' q).map (Option.map Ref.idx) = (A.getMut m q).map (Option.map Ref.idx))
    (keys : (es m').map (·.1) = (es m).map (·.1)) (len : A.len m' = A.len m) : Unmoved A find m m' where
  search := search
  get := get
  getMut := getMut
  index q := by rw [hi, hi]; exact indexOf_idx (get q)
  indexMut q := by rw [him, him]; exact indexOf_idx (getMut q)
  getManyMut qs := by rw [hmany, hmany]; exact getManyMut_idx get qs
  containsKey q := by rw [hc, hc]; exact isSome_idx (get q)
  keys := by rw [hk, hk, keys_collect, keys_collect, keys]
  len := len

/-- The hash-based maps. -/
theorem Unmoved.of_table {A : MapApi M K V Q} {find : M → Q → Res (Option (K × Ref V) × Nat)}
    {eq : Q → Q → Bool} {borrow : K → Q} {info : M → Q → Res (Nat × Nat)} {es : M → List (K × V)}
    (hf : ∀ m q, find m q = bodyCounted eq borrow q (info m q) (es m))
    (hg : ∀ m q, A.get m q = bodyGet eq borrow q (info m q) (es m))
    (hgm : ∀ m q, A.getMut m q = bodyGet eq borrow q (info m q) (es m))
    (hi : ∀ m q, A.index m q = indexOf (A.get m q))
    (him : ∀ m q, A.indexMut m q = indexOf (A.getMut m q))
    (hmany : ∀ m qs, A.getManyMut m qs = FC.getManyMut eq (A.get m) qs)
    (hc : ∀ m q, A.containsKey m q = (A.get m q).map Option.isSome)
    (hk : ∀ m, A.keys m = MapKeys.new (es m)) (hl : ∀ m, A.len m = (es m).length) {m m' : M}
    (hinfo : ∀ q, info m' q = info m q)
    (keys : (es m').map (·.1) = (es m).map (·.1)) : Unmoved A find m m' :=
  .of hi him hmany hc hk (fun q => by rw [hf, hf, hinfo]; exact bodyCounted_trace _ _ _ _ keys)
    (fun q => by rw [hg, hg, hinfo]; exact bodyGet_idx _ _ _ _ keys)
    (fun q => by rw [hgm, hgm, hinfo]; exact bodyGet_idx _ _ _ _ keys) keys
    (by rw [hl, hl]; simpa using congrArg List.length keys)

theorem CommonMap.write_unmoved (P : Probe K Q) (m : CommonMap K V) (i : Nat) (v : V) :
    Unmoved (commonApi P) (CommonMap.getKeyValueCounted P) m (m.write i v) :=
  .of_table (A := commonApi P) (find := CommonMap.getKeyValueCounted P) (eq := P.eq) (borrow := P.borrow)
    (info := fun (m : CommonMap K V) => m.getHashInfo P) (es := fun m => m.table.entries) (fun _ _ => rfl)
    (fun _ _ => rfl) (fun _ _ => rfl) (fun _ _ => rfl) (fun _ _ => rfl) (fun _ _ => rfl)
    (fun _ _ => rfl) (fun _ => rfl) (fun _ => rfl) (fun _ => rfl) (setVal_keys _ i v)

theorem IntegerMap.write_unmoved (m : IntegerMap V) (i : Nat) (v : V) :
    Unmoved integerApi IntegerMap.getKeyValueCounted m (m.write i v) :=
  .of_table (A := integerApi) (find := IntegerMap.getKeyValueCounted) (eq := IntegerMap.ieq) (borrow := id)
    (info := fun (m : IntegerMap V) => m.getHashInfo) (es := fun m => m.table.entries) (fun _ _ => rfl)
    (fun _ _ => rfl) (fun _ _ => rfl) (fun _ _ => rfl) (fun _ _ => rfl) (fun _ _ => rfl)
    (fun _ _ => rfl) (fun _ => rfl) (fun _ => rfl) (fun _ => rfl) (setVal_keys _ i v)

theorem LengthMap.write_unmoved (borrow : K → Q) (eq : Q → Q → Bool) (lenQ : Q → Nat)
    (m : LengthMap K V) (i : Nat) (v : V) :
    Unmoved (lengthApi borrow eq lenQ) (LengthMap.getKeyValueCounted borrow eq lenQ) m
      (m.write i v) :=
  .of_table (A := lengthApi borrow eq lenQ) (find := LengthMap.getKeyValueCounted borrow eq lenQ) (eq := eq) (borrow := borrow)
    (info := fun (m : LengthMap K V) => m.getHashInfo lenQ) (es := fun m => m.table.entries) (fun _ _ => rfl)
    (fun _ _ => rfl) (fun _ _ => rfl) (fun _ _ => rfl) (fun _ _ => rfl) (fun _ _ => rfl)
    (fun _ _ => rfl) (fun _ => rfl) (fun _ => rfl) (fun _ => rfl) (setVal_keys _ i v)

theorem LeftSliceMap.write_unmoved (m : LeftSliceMap V) (i : Nat) (v : V) :
    Unmoved leftApi LeftSliceMap.getKeyValueCounted m (m.write i v) :=
  .of_table (A := leftApi) (find := LeftSliceMap.getKeyValueCounted) (eq := beq) (borrow := id)
    (info := fun (m : LeftSliceMap V) => m.getHashInfo) (es := fun m => m.table.entries) (fun _ _ => rfl)
    (fun _ _ => rfl) (fun _ _ => rfl) (fun _ _ => rfl) (fun _ _ => rfl) (fun _ _ => rfl)
    (fun _ _ => rfl) (fun _ => rfl) (fun _ => rfl) (fun _ => rfl) (setVal_keys _ i v)

theorem RightSliceMap.write_unmoved (oc : Bool) (m : RightSliceMap V) (i : Nat) (v : V) :
    Unmoved (rightApi oc) (RightSliceMap.getKeyValueCounted oc) m (m.write i v) :=
  .of_table (A := rightApi oc) (find := RightSliceMap.getKeyValueCounted oc) (eq := beq) (borrow := id)
    (info := fun (m : RightSliceMap V) => m.getHashInfo oc) (es := fun m => m.table.entries) (fun _ _ => rfl)
    (fun _ _ => rfl) (fun _ _ => rfl) (fun _ _ => rfl) (fun _ _ => rfl) (fun _ _ => rfl)
    (fun _ _ => rfl) (fun _ => rfl) (fun _ => rfl) (fun _ => rfl) (setVal_keys _ i v)

theorem ScanningMap.write_unmoved (P : Probe K Q) (m : ScanningMap K V) (i : Nat) (v : V) :
    Unmoved (scanningApi P) (ScanningMap.getKeyValueCounted P) m (m.write i v) := by
  have hs : ∀ q, searchTrace (ScanningMap.getKeyValueCounted P (m.write i v) q)
      = searchTrace (m.getKeyValueCounted P q) := fun q =>
    congrArg Res.ok (scanCounted_trace P.eq P.borrow q _ _ _ (setVal_keys _ i v))
  have hg : ∀ (m : ScanningMap K V) q, m.get P q
      = (m.getKeyValueCounted P q).map (fun x => x.1.map (·.2)) := by
    intro m q
    simp [ScanningMap.get, ScanningMap.getKeyValueCounted, Res.map, scanCounted_fst]
  have hgm : ∀ (m : ScanningMap K V) q, m.getMut P q = m.get P q := fun _ _ => rfl
  refine .of (es := fun (m : ScanningMap K V) => m.entries) (fun _ _ => rfl) (fun _ _ => rfl)
    (fun _ _ => rfl) (fun _ _ => rfl) (fun _ => rfl) hs (fun q => ?_) (fun q => ?_) (setVal_keys _ i v)
    (setVal_length _ i v)
  · exact (congrArg _ (hg _ q)).trans ((idx_of_trace (hs q)).trans (congrArg _ (hg m q).symm))
  · exact (congrArg _ (hg _ q)).trans ((idx_of_trace (hs q)).trans (congrArg _ (hg m q).symm))

theorem IntegerRangeMap.write_unmoved (oc : Bool) (t : IntTy) (m : IntegerRangeMap V) (i : Nat)
    (v : V) :
    Unmoved (rangeApi oc t) (IntegerRangeMap.getKeyValueCounted oc t) m (m.write i v) := by
  have hp : ∀ q, (m.write i v).position oc t q = m.position oc t q := fun _ => rfl
  have he : ∀ j, ((m.write i v).entryAt j).map (fun e => (e.1, e.2.idx))
      = (m.entryAt j).map (fun e => (e.1, e.2.idx)) := by
    intro j
    unfold IntegerRangeMap.entryAt IntegerRangeMap.write
    simp only [setVal_getElem?]
    cases m.entries[j]? with
    | none => rfl
    | some e => simp only [Option.map_some, Res.map]; split <;> rfl
  have hg : ∀ q, ((m.write i v).get oc t q).map (Option.map Ref.idx)
      = (m.get oc t q).map (Option.map Ref.idx) := by
    intro q
    unfold IntegerRangeMap.get
    rw [hp]
    cases m.position oc t q with
    | ok o =>
      cases o with
      | none => rfl
      | some j =>
        have := he j
        simp only [Res.ok_bind]
        revert this
        cases (m.write i v).entryAt j <;> cases m.entryAt j <;> simp [Res.map]
    | panic => rfl
    | ub => rfl
  refine .of (es := fun (m : IntegerRangeMap V) => m.entries) (fun _ _ => rfl) (fun _ _ => rfl)
    (fun _ _ => rfl)
    (fun _ _ => rfl) (fun _ => rfl) (fun q => ?_) hg hg (setVal_keys _ i v) (setVal_length _ i v)
  unfold IntegerRangeMap.getKeyValueCounted IntegerRangeMap.getKeyValue
  rw [hp]
  cases m.position oc t q with
  | ok o =>
    cases o with
    | none => rfl
    | some j =>
      have := he j
      simp only [Res.ok_bind]
      revert this
      cases (m.write i v).entryAt j <;> cases m.entryAt j <;> simp [Res.map, searchTrace]
  | panic => rfl
  | ub => rfl

/-! ### `FrozenMap` -/

omit [Target] in
theorem trace_ofInt (ty : KeyTy K) {r r' : Res (Option (Int × Ref V) × Nat)}
    (h : searchTrace r' = searchTrace r) :
    searchTrace (r'.map (Prod.map ty.ofIntKV id)) = searchTrace (r.map (Prod.map ty.ofIntKV id)) := by
  have : ∀ x : Res (Option (Int × Ref V) × Nat), searchTrace (x.map (Prod.map ty.ofIntKV id))
      = (searchTrace x).map (fun y => (match ty.kind with
          | .u32 _ g => y.1.map (fun e => (g e.1, e.2))
          | _ => none, y.2)) := by
    intro x
    unfold KeyTy.ofIntKV
    cases x with
    | ok x =>
      cases ty.kind <;> simp [searchTrace, Res.map, Option.map_map, Function.comp_def]
    | panic => rfl
    | ub => rfl
  rw [this, this, h]

omit [Target] in
theorem trace_ofB (ty : KeyTy K) {r r' : Res (Option (Bytes × Ref V) × Nat)}
    (h : searchTrace r' = searchTrace r) :
    searchTrace (r'.map (Prod.map ty.ofBKV id)) = searchTrace (r.map (Prod.map ty.ofBKV id)) := by
  have : ∀ x : Res (Option (Bytes × Ref V) × Nat), searchTrace (x.map (Prod.map ty.ofBKV id))
      = (searchTrace x).map (fun y => (match ty.kind with
          | .string _ g => y.1.map (fun e => (g e.1, e.2))
          | _ => none, y.2)) := by
    intro x
    unfold KeyTy.ofBKV
    cases x with
    | ok x =>
      cases ty.kind <;> simp [searchTrace, Res.map, Option.map_map, Function.comp_def]
    | panic => rfl
    | ub => rfl
  rw [this, this, h]

omit [Target] in
theorem ofIntEntries_keys (ty : KeyTy K) {es es' : List (Int × V)}
    (h : es'.map (·.1) = es.map (·.1)) :
    (ty.ofIntEntries es').map (·.1) = (ty.ofIntEntries es).map (·.1) := by
  unfold KeyTy.ofIntEntries
  cases ty.kind with
  | u32 f g =>
    have := congrArg (List.map g) h
    simpa [List.map_map, Function.comp_def] using this
  | string f g => rfl
  | other => rfl

omit [Target] in
theorem ofBEntries_keys (ty : KeyTy K) {es es' : List (Bytes × V)}
    (h : es'.map (·.1) = es.map (·.1)) :
    (ty.ofBEntries es').map (·.1) = (ty.ofBEntries es).map (·.1) := by
  unfold KeyTy.ofBEntries
  cases ty.kind with
  | string f g =>
    have := congrArg (List.map g) h
    simpa [List.map_map, Function.comp_def] using this
  | u32 f g => rfl
  | other => rfl

theorem FrozenMap.write_unmoved (env : Env) (ty : KeyTy K) (m : FrozenMap K V) (i : Nat) (v : V) :
    Unmoved (frozenApi env ty) (FrozenMap.getKeyValueCounted env ty) m (m.write i v) := by
  refine .of (es := fun (m : FrozenMap K V) => m.entries ty) (fun _ _ => rfl) (fun _ _ => rfl) (fun _ _ => rfl)
    (fun _ _ => rfl) (fun _ => rfl) ?_ ?_ ?_ ?_ ?_
  · intro k
    cases m with
    | scanning m => exact (m.write_unmoved ty.probe i v).search k
    | commonSmall m | commonLarge m => exact (m.write_unmoved ty.probe i v).search k
    | u32Small m | u32Large m => exact trace_ofInt ty ((m.write_unmoved i v).search (ty.toInt k))
    | u32Range m => exact trace_ofInt ty ((m.write_unmoved env.oc IntTy.u32 i v).search (ty.toInt k))
    | leftSmall m | leftLarge m => exact trace_ofB ty ((m.write_unmoved i v).search (ty.toB k))
    | rightSmall m | rightLarge m =>
      exact trace_ofB ty ((m.write_unmoved env.oc i v).search (ty.toB k))
    | lengthSmall m =>
      exact trace_ofB ty ((m.write_unmoved id beq List.length i v).search (ty.toB k))
  · intro k
    cases m with
    | scanning m => exact (m.write_unmoved ty.probe i v).get k
    | commonSmall m | commonLarge m => exact (m.write_unmoved ty.probe i v).get k
    | u32Small m | u32Large m => exact (m.write_unmoved i v).get (ty.toInt k)
    | u32Range m => exact (m.write_unmoved env.oc IntTy.u32 i v).get (ty.toInt k)
    | leftSmall m | leftLarge m => exact (m.write_unmoved i v).get (ty.toB k)
    | rightSmall m | rightLarge m => exact (m.write_unmoved env.oc i v).get (ty.toB k)
    | lengthSmall m => exact (m.write_unmoved id beq List.length i v).get (ty.toB k)
  · intro k
    cases m with
    | scanning m => exact (m.write_unmoved ty.probe i v).getMut k
    | commonSmall m | commonLarge m => exact (m.write_unmoved ty.probe i v).getMut k
    | u32Small m | u32Large m => exact (m.write_unmoved i v).getMut (ty.toInt k)
    | u32Range m => exact (m.write_unmoved env.oc IntTy.u32 i v).getMut (ty.toInt k)
    | leftSmall m | leftLarge m => exact (m.write_unmoved i v).getMut (ty.toB k)
    | rightSmall m | rightLarge m => exact (m.write_unmoved env.oc i v).getMut (ty.toB k)
    | lengthSmall m => exact (m.write_unmoved id beq List.length i v).getMut (ty.toB k)
  · cases m with
    | scanning m => exact setVal_keys _ i v
    | commonSmall m | commonLarge m => exact setVal_keys _ i v
    | u32Small m | u32Large m | u32Range m => exact ofIntEntries_keys ty (setVal_keys _ i v)
    | leftSmall m | leftLarge m | rightSmall m | rightLarge m | lengthSmall m =>
      exact ofBEntries_keys ty (setVal_keys _ i v)
  · cases m <;> exact setVal_length _ i v

end FC
