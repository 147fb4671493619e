import Verif.Lemmas.HashCode
import Verif.Lemmas.Int
import Verif.Lemmas.Slice

/-
Every specialized map's lookup reduced to a linear scan of its entries; constructors.
-/

set_option autoImplicit false

namespace FC
variable [Target]
variable {K V Q : Type}

/-! ### Writes and scans -/

omit [Target] in
theorem scan_setVal {eq : Q → Q → Bool} {borrow : K → Q} {q : Q} {i j : Nat} {l : List (K × V)}
    {v : V} :
    scan eq borrow q i (setVal l j v)
      = (scan eq borrow q i l).map
          (fun r => (r.1, if r.2.idx = i + j then ⟨r.2.idx, v⟩ else r.2)) := by
  induction l generalizing i j with
  | nil => simp [setVal, scan]
  | cons e es ih =>
    cases j with
    | zero =>
      simp only [setVal, List.modify_zero_cons, scan]
      split
      · simp
      · cases hs : scan eq borrow q (i + 1) es with
        | none => rfl
        | some r =>
          have := (scan_some (k := r.1) (r := r.2) hs).1
          simp only [Option.map_some]
          rw [if_neg (by omega)]
    | succ j =>
      have ih' := ih (i := i + 1) (j := j)
      simp only [setVal] at ih'
      simp only [setVal, List.modify_succ_cons, scan]
      split
      · simp
      · rw [ih']
        have : i + 1 + j = i + (j + 1) := by omega
        rw [this]

omit [Target] in
theorem setVal_keys (es : List (K × V)) (i : Nat) (v : V) :
    (setVal es i v).map (·.1) = es.map (·.1) := by
  apply List.ext_getElem?
  intro j
  simp only [List.getElem?_map, setVal_getElem?, Option.map_map]
  congr 1
  funext e
  simp only [Function.comp]
  split <;> rfl

omit [Target] in
theorem setVal_map {K' : Type} (f : K → K') (es : List (K × V)) (i : Nat) (v : V) :
    setVal (es.map (fun e => (f e.1, e.2))) i v
      = (setVal es i v).map (fun e => (f e.1, e.2)) := by
  apply List.ext_getElem?
  intro j
  simp only [List.getElem?_map, setVal_getElem?, Option.map_map]
  congr 1
  funext e
  simp only [Function.comp]
  split <;> rfl

/-! ### `get_many_mut` -/

omit [Target] in
theorem hasDup_eq_false {eq : Q → Q → Bool} (keys : List Q) :
    ∀ (seen : List Q), hasDup eq seen keys = false ↔
      (∀ s ∈ seen, ∀ k ∈ keys, eq s k = false) ∧ keys.Pairwise (fun a b => eq a b = false) := by
  induction keys with
  | nil => intro seen; simp [hasDup]
  | cons k ks ih =>
    intro seen
    simp only [hasDup, Bool.or_eq_false_iff, ih, List.pairwise_cons, List.any_eq_false,
      List.mem_append, List.mem_cons, List.not_mem_nil, or_false]
    constructor
    · rintro ⟨h1, h2, h3⟩
      refine ⟨?_, fun a ha => h2 k (Or.inr rfl) a ha, h3⟩
      rintro s hs a (rfl | ha)
      · simpa using h1 s hs
      · exact h2 s (Or.inl hs) a ha
    · rintro ⟨h1, h2, h3⟩
      refine ⟨fun s hs => by simpa using h1 s hs k (Or.inl rfl), ?_, h3⟩
      rintro s (hs | rfl) a ha
      · exact h1 s hs a (Or.inr ha)
      · exact h2 a ha

omit [Target] in
/-- With a lookup that always returns, the loop of `get_many_mut` collects the results. -/
theorem getAll_eq {get : Q → Res (Option (Ref V))} {f : Q → Option (Ref V)} (keys : List Q)
    (h : ∀ k ∈ keys, get k = .ok (f k)) :
    getAll get keys = .ok (keys.mapM f) := by
  induction keys with
  | nil => rfl
  | cons k ks ih =>
    have ih' := ih (fun a ha => h a (List.mem_cons_of_mem _ ha))
    unfold getAll
    rw [h k List.mem_cons_self, ih']
    cases hf : f k with
    | none => simp [List.mapM_cons, hf]
    | some r => cases hm : List.mapM f ks <;> simp [List.mapM_cons, hf, hm]

omit [Target] in
theorem mapM_some_iff {f : Q → Option (Ref V)} (keys : List Q) (rs : List (Ref V)) :
    keys.mapM f = some rs ↔ keys.map f = rs.map some := by
  induction keys generalizing rs with
  | nil => cases rs <;> simp
  | cons k ks ih =>
    simp only [List.mapM_cons, List.map_cons]
    cases hf : f k with
    | none => cases rs <;> simp
    | some r =>
      cases rs with
      | nil => cases hm : List.mapM f ks <;> simp
      | cons r' rs =>
        simp only [Option.bind_eq_bind, Option.bind_some, List.map_cons, List.cons.injEq,
          Option.some.injEq]
        constructor
        · intro h
          cases hm : List.mapM f ks with
          | none => simp [hm] at h
          | some rs' =>
            simp [hm] at h
            obtain ⟨rfl, rfl⟩ := h
            exact ⟨rfl, (ih rs').1 hm⟩
        · rintro ⟨rfl, h⟩
          rw [(ih rs).2 h]
          rfl

omit [Target] in
theorem mapM_none_iff {f : Q → Option (Ref V)} (keys : List Q) :
    keys.mapM f = none ↔ ∃ k ∈ keys, f k = none := by
  induction keys with
  | nil => simp
  | cons k ks ih =>
    simp only [List.mapM_cons, List.mem_cons, exists_eq_or_imp]
    cases hf : f k with
    | none => simp
    | some r =>
      rw [← ih]
      cases hm : List.mapM f ks <;> simp

/-! ### Capacity -/

/-- Too many entries for the index type: the table constructor panics. -/
theorem HashTable.new_panics (env : Env) {S : IdxTy} {payload : List (K × V)} {n : Nat}
    {hash : K → Res Nat} (hne : payload ≠ [])
    (h : S.maxUsize = none ∨ ∃ cap, S.maxUsize = some cap ∧ cap < payload.length) :
    HashTable.new env S payload n hash = .panic := by
  unfold HashTable.new
  have : payload.isEmpty = false := by cases payload <;> simp_all
  simp only [this, Bool.false_eq_true, if_false]
  rcases h with h | ⟨cap, h, hc⟩
  · simp [h, Res.unwrap]
  · simp [h, Res.unwrap, hc]

theorem IdxTy.maxUsize_some {S : IdxTy} {cap : Nat} (h : S.maxUsize = some cap) : S.max = cap := by
  unfold IdxTy.maxUsize at h
  split at h
  · simpa using h
  · simp at h

theorem IdxTy.maxUsize_of_capacity {S : IdxTy} {cap : Nat} (h : S.capacity = some cap) :
    ∃ mx, S.maxUsize = some mx ∧ cap ≤ mx :=
  ⟨_, (IdxTy.capacity_some h).1, (IdxTy.capacity_some h).2.1⟩

@[simp] theorem IdxTy.capacity_u8 : IdxTy.u8.capacity = some 255 :=
  if_pos (Nat.lt_of_lt_of_le (by decide) usz_ge)
@[simp] theorem IdxTy.capacity_usize : IdxTy.usize.capacity = some (2 ^ 31 - 1) := by
  have h := usz_ge
  have hm : IdxTy.usize.max = usz - 1 := rfl
  unfold IdxTy.capacity
  rw [if_pos (by omega), hm, Nat.min_eq_right (by omega)]

@[simp] theorem IdxTy.maxUsize_u8 : IdxTy.u8.maxUsize = some 255 :=
  if_pos (Nat.lt_of_lt_of_le (by decide) usz_ge)
@[simp] theorem IdxTy.maxUsize_usize : IdxTy.usize.maxUsize = some (usz - 1) :=
  if_pos (Nat.sub_lt (Nat.lt_of_lt_of_le (by decide) usz_ge) (by decide))

/-! ### CommonMap -/

omit [Target] in
theorem CommonMap.getKV_lookup (P : Probe K Q) (m : CommonMap K V) (q : Q) :
    m.getKeyValue P q = tableLookup P.eq P.borrow m.table (m.bh (P.enc q)) q := rfl

omit [Target] in
theorem CommonMap.get_eq_kv (P : Probe K Q) (m : CommonMap K V) (q : Q) :
    m.get P q = (m.getKeyValue P q).map (fun o => o.map (·.2)) := by
  unfold CommonMap.get CommonMap.getKeyValue
  cases m.getHashInfo P q with
  | ok r => cases h : sliceUnchecked m.table.entries r.1 r.2 <;> simp [h]
  | panic => rfl
  | ub => rfl

omit [Target] in
theorem CommonMap.getMut_eq (P : Probe K Q) (m : CommonMap K V) (q : Q) :
    m.getMut P q = m.get P q := rfl

theorem CommonMap.fromVec_ok (env : Env) {S : IdxTy} {cap : Nat} (hS : S.capacity = some cap)
    (enc : K → List HCall) {payload : List (K × V)} (hcap : payload.length ≤ cap) (bh : Hasher) :
    ∃ m, CommonMap.fromVecWithHasher env S enc payload bh = .ok m ∧
      TableOK (fun k => bh (enc k)) m.table ∧ m.bh = bh ∧ m.table.entries.Perm payload ∧
      (payload ≠ [] → ∃ r, analyzeHashCodes (payload.map (fun e => bh (enc e.1))) = .ok r ∧
        m.table.numSlots = r.numHashSlots) := by
  obtain ⟨r, hr, hpos⟩ := analyze_total (payload.map (fun e => bh (enc e.1)))
  obtain ⟨T, hT, hOK, hperm, hn⟩ := HashTable.new_ok env hS hcap (n := r.numHashSlots)
    (fun h => hpos (by simpa using h)) (hash := fun k => .ok (bh (enc k)))
    (h := fun k => bh (enc k)) (fun _ _ => rfl)
  refine ⟨⟨T, bh⟩, ?_, hOK, rfl, hperm, fun h => ⟨r, hr, hn h⟩⟩
  unfold CommonMap.fromVecWithHasher
  simp [hr, hT]

theorem CommonMap.fromVec_panics (env : Env) {S : IdxTy} (enc : K → List HCall)
    {payload : List (K × V)} (bh : Hasher) (hne : payload ≠ [])
    (h : S.maxUsize = none ∨ ∃ cap, S.maxUsize = some cap ∧ cap < payload.length) :
    CommonMap.fromVecWithHasher env S enc payload bh = .panic := by
  obtain ⟨r, hr, _⟩ := analyze_total (payload.map (fun e => bh (enc e.1)))
  unfold CommonMap.fromVecWithHasher
  simp [hr, HashTable.new_panics env hne h]

/-! ### IntegerMap -/

omit [Target] in
theorem IntegerMap.getKV_lookup (m : IntegerMap V) (q : Int) :
    m.getKeyValue q = tableLookup IntegerMap.ieq id m.table (asU64 q) q := rfl

omit [Target] in
theorem IntegerMap.get_eq_kv (m : IntegerMap V) (q : Int) :
    m.get q = (m.getKeyValue q).map (fun o => o.map (·.2)) := by
  unfold IntegerMap.get IntegerMap.getKeyValue
  cases m.getHashInfo q with
  | ok r => cases h : sliceUnchecked m.table.entries r.1 r.2 <;> simp [h]
  | panic => rfl
  | ub => rfl

omit [Target] in
theorem IntegerMap.getMut_eq (m : IntegerMap V) (q : Int) : m.getMut q = m.get q := rfl

theorem IntegerMap.fromVec_ok (env : Env) {S : IdxTy} {cap : Nat} (hS : S.capacity = some cap)
    {payload : List (Int × V)} (hcap : payload.length ≤ cap) :
    ∃ m, IntegerMap.fromVec env S payload = .ok m ∧
      TableOK asU64 m.table ∧ m.table.entries.Perm payload ∧
      (payload ≠ [] → ∃ r, analyzeHashCodes (payload.map (fun e => asU64 e.1)) = .ok r ∧
        m.table.numSlots = r.numHashSlots) := by
  obtain ⟨r, hr, hpos⟩ := analyze_total (payload.map (fun e => asU64 e.1))
  obtain ⟨T, hT, hOK, hperm, hn⟩ := HashTable.new_ok env hS hcap (n := r.numHashSlots)
    (fun h => hpos (by simpa using h)) (hash := fun k => .ok (asU64 k))
    (h := asU64) (fun _ _ => rfl)
  refine ⟨⟨T⟩, ?_, hOK, hperm, fun h => ⟨r, hr, hn h⟩⟩
  unfold IntegerMap.fromVec
  simp [hr, hT]

theorem IntegerMap.fromVec_panics (env : Env) {S : IdxTy} {payload : List (Int × V)}
    (hne : payload ≠ [])
    (h : S.maxUsize = none ∨ ∃ cap, S.maxUsize = some cap ∧ cap < payload.length) :
    IntegerMap.fromVec env S payload = .panic := by
  obtain ⟨r, hr, _⟩ := analyze_total (payload.map (fun e => asU64 e.1))
  unfold IntegerMap.fromVec
  simp [hr, HashTable.new_panics env hne h]

omit [Target] in
theorem IntegerMap.getKV_eq {m : IntegerMap V} (hm : TableOK asU64 m.table) (q : Int) :
    m.getKeyValue q = .ok (scan IntegerMap.ieq id q 0 m.table.entries) := by
  rw [IntegerMap.getKV_lookup]
  apply tableLookup_eq hm
  intro e _ he
  simp [IntegerMap.ieq] at he
  rw [he]

/-! ### LengthMap -/

omit [Target] in
theorem LengthMap.getKV_lookup (borrow : K → Q) (eq : Q → Q → Bool) (lenQ : Q → Nat)
    (m : LengthMap K V) (q : Q) :
    m.getKeyValue borrow eq lenQ q = tableLookup eq borrow m.table (lenQ q) q := rfl

omit [Target] in
theorem LengthMap.get_eq_kv (borrow : K → Q) (eq : Q → Q → Bool) (lenQ : Q → Nat)
    (m : LengthMap K V) (q : Q) :
    m.get borrow eq lenQ q = (m.getKeyValue borrow eq lenQ q).map (fun o => o.map (·.2)) := by
  unfold LengthMap.get LengthMap.getKeyValue
  cases m.getHashInfo lenQ q with
  | ok r => cases h : sliceUnchecked m.table.entries r.1 r.2 <;> simp [h]
  | panic => rfl
  | ub => rfl

omit [Target] in
theorem LengthMap.getMut_eq (borrow : K → Q) (eq : Q → Q → Bool) (lenQ : Q → Nat)
    (m : LengthMap K V) (q : Q) : m.getMut borrow eq lenQ q = m.get borrow eq lenQ q := rfl

theorem LengthMap.fromVec_ok (env : Env) {S : IdxTy} {cap : Nat} (hS : S.capacity = some cap)
    (lenK : K → Nat) {payload : List (K × V)} (hcap : payload.length ≤ cap) :
    ∃ m, LengthMap.fromVec env S lenK payload = .ok m ∧
      TableOK lenK m.table ∧ m.table.entries.Perm payload ∧
      (payload ≠ [] → ∃ r, analyzeHashCodes (payload.map (fun e => lenK e.1)) = .ok r ∧
        m.table.numSlots = r.numHashSlots) := by
  obtain ⟨r, hr, hpos⟩ := analyze_total (payload.map (fun e => lenK e.1))
  obtain ⟨T, hT, hOK, hperm, hn⟩ := HashTable.new_ok env hS hcap (n := r.numHashSlots)
    (fun h => hpos (by simpa using h)) (hash := fun k => .ok (lenK k))
    (h := lenK) (fun _ _ => rfl)
  refine ⟨⟨T⟩, ?_, hOK, hperm, fun h => ⟨r, hr, hn h⟩⟩
  unfold LengthMap.fromVec
  simp [hr, hT]

theorem LengthMap.fromVec_panics (env : Env) {S : IdxTy} (lenK : K → Nat)
    {payload : List (K × V)} (hne : payload ≠ [])
    (h : S.maxUsize = none ∨ ∃ cap, S.maxUsize = some cap ∧ cap < payload.length) :
    LengthMap.fromVec env S lenK payload = .panic := by
  obtain ⟨r, hr, _⟩ := analyze_total (payload.map (fun e => lenK e.1))
  unfold LengthMap.fromVec
  simp [hr, HashTable.new_panics env hne h]

/-! ### LeftSliceMap -/

/-- The bytes of `s` in the range `a..b`. -/
def sub (s : Bytes) (a b : Nat) : Bytes := (s.drop a).take (b - a)

omit [Target] in
theorem sliceHash_ok {bh : Hasher} {s : Bytes} {a b : Nat} (hab : a ≤ b) (hb : b ≤ s.length) :
    sliceHash bh s a b = .ok (bh [.write (sub s a b)]) := by
  unfold sliceHash sliceUnchecked sub
  rw [if_pos ⟨hab, hb⟩]
  rfl

omit [Target] in
theorem sliceHash_ub {bh : Hasher} {s : Bytes} {a b : Nat} (h : ¬ (a ≤ b ∧ b ≤ s.length)) :
    sliceHash bh s a b = .ub := by
  unfold sliceHash sliceUnchecked
  rw [if_neg h]
  rfl

omit [Target] in
theorem LeftSliceMap.get_eq_kv (m : LeftSliceMap V) (q : Bytes) :
    m.get q = (m.getKeyValue q).map (fun o => o.map (·.2)) := by
  unfold LeftSliceMap.get LeftSliceMap.getKeyValue
  cases m.getHashInfo q with
  | ok r => cases h : sliceUnchecked m.table.entries r.1 r.2 <;> simp [h]
  | panic => rfl
  | ub => rfl

omit [Target] in
theorem LeftSliceMap.getMut_eq (m : LeftSliceMap V) (q : Bytes) : m.getMut q = m.get q := rfl

/-- A well-formed left-slice map. -/
structure LeftOK (m : LeftSliceMap V) : Prop where
  range : m.start ≤ m.stop
  long : ∀ e ∈ m.table.entries, m.stop ≤ e.1.length
  table : TableOK (fun k => m.bh [.write (sub k m.start m.stop)]) m.table

theorem LeftSliceMap.fromVec_ok (env : Env) {S : IdxTy} {cap : Nat} (hS : S.capacity = some cap)
    {payload : List (Bytes × V)} (hcap : payload.length ≤ cap) {a b : Nat} (hab : a ≤ b)
    (hlong : ∀ e ∈ payload, b ≤ e.1.length) (bh : Hasher) :
    ∃ m, LeftSliceMap.fromVecWithHasher env S payload a b bh = .ok m ∧ LeftOK m ∧
      m.bh = bh ∧ m.start = a ∧ m.stop = b ∧ m.table.entries.Perm payload ∧
      (payload ≠ [] → ∃ r, analyzeHashCodes (payload.map (fun e => bh [.write (sub e.1 a b)])) = .ok r ∧
        m.table.numSlots = r.numHashSlots) := by
  have hcodes : Res.mapList (fun e : Bytes × V => LeftSliceMap.analysisCode bh a b e.1) payload
      = .ok (payload.map (fun e => bh [.write (sub e.1 a b)])) := by
    apply Res.mapList_ok
    intro e he
    unfold LeftSliceMap.analysisCode
    rw [if_pos (hlong e he), sliceHash_ok hab (hlong e he)]
  obtain ⟨r, hr, hpos⟩ := analyze_total (payload.map (fun e => bh [.write (sub e.1 a b)]))
  obtain ⟨T, hT, hOK, hperm, hn⟩ := HashTable.new_ok env hS hcap (n := r.numHashSlots)
    (fun h => hpos (by simpa using h)) (hash := fun k => sliceHash bh k a b)
    (h := fun k => bh [.write (sub k a b)]) (fun e he => sliceHash_ok hab (hlong e he))
  refine ⟨⟨T, bh, a, b⟩, ?_, ⟨hab, ?_, hOK⟩, rfl, rfl, rfl, hperm, fun h => ⟨r, hr, hn h⟩⟩
  · unfold LeftSliceMap.fromVecWithHasher
    simp [hcodes, hr, hT]
  · intro e he
    exact hlong e (hperm.mem_iff.1 he)

omit [Target] in
theorem LeftSliceMap.getKV_eq {m : LeftSliceMap V} (hm : LeftOK m) (q : Bytes) :
    m.getKeyValue q = .ok (scan beq id q 0 m.table.entries) := by
  by_cases hq : m.stop ≤ q.length
  · have : m.getKeyValue q
        = tableLookup beq id m.table (m.bh [.write (sub q m.start m.stop)]) q := by
      unfold LeftSliceMap.getKeyValue LeftSliceMap.getHashInfo tableLookup
      rw [if_pos hq, sliceHash_ok hm.range hq]
      rfl
    rw [this]
    apply tableLookup_eq hm.table
    intro e _ he
    simp [beq] at he
    rw [he]
  · have : m.getKeyValue q = tableLookup beq id m.table 0 q := by
      unfold LeftSliceMap.getKeyValue LeftSliceMap.getHashInfo tableLookup
      rw [if_neg hq]
      rfl
    rw [this]
    apply tableLookup_eq hm.table
    intro e hmem he
    simp [beq] at he
    have hl := hm.long e hmem
    subst he
    exact absurd hl hq

/-- A key too short for the range makes construction run into undefined behaviour (when it gets
past the capacity check). -/
theorem LeftSliceMap.fromVec_ub (env : Env) {S : IdxTy} {cap : Nat} (hS : S.maxUsize = some cap)
    {payload : List (Bytes × V)} (hcap : payload.length ≤ cap) {a b : Nat}
    (hbad : ∃ e ∈ payload, ¬ (a ≤ b ∧ b ≤ e.1.length)) (bh : Hasher) :
    LeftSliceMap.fromVecWithHasher env S payload a b bh = .ub := by
  have hml : ∀ {α β : Type} (f : α → Res β) (l : List α), (∀ x ∈ l, f x ≠ .panic) →
      (∃ x ∈ l, f x = .ub) → Res.mapList f l = .ub := by
    intro α β f l hp hx
    induction l with
    | nil => simp at hx
    | cons y ys ih =>
      unfold Res.mapList
      cases hy : f y with
      | panic => exact absurd hy (hp y List.mem_cons_self)
      | ub => rfl
      | ok z =>
        simp only
        have : ∃ x ∈ ys, f x = .ub := by
          obtain ⟨x, hx1, hx2⟩ := hx
          rcases List.mem_cons.1 hx1 with rfl | h
          · rw [hy] at hx2; simp at hx2
          · exact ⟨x, h, hx2⟩
        rw [ih (fun x hx => hp x (List.mem_cons_of_mem _ hx)) this]
  have hsh : ∀ (k : Bytes), sliceHash bh k a b ≠ .panic := by
    intro k
    by_cases h : a ≤ b ∧ b ≤ k.length
    · rw [sliceHash_ok h.1 h.2]; simp
    · rw [sliceHash_ub h]; simp
  obtain ⟨e, he, hebad⟩ := hbad
  have hne : payload ≠ [] := List.ne_nil_of_mem he
  unfold LeftSliceMap.fromVecWithHasher
  have hcodes : Res.mapList (fun e : Bytes × V => LeftSliceMap.analysisCode bh a b e.1) payload
      = .ub ∨ ∃ codes, Res.mapList (fun e : Bytes × V => LeftSliceMap.analysisCode bh a b e.1) payload
        = .ok codes ∧ codes.length = payload.length := by
    by_cases hu : ∃ x ∈ payload, LeftSliceMap.analysisCode bh a b x.1 = .ub
    · left
      apply hml _ _ _ hu
      intro x _
      unfold LeftSliceMap.analysisCode
      split
      · exact hsh _
      · simp
    · right
      have : ∀ x ∈ payload, LeftSliceMap.analysisCode bh a b x.1
          = .ok ((match LeftSliceMap.analysisCode bh a b x.1 with | .ok c => c | _ => 0)) := by
        intro x hx
        cases hc : LeftSliceMap.analysisCode bh a b x.1 with
        | ok c => rfl
        | ub => exact absurd ⟨x, hx, hc⟩ hu
        | panic =>
          unfold LeftSliceMap.analysisCode at hc
          split at hc
          · exact absurd hc (hsh _)
          · simp at hc
      exact ⟨_, Res.mapList_ok this, by simp⟩
  rcases hcodes with h | ⟨codes, h, hlen⟩
  · rw [h]; rfl
  · rw [h]
    obtain ⟨r, hr, hpos⟩ := analyze_total codes
    have hr0 : 0 < r.numHashSlots := hpos (by
      intro hc; rw [hc] at hlen; exact hne (List.length_eq_zero_iff.1 hlen.symm))
    simp only [Res.ok_bind, hr]
    have : HashTable.new env S payload r.numHashSlots (fun k => sliceHash bh k a b) = .ub := by
      unfold HashTable.new
      have hemp : payload.isEmpty = false := by cases payload <;> simp_all
      have hprep : Res.mapList (prepItem r.numHashSlots (fun k => sliceHash bh k a b)) payload
          = (.ub : Res (List (PrepItem Bytes V))) := by
        apply hml
        · intro x _
          unfold prepItem umod
          cases hx : sliceHash bh x.1 a b with
          | ok c => simp [hx, show r.numHashSlots ≠ 0 by omega]
          | panic => exact absurd hx (hsh _)
          | ub => simp [hx]
        · refine ⟨e, he, ?_⟩
          unfold prepItem
          simp only [sliceHash_ub hebad]
      simp [hemp, hS, Res.unwrap, hprep, show ¬ (cap < payload.length) by omega]
    rw [this]
    rfl

/-! ### RightSliceMap -/

/-- The length of the range that construction reads from a right-slice key is negative: any
non-empty payload and non-empty range is undefined behaviour (or an overflow panic). -/
theorem rightHash_bad {oc : Bool} {bh : Hasher} {k : Bytes} {a b : Nat} (hab : a < b)
    (hk : b ≤ k.length) : RightSliceMap.rightHash oc bh k a b = .ub := by
  unfold RightSliceMap.rightHash usub
  rw [if_pos (by omega), if_pos hk]
  simp only [Res.ok_bind]
  exact sliceHash_ub (by omega)

theorem RightSliceMap.get_eq_kv (oc : Bool) (m : RightSliceMap V) (q : Bytes) :
    m.get oc q = (m.getKeyValue oc q).map (fun o => o.map (·.2)) := by
  unfold RightSliceMap.get RightSliceMap.getKeyValue
  cases m.getHashInfo oc q with
  | ok r => cases h : sliceUnchecked m.table.entries r.1 r.2 <;> simp [h]
  | panic => rfl
  | ub => rfl

theorem RightSliceMap.getMut_eq (oc : Bool) (m : RightSliceMap V) (q : Bytes) :
    m.getMut oc q = m.get oc q := rfl

theorem usub_cases (oc : Bool) (a b : Nat) :
    (b ≤ a ∧ usub oc a b = .ok (a - b)) ∨
      (a < b ∧ (usub oc a b = .panic ∨ ∃ c, usub oc a b = .ok c ∧ c + b = a + usz ∨
        usz + a < b)) := by
  unfold usub
  generalize usz = W
  by_cases h : b ≤ a
  · exact Or.inl ⟨h, if_pos h⟩
  · right
    refine ⟨by omega, ?_⟩
    rw [if_neg h]
    cases oc with
    | true => exact Or.inl rfl
    | false =>
      right
      refine ⟨a + W - b, ?_⟩
      by_cases h' : W + a < b
      · exact Or.inr h'
      · exact Or.inl ⟨rfl, by omega⟩

theorem rightHash_never_ok {oc : Bool} {bh : Hasher} {k : Bytes} {a b : Nat} (hab : a < b)
    (hb : b < usz) : ∀ c, RightSliceMap.rightHash oc bh k a b ≠ .ok c := by
  intro c h
  unfold RightSliceMap.rightHash at h
  have h1 := usub_cases oc k.length a
  have h2 := usub_cases oc k.length b
  rw [Res.bind_eq_ok] at h
  obtain ⟨lo, hlo, h⟩ := h
  rw [Res.bind_eq_ok] at h
  obtain ⟨hi, hhi, h⟩ := h
  rw [hlo] at h1
  rw [hhi] at h2
  simp only [Res.ok.injEq, reduceCtorEq, false_or] at h1 h2
  have hbad : ¬ (lo ≤ hi ∧ hi ≤ k.length) := by
    generalize usz = W at *
    rcases h1 with ⟨a1, a2⟩ | ⟨a1, x, ⟨a2, a3⟩ | a2⟩ <;>
      rcases h2 with ⟨b1, b2⟩ | ⟨b1, y, ⟨b2, b3⟩ | b2⟩ <;> omega
  rw [sliceHash_ub hbad] at h
  simp at h

/-- A right-slice map over a non-empty range never comes into existence. -/
theorem RightSliceMap.fromVec_never_ok (env : Env) {S : IdxTy} {payload : List (Bytes × V)}
    {a b : Nat} (hab : a < b) (hb : b < usz) (hne : payload ≠ []) (bh : Hasher) :
    ∀ m, RightSliceMap.fromVecWithHasher env S payload a b bh ≠ .ok m := by
  intro m h
  unfold RightSliceMap.fromVecWithHasher at h
  rw [Res.bind_eq_ok] at h
  obtain ⟨codes, _, h⟩ := h
  rw [Res.bind_eq_ok] at h
  obtain ⟨r, _, h⟩ := h
  rw [Res.bind_eq_ok] at h
  obtain ⟨T, h, _⟩ := h
  unfold HashTable.new at h
  have hemp : payload.isEmpty = false := by cases payload <;> simp_all
  simp only [hemp, Bool.false_eq_true, if_false] at h
  rw [Res.bind_eq_ok] at h
  obtain ⟨cap, _, h⟩ := h
  split at h
  · simp at h
  · rw [Res.bind_eq_ok] at h
    obtain ⟨prep, hp, _⟩ := h
    obtain ⟨e, he⟩ := List.exists_mem_of_ne_nil _ hne
    obtain ⟨it, hit⟩ := Res.mapList_eq_ok hp e he
    unfold prepItem at hit
    cases hc : RightSliceMap.rightHash env.oc bh e.1 a b with
    | ok c => exact rightHash_never_ok hab hb c hc
    | panic => simp [hc] at hit
    | ub => simp [hc] at hit

/-- With keys long enough the outcome of constructing a right-slice map is undefined behaviour. -/
theorem RightSliceMap.fromVec_ub (env : Env) {S : IdxTy} {payload : List (Bytes × V)} {a b : Nat}
    (hab : a < b) (hne : payload ≠ []) (hk : ∀ e ∈ payload, b ≤ e.1.length) (bh : Hasher) :
    RightSliceMap.fromVecWithHasher env S payload a b bh = .ub := by
  unfold RightSliceMap.fromVecWithHasher
  cases payload with
  | nil => exact absurd rfl hne
  | cons e es =>
    have he := hk e List.mem_cons_self
    have : RightSliceMap.analysisCode env.oc bh a b e.1 = .ub := by
      unfold RightSliceMap.analysisCode
      rw [if_pos he, rightHash_bad hab he]
    simp only [Res.mapList, this, Res.ub_bind]

/-- A well-formed right-slice map: the range is given in descending order. -/
structure RightOK (m : RightSliceMap V) : Prop where
  range : m.stop ≤ m.start
  long : ∀ e ∈ m.table.entries, m.start ≤ e.1.length
  table : TableOK (fun k => m.bh [.write (sub k (k.length - m.start) (k.length - m.stop))]) m.table

theorem rightHash_ok {oc : Bool} {bh : Hasher} {k : Bytes} {a b : Nat} (hab : b ≤ a)
    (hk : a ≤ k.length) :
    RightSliceMap.rightHash oc bh k a b = .ok (bh [.write (sub k (k.length - a) (k.length - b))]) := by
  unfold RightSliceMap.rightHash usub
  rw [if_pos hk, if_pos (by omega)]
  simp only [Res.ok_bind]
  exact sliceHash_ok (by omega) (by omega)

theorem RightSliceMap.fromVec_ok (env : Env) {S : IdxTy} {cap : Nat} (hS : S.capacity = some cap)
    {payload : List (Bytes × V)} (hcap : payload.length ≤ cap) {a b : Nat} (hab : b ≤ a)
    (hlong : ∀ e ∈ payload, a ≤ e.1.length) (bh : Hasher) :
    ∃ m, RightSliceMap.fromVecWithHasher env S payload a b bh = .ok m ∧ RightOK m ∧
      m.bh = bh ∧ m.start = a ∧ m.stop = b ∧ m.table.entries.Perm payload := by
  have hcodes : Res.mapList (fun e : Bytes × V => RightSliceMap.analysisCode env.oc bh a b e.1)
      payload = .ok (payload.map
        (fun e => bh [.write (sub e.1 (e.1.length - a) (e.1.length - b))])) := by
    apply Res.mapList_ok
    intro e he
    have := hlong e he
    unfold RightSliceMap.analysisCode
    rw [if_pos (by omega), rightHash_ok hab this]
  obtain ⟨r, hr, hpos⟩ := analyze_total
    (payload.map (fun e => bh [.write (sub e.1 (e.1.length - a) (e.1.length - b))]))
  obtain ⟨T, hT, hOK, hperm, _⟩ := HashTable.new_ok env hS hcap (n := r.numHashSlots)
    (fun h => hpos (by simpa using h)) (hash := fun k => RightSliceMap.rightHash env.oc bh k a b)
    (h := fun k => bh [.write (sub k (k.length - a) (k.length - b))])
    (fun e he => rightHash_ok hab (hlong e he))
  refine ⟨⟨T, bh, a, b⟩, ?_, ⟨hab, ?_, hOK⟩, rfl, rfl, rfl, hperm⟩
  · unfold RightSliceMap.fromVecWithHasher
    simp [hcodes, hr, hT]
  · intro e he
    exact hlong e (hperm.mem_iff.1 he)

theorem RightSliceMap.getKV_eq {oc : Bool} {m : RightSliceMap V} (hm : RightOK m) (q : Bytes) :
    m.getKeyValue oc q = .ok (scan beq id q 0 m.table.entries) := by
  by_cases hq : m.start ≤ q.length
  · have : m.getKeyValue oc q = tableLookup beq id m.table
        (m.bh [.write (sub q (q.length - m.start) (q.length - m.stop))]) q := by
      unfold RightSliceMap.getKeyValue RightSliceMap.getHashInfo tableLookup
      rw [if_pos hq, rightHash_ok hm.range hq]
      rfl
    rw [this]
    apply tableLookup_eq hm.table
    intro e _ he
    simp [beq] at he
    rw [he]
  · have : m.getKeyValue oc q = tableLookup beq id m.table 0 q := by
      unfold RightSliceMap.getKeyValue RightSliceMap.getHashInfo tableLookup
      rw [if_neg hq]
      rfl
    rw [this]
    apply tableLookup_eq hm.table
    intro e hmem he
    simp [beq] at he
    have hl := hm.long e hmem
    subst he
    exact absurd hl hq

/-! ### IntegerRangeMap construction -/

/-- Construction of a range map succeeds whenever the span equals the count minus one and fits. -/
theorem rangeFromVec_total {t : IntTy} {oc : Bool} {payload : List (Int × V)} {mn mx : Int}
    (hmn : IsMin (payload.map (·.1)) mn) (hmx : IsMax (payload.map (·.1)) mx)
    (hspan : mx - mn = (payload.length : Int) - 1) (hfit : mx - mn ≤ t.hi)
    (hus : mx - mn < usz) :
    IntegerRangeMap.fromVec oc t payload = .ok ⟨mn, mx, stableSortByKey (·.1) payload⟩ := by
  have hperm := stableSort_perm (fun e : Int × V => e.1) payload
  have hsort := stableSort_sorted (fun e : Int × V => e.1) payload
  have hlen := hperm.length_eq
  have hpk : ((stableSortByKey (fun e : Int × V => e.1) payload).map (·.1)).Perm
      (payload.map (·.1)) := hperm.map _
  have hne : payload ≠ [] := by
    intro h; subst h; simp [IsMin] at hmn
  unfold IntegerRangeMap.fromVec
  cases hs : stableSortByKey (fun e : Int × V => e.1) payload with
  | nil =>
    rw [hs] at hlen
    exact absurd (List.length_eq_zero_iff.1 hlen.symm) hne
  | cons first rest =>
    obtain ⟨e1, e2⟩ := sorted_ends hsort hs
    have hmn' : IsMin ((stableSortByKey (fun e : Int × V => e.1) payload).map (·.1)) mn :=
      ⟨hpk.mem_iff.2 hmn.1, fun k hk => hmn.2 k (hpk.mem_iff.1 hk)⟩
    have hmx' : IsMax ((stableSortByKey (fun e : Int × V => e.1) payload).map (·.1)) mx :=
      ⟨hpk.mem_iff.2 hmx.1, fun k hk => hmx.2 k (hpk.mem_iff.1 hk)⟩
    have h1 := isMin_unique e1 hmn'
    have h2 := isMax_unique e2 hmx'
    simp only [hs] at h2
    have h0 : 0 ≤ mx - mn := by have := hmn.2 mx hmx.1; omega
    have hsub : t.arith oc (mx - mn) = .ok (mx - mn) :=
      IntTy.arith_ok ⟨by have := t.lo_le_zero; omega, hfit⟩
    have hto : toUsize (mx - mn) = some (mx - mn).toNat := by
      unfold toUsize; rw [if_pos ⟨h0, hus⟩]
    rw [hs] at hlen
    have hl : (mx - mn).toNat = (first :: rest).length - 1 := by omega
    simp only [h2, h1, hsub, Res.ok_bind, hto, Res.unwrap, hl, Res.assert, decide_true, if_true,
      Res.pure_eq]

end FC
