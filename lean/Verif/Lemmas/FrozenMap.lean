import Verif.Spec
import Verif.Lemmas.Maps
import Verif.Lemmas.Built

/-
The facade: invariant of constructed maps, lookups as scans, construction.
-/

set_option autoImplicit false

namespace FC
variable [Target]
variable {K V : Type}

/-- Invariant of a map produced by the facade and of everything reachable from it by value writes. -/
def Good (ty : KeyTy K) : FrozenMap K V → Prop
  | .scanning _ => True
  | .commonSmall m => TableOK (fun k => m.bh (ty.enc k)) m.table
  | .commonLarge m => TableOK (fun k => m.bh (ty.enc k)) m.table
  | .u32Small m => ∃ f g, ty.kind = .u32 f g ∧ TableOK asU64 m.table ∧
      ∀ e ∈ m.table.entries, ∃ k, f k = e.1
  | .u32Large m => ∃ f g, ty.kind = .u32 f g ∧ TableOK asU64 m.table ∧
      ∀ e ∈ m.table.entries, ∃ k, f k = e.1
  | .u32Range m => ∃ f g, ty.kind = .u32 f g ∧ RangeOK IntTy.u32 m ∧
      ∀ e ∈ m.entries, ∃ k, f k = e.1
  | .leftSmall m => ∃ f g, ty.kind = .string f g ∧ LeftOK m ∧
      ∀ e ∈ m.table.entries, ∃ k, f k = e.1
  | .leftLarge m => ∃ f g, ty.kind = .string f g ∧ LeftOK m ∧
      ∀ e ∈ m.table.entries, ∃ k, f k = e.1
  | .rightSmall _ => False
  | .rightLarge _ => False
  | .lengthSmall m => ∃ f g, ty.kind = .string f g ∧ TableOK List.length m.table ∧
      ∀ e ∈ m.table.entries, ∃ k, f k = e.1

/-- Keys of a `u32` map, scanned as integers or as `K`. -/
theorem scan_u32 {ty : KeyTy K} (hty : LawfulKey ty) {f : K → Int} {g : Int → K}
    (hk : ty.kind = .u32 f g) {es : List (Int × V)} (him : ∀ e ∈ es, ∃ k, f k = e.1) (k : K) :
    ty.ofIntKV (scan IntegerMap.ieq id (ty.toInt k) 0 es)
      = scan ty.eq id k 0 (ty.ofIntEntries es) := by
  have hl := hty.kind
  rw [hk] at hl
  obtain ⟨h1, _, h3⟩ := hl
  unfold KeyTy.ofIntKV KeyTy.ofIntEntries KeyTy.toInt
  rw [hk]
  simp only
  symm
  apply scan_map
  intro e he
  obtain ⟨k', hk'⟩ := him e he
  simp only [id, h3, IntegerMap.ieq, ← hk', h1]

/-- Keys of a `String` map, scanned as bytes or as `K`. -/
theorem scan_string {ty : KeyTy K} (hty : LawfulKey ty) {f : K → Bytes} {g : Bytes → K}
    (hk : ty.kind = .string f g) {es : List (Bytes × V)} (him : ∀ e ∈ es, ∃ k, f k = e.1) (k : K) :
    ty.ofBKV (scan beq id (ty.toB k) 0 es) = scan ty.eq id k 0 (ty.ofBEntries es) := by
  have hl := hty.kind
  rw [hk] at hl
  obtain ⟨h1, _, h3⟩ := hl
  unfold KeyTy.ofBKV KeyTy.ofBEntries KeyTy.toB
  rw [hk]
  simp only
  symm
  apply scan_map
  intro e he
  obtain ⟨k', hk'⟩ := him e he
  simp only [id, h3, beq, ← hk', h1]

omit [Target] in
theorem ofIntKV_snd {ty : KeyTy K} {f : K → Int} {g : Int → K} (hk : ty.kind = .u32 f g)
    (o : Option (Int × Ref V)) : (ty.ofIntKV o).map (·.2) = o.map (·.2) := by
  unfold KeyTy.ofIntKV
  rw [hk]
  simp only [Option.map_map]
  rfl

omit [Target] in
theorem ofBKV_snd {ty : KeyTy K} {f : K → Bytes} {g : Bytes → K} (hk : ty.kind = .string f g)
    (o : Option (Bytes × Ref V)) : (ty.ofBKV o).map (·.2) = o.map (·.2) := by
  unfold KeyTy.ofBKV
  rw [hk]
  simp only [Option.map_map]
  rfl

theorem CommonMap.getKV_eq {ty : KeyTy K} (hty : LawfulKey ty) {m : CommonMap K V}
    (hm : TableOK (fun k => m.bh (ty.enc k)) m.table) (k : K) :
    m.getKeyValue ty.probe k = .ok (scan ty.eq id k 0 m.table.entries) := by
  rw [CommonMap.getKV_lookup]
  apply tableLookup_eq hm
  intro e _ he
  simp only [KeyTy.probe] at *
  rw [hty.hash _ _ he]
  rfl

omit [Target] in
theorem LengthMap.getKV_eq {m : LengthMap Bytes V} (hm : TableOK List.length m.table) (q : Bytes) :
    m.getKeyValue id beq List.length q = .ok (scan beq id q 0 m.table.entries) := by
  rw [LengthMap.getKV_lookup]
  apply tableLookup_eq hm
  intro e _ he
  simp [beq] at he
  rw [he]

/-- Every facade lookup is a linear scan of the entries. -/
theorem Good.getKeyValue {ty : KeyTy K} (hty : LawfulKey ty) {m : FrozenMap K V} (hm : Good ty m)
    (env : Env) (k : K) :
    m.getKeyValue env ty k = .ok (scan ty.eq id k 0 (m.entries ty)) := by
  cases m with
  | scanning m => rfl
  | commonSmall m => exact CommonMap.getKV_eq hty hm k
  | commonLarge m => exact CommonMap.getKV_eq hty hm k
  | u32Small m =>
    obtain ⟨f, g, hk, ht, him⟩ := hm
    simp only [FrozenMap.getKeyValue, FrozenMap.entries, IntegerMap.getKV_eq ht, Res.map_ok,
      scan_u32 hty hk him]
  | u32Large m =>
    obtain ⟨f, g, hk, ht, him⟩ := hm
    simp only [FrozenMap.getKeyValue, FrozenMap.entries, IntegerMap.getKV_eq ht, Res.map_ok,
      scan_u32 hty hk him]
  | u32Range m =>
    obtain ⟨f, g, hk, ht, him⟩ := hm
    simp only [FrozenMap.getKeyValue, FrozenMap.entries, rangeKV_eq ht, Res.map_ok,
      scan_u32 hty hk him]
  | leftSmall m =>
    obtain ⟨f, g, hk, ht, him⟩ := hm
    simp only [FrozenMap.getKeyValue, FrozenMap.entries, LeftSliceMap.getKV_eq ht, Res.map_ok,
      scan_string hty hk him]
  | leftLarge m =>
    obtain ⟨f, g, hk, ht, him⟩ := hm
    simp only [FrozenMap.getKeyValue, FrozenMap.entries, LeftSliceMap.getKV_eq ht, Res.map_ok,
      scan_string hty hk him]
  | rightSmall m => exact hm.elim
  | rightLarge m => exact hm.elim
  | lengthSmall m =>
    obtain ⟨f, g, hk, ht, him⟩ := hm
    simp only [FrozenMap.getKeyValue, FrozenMap.entries, LengthMap.getKV_eq ht, Res.map_ok,
      scan_string hty hk him]

theorem Good.get {ty : KeyTy K} (hty : LawfulKey ty) {m : FrozenMap K V} (hm : Good ty m)
    (env : Env) (k : K) :
    m.get env ty k = .ok ((scan ty.eq id k 0 (m.entries ty)).map (·.2)) := by
  have hkv := Good.getKeyValue hty hm env k
  cases m with
  | scanning m => rfl
  | commonSmall m =>
    simp only [FrozenMap.getKeyValue] at hkv
    simp only [FrozenMap.get, CommonMap.get_eq_kv, hkv, Res.map_ok]
  | commonLarge m =>
    simp only [FrozenMap.getKeyValue] at hkv
    simp only [FrozenMap.get, CommonMap.get_eq_kv, hkv, Res.map_ok]
  | u32Small m =>
    obtain ⟨f, g, hk, ht, him⟩ := hm
    simp only [FrozenMap.get, FrozenMap.entries, IntegerMap.get_eq_kv, IntegerMap.getKV_eq ht,
      Res.map_ok, ← scan_u32 hty hk him, ofIntKV_snd hk]
  | u32Large m =>
    obtain ⟨f, g, hk, ht, him⟩ := hm
    simp only [FrozenMap.get, FrozenMap.entries, IntegerMap.get_eq_kv, IntegerMap.getKV_eq ht,
      Res.map_ok, ← scan_u32 hty hk him, ofIntKV_snd hk]
  | u32Range m =>
    obtain ⟨f, g, hk, ht, him⟩ := hm
    simp only [FrozenMap.get, FrozenMap.entries, rangeGet_eq_kv, rangeKV_eq ht,
      Res.map_ok, ← scan_u32 hty hk him, ofIntKV_snd hk]
  | leftSmall m =>
    obtain ⟨f, g, hk, ht, him⟩ := hm
    simp only [FrozenMap.get, FrozenMap.entries, LeftSliceMap.get_eq_kv, LeftSliceMap.getKV_eq ht,
      Res.map_ok, ← scan_string hty hk him, ofBKV_snd hk]
  | leftLarge m =>
    obtain ⟨f, g, hk, ht, him⟩ := hm
    simp only [FrozenMap.get, FrozenMap.entries, LeftSliceMap.get_eq_kv, LeftSliceMap.getKV_eq ht,
      Res.map_ok, ← scan_string hty hk him, ofBKV_snd hk]
  | rightSmall m => exact hm.elim
  | rightLarge m => exact hm.elim
  | lengthSmall m =>
    obtain ⟨f, g, hk, ht, him⟩ := hm
    simp only [FrozenMap.get, FrozenMap.entries, LengthMap.get_eq_kv, LengthMap.getKV_eq ht,
      Res.map_ok, ← scan_string hty hk him, ofBKV_snd hk]

/-- `get_mut` designates the same entry as `get`, on every map. -/
theorem FrozenMap.getMut_eq (env : Env) (ty : KeyTy K) (m : FrozenMap K V) (k : K) :
    m.getMut env ty k = m.get env ty k := by
  cases m <;> rfl

theorem Good.len {ty : KeyTy K} {m : FrozenMap K V} (hm : Good ty m) :
    m.len = (m.entries ty).length := by
  cases m with
  | scanning m => rfl
  | commonSmall m => rfl
  | commonLarge m => rfl
  | u32Small m =>
    obtain ⟨f, g, hk, _⟩ := hm
    simp [FrozenMap.len, FrozenMap.entries, KeyTy.ofIntEntries, hk, IntegerMap.len, HashTable.len]
  | u32Large m =>
    obtain ⟨f, g, hk, _⟩ := hm
    simp [FrozenMap.len, FrozenMap.entries, KeyTy.ofIntEntries, hk, IntegerMap.len, HashTable.len]
  | u32Range m =>
    obtain ⟨f, g, hk, _⟩ := hm
    simp [FrozenMap.len, FrozenMap.entries, KeyTy.ofIntEntries, hk, IntegerRangeMap.len]
  | leftSmall m =>
    obtain ⟨f, g, hk, _⟩ := hm
    simp [FrozenMap.len, FrozenMap.entries, KeyTy.ofBEntries, hk, LeftSliceMap.len, HashTable.len]
  | leftLarge m =>
    obtain ⟨f, g, hk, _⟩ := hm
    simp [FrozenMap.len, FrozenMap.entries, KeyTy.ofBEntries, hk, LeftSliceMap.len, HashTable.len]
  | rightSmall m => exact hm.elim
  | rightLarge m => exact hm.elim
  | lengthSmall m =>
    obtain ⟨f, g, hk, _⟩ := hm
    simp [FrozenMap.len, FrozenMap.entries, KeyTy.ofBEntries, hk, LengthMap.len, HashTable.len]

omit [Target] in
/-- Writing replaces one value in the entry sequence. -/
theorem FrozenMap.write_entries (ty : KeyTy K) (m : FrozenMap K V) (i : Nat) (v : V) :
    (m.write i v).entries ty = setVal (m.entries ty) i v := by
  have hI : ∀ es : List (Int × V), ty.ofIntEntries (setVal es i v)
      = setVal (ty.ofIntEntries es) i v := by
    intro es
    unfold KeyTy.ofIntEntries
    split
    · rw [setVal_map]
    · simp [setVal]
  have hB : ∀ es : List (Bytes × V), ty.ofBEntries (setVal es i v)
      = setVal (ty.ofBEntries es) i v := by
    intro es
    unfold KeyTy.ofBEntries
    split
    · rw [setVal_map]
    · simp [setVal]
  cases m with
  | scanning m => rfl
  | commonSmall m => rfl
  | commonLarge m => rfl
  | u32Small m => exact hI _
  | u32Large m => exact hI _
  | u32Range m => exact hI _
  | leftSmall m => exact hB _
  | leftLarge m => exact hB _
  | rightSmall m => exact hB _
  | rightLarge m => exact hB _
  | lengthSmall m => exact hB _

omit [Target] in
theorem setVal_key_mem {es : List (K × V)} {i : Nat} {v : V} {P : K → Prop}
    (h : ∀ e ∈ es, P e.1) : ∀ e ∈ setVal es i v, P e.1 := by
  intro e he
  have : e.1 ∈ (setVal es i v).map (·.1) := List.mem_map_of_mem he
  rw [setVal_keys] at this
  obtain ⟨e', he', heq⟩ := List.mem_map.1 this
  rw [← heq]
  exact h e' he'

theorem Good.write {ty : KeyTy K} {m : FrozenMap K V} (hm : Good ty m) (i : Nat) (v : V) :
    Good ty (m.write i v) := by
  cases m with
  | scanning m => trivial
  | commonSmall m => exact TableOK.write hm i v
  | commonLarge m => exact TableOK.write hm i v
  | u32Small m =>
    obtain ⟨f, g, hk, ht, him⟩ := hm
    exact ⟨f, g, hk, ht.write i v, setVal_key_mem (P := fun x => ∃ k, f k = x) him⟩
  | u32Large m =>
    obtain ⟨f, g, hk, ht, him⟩ := hm
    exact ⟨f, g, hk, ht.write i v, setVal_key_mem (P := fun x => ∃ k, f k = x) him⟩
  | u32Range m =>
    obtain ⟨f, g, hk, ht, him⟩ := hm
    exact ⟨f, g, hk, ht.write i v, setVal_key_mem (P := fun x => ∃ k, f k = x) him⟩
  | leftSmall m =>
    obtain ⟨f, g, hk, ht, him⟩ := hm
    exact ⟨f, g, hk, ⟨ht.range, setVal_key_mem (P := fun x : Bytes => m.stop ≤ x.length) ht.long, ht.table.write i v⟩, setVal_key_mem (P := fun x => ∃ k, f k = x) him⟩
  | leftLarge m =>
    obtain ⟨f, g, hk, ht, him⟩ := hm
    exact ⟨f, g, hk, ⟨ht.range, setVal_key_mem (P := fun x : Bytes => m.stop ≤ x.length) ht.long, ht.table.write i v⟩, setVal_key_mem (P := fun x => ∃ k, f k = x) him⟩
  | rightSmall m => exact hm.elim
  | rightLarge m => exact hm.elim
  | lengthSmall m =>
    obtain ⟨f, g, hk, ht, him⟩ := hm
    exact ⟨f, g, hk, ht.write i v, setVal_key_mem (P := fun x => ∃ k, f k = x) him⟩

/-! ### Construction -/

/-- Shape of a range map, also when the keys repeat: as many entries as positions. -/
structure RangeShape (t : IntTy) (m : IntegerRangeMap V) : Prop where
  len : m.max - m.min = (m.entries.length : Int) - 1
  fits : m.max - m.min ≤ t.hi
  usize : m.max - m.min < usz

theorem RangeShape.total {t : IntTy} {m : IntegerRangeMap V} (hm : RangeShape t m) (oc : Bool)
    (q : Int) : ∃ o, m.getKeyValue oc t q = .ok o ∧ m.get oc t q = .ok (o.map (·.2)) := by
  suffices h : ∃ o, m.getKeyValue oc t q = .ok o by
    obtain ⟨o, ho⟩ := h
    exact ⟨o, ho, by rw [rangeGet_eq_kv, ho]; rfl⟩
  have h1 := hm.len
  have h2 := hm.fits
  have h3 := hm.usize
  have h0 := t.lo_le_zero
  unfold IntegerRangeMap.getKeyValue IntegerRangeMap.position
  by_cases hq : m.min ≤ q ∧ q ≤ m.max
  · rw [if_pos hq]
    have ha : t.arith oc (q - m.min) = .ok (q - m.min) :=
      IntTy.arith_ok ⟨by omega, by omega⟩
    have hu : toUsize (q - m.min) = some (q - m.min).toNat := by
      unfold toUsize; rw [if_pos ⟨by omega, by omega⟩]
    have hlt : (q - m.min).toNat < m.entries.length := by omega
    refine ⟨some (m.entries[(q - m.min).toNat].1, ⟨(q - m.min).toNat, m.entries[(q - m.min).toNat].2⟩), ?_⟩
    simp only [ha, hu, Res.ok_bind, IntegerRangeMap.entryAt, List.getElem?_eq_getElem hlt,
      Res.pure_eq]
  · rw [if_neg hq]
    exact ⟨none, rfl⟩

/-- What a successfully built map guarantees. -/
structure Built (ty : KeyTy K) (payload : List (K × V)) (m : FrozenMap K V) : Prop where
  perm : (m.entries ty).Perm payload
  shape : ∀ r, m = .u32Range r → (∃ f g, ty.kind = .u32 f g) ∧ RangeShape IntTy.u32 r
  good : (∀ r, m ≠ .u32Range r) ∨ DistinctKeys ty.eq payload → Good ty m

/-- Every lookup on a built map returns, and `get` and `get_key_value` agree. -/
theorem Built.total {ty : KeyTy K} (hty : LawfulKey ty) {payload : List (K × V)}
    {m : FrozenMap K V} (hb : Built ty payload m) (env : Env) (k : K) :
    ∃ o, m.getKeyValue env ty k = .ok o ∧ m.get env ty k = .ok (o.map (·.2)) := by
  by_cases h : ∃ r, m = .u32Range r
  · obtain ⟨r, rfl⟩ := h
    obtain ⟨⟨f, g, hk⟩, hs⟩ := hb.shape r rfl
    obtain ⟨o, h1, h2⟩ := hs.total env.oc (ty.toInt k)
    refine ⟨ty.ofIntKV o, ?_, ?_⟩
    · simp only [FrozenMap.getKeyValue, h1, Res.map_ok]
    · simp only [FrozenMap.get, h2, ofIntKV_snd hk]
  · have hg := hb.good (Or.inl (fun r hr => h ⟨r, hr⟩))
    exact ⟨_, Good.getKeyValue hty hg env k, Good.get hty hg env k⟩

theorem common_built (env : Env) {ty : KeyTy K} {S : IdxTy} {cap : Nat}
    (hS : S.capacity = some cap) {payload : List (K × V)} (hcap : payload.length ≤ cap)
    (bh : Hasher) :
    ∃ m, CommonMap.fromVecWithHasher env S ty.enc payload bh = .ok m ∧
      Built ty payload (.commonSmall m) ∧ Built ty payload (.commonLarge m) := by
  obtain ⟨m, hm, ht, hbh, hp, _⟩ := CommonMap.fromVec_ok env hS ty.enc hcap bh
  subst hbh
  exact ⟨m, hm, ⟨hp, by simp, fun _ => ht⟩, ⟨hp, by simp, fun _ => ht⟩⟩

theorem newCommon_total (env : Env) (ty : KeyTy K) {payload : List (K × V)}
    (hcap : payload.length < 2 ^ 31) (bh : Hasher) :
    ∃ m, FrozenMap.newCommonMap env ty.enc payload bh = .ok m ∧ Built ty payload m := by
  unfold FrozenMap.newCommonMap
  split
  · rename_i h
    obtain ⟨m, hm, h1, _⟩ := common_built env (ty := ty) IdxTy.capacity_u8 h bh
    exact ⟨.commonSmall m, by simp [hm], h1⟩
  · obtain ⟨m, hm, _, h1⟩ := common_built env (ty := ty) IdxTy.capacity_usize
      (payload := payload) (by omega) bh
    exact ⟨.commonLarge m, by simp [hm], h1⟩

theorem ofIntEntries_perm {ty : KeyTy K} (hty : LawfulKey ty) {f : K → Int} {g : Int → K}
    (hk : ty.kind = .u32 f g) {payload : List (K × V)} {es : List (Int × V)}
    (hp : es.Perm (payload.map (fun e => (f e.1, e.2)))) :
    (ty.ofIntEntries es).Perm payload ∧ ∀ e ∈ es, ∃ k, f k = e.1 := by
  have hl := hty.kind
  rw [hk] at hl
  obtain ⟨h1, _, _⟩ := hl
  constructor
  · unfold KeyTy.ofIntEntries
    rw [hk]
    simp only
    refine (hp.map _).trans ?_
    rw [List.map_map]
    have : ((fun e : Int × V => (g e.1, e.2)) ∘ fun e : K × V => (f e.1, e.2)) = id := by
      funext e; simp [h1]
    rw [this, List.map_id]
  · intro e he
    obtain ⟨e', _, rfl⟩ := List.mem_map.1 (hp.mem_iff.1 he)
    exact ⟨e'.1, rfl⟩

theorem ofBEntries_perm {ty : KeyTy K} (hty : LawfulKey ty) {f : K → Bytes} {g : Bytes → K}
    (hk : ty.kind = .string f g) {payload : List (K × V)} {es : List (Bytes × V)}
    (hp : es.Perm (payload.map (fun e => (f e.1, e.2)))) :
    (ty.ofBEntries es).Perm payload ∧ ∀ e ∈ es, ∃ k, f k = e.1 := by
  have hl := hty.kind
  rw [hk] at hl
  obtain ⟨h1, _, _⟩ := hl
  constructor
  · unfold KeyTy.ofBEntries
    rw [hk]
    simp only
    refine (hp.map _).trans ?_
    rw [List.map_map]
    have : ((fun e : Bytes × V => (g e.1, e.2)) ∘ fun e : K × V => (f e.1, e.2)) = id := by
      funext e; simp [h1]
    rw [this, List.map_id]
  · intro e he
    obtain ⟨e', _, rfl⟩ := List.mem_map.1 (hp.mem_iff.1 he)
    exact ⟨e'.1, rfl⟩

theorem newU32_total (env : Env) {ty : KeyTy K} (hty : LawfulKey ty) {f : K → Int} {g : Int → K}
    (hk : ty.kind = .u32 f g) {payload : List (K × V)} (hne : payload ≠ [])
    (hcap : payload.length < 2 ^ 31) :
    ∃ m, FrozenMap.newU32Map env f payload = .ok m ∧ Built ty payload m := by
  have hl := hty.kind
  rw [hk] at hl
  obtain ⟨h1, h2, h3⟩ := hl
  have hkeys : ((payload.map (fun e => (f e.1, e.2))).map (·.1)) = payload.map (fun e => f e.1) := by
    simp
  have hne' : payload.map (fun e => f e.1) ≠ [] := by simpa using hne
  obtain ⟨mn, hmn⟩ := exists_isMin hne'
  obtain ⟨mx, hmx⟩ := exists_isMax hne'
  have hr : ∀ k ∈ payload.map (fun e => f e.1), IntTy.u32.InRange k := by
    intro k hk
    obtain ⟨e, _, rfl⟩ := List.mem_map.1 hk
    exact h2 _
  have hhi : IntTy.u32.hi = 2 ^ 32 - 1 := by decide
  have hlo : IntTy.u32.lo = 0 := by decide
  have hspan : mx - mn ≤ IntTy.u32.hi := by
    have a := (hr mx hmx.1).2
    have b := (hr mn hmn.1).1
    rw [hlo] at b
    omega
  have hcount : ((payload.map (fun e => f e.1)).length : Int) ≤ IntTy.u32.hi := by
    rw [hhi]; simp; omega
  unfold FrozenMap.newU32Map
  simp only [hkeys, analyzeIntKeys_ok hr hmn hmx hcount hspan, Res.ok_bind]
  split
  · rename_i hv
    have hs : mx - mn = (payload.length : Int) - 1 := by
      by_contra hc
      rw [if_neg (by simpa using hc)] at hv
      simp at hv
    have hus : mx - mn < usz := by rw [hhi] at hspan; have := usz_ge; omega
    have htot := rangeFromVec_total (oc := env.oc) (t := IntTy.u32)
      (payload := payload.map (fun e => (f e.1, e.2))) (mn := mn) (mx := mx)
      (by rw [hkeys]; exact hmn) (by rw [hkeys]; exact hmx) (by simpa using hs) hspan hus
    refine ⟨_, by simp only [htot, Res.ok_bind, Res.pure_eq]; rfl, ?_⟩
    have hp := ofIntEntries_perm hty hk
      (stableSort_perm (fun e : Int × V => e.1) (payload.map (fun e => (f e.1, e.2))))
    have hpl := (stableSort_perm (fun e : Int × V => e.1)
      (payload.map (fun e => (f e.1, e.2)))).length_eq
    refine ⟨hp.1, ?_, ?_⟩
    · intro r hr
      simp only [FrozenMap.u32Range.injEq] at hr
      subst hr
      refine ⟨⟨f, g, hk⟩, ?_, hspan, hus⟩
      simp only [hpl, List.length_map]
      exact hs
    intro hd
    rcases hd with hd | hd
    · exact absurd rfl (hd _)
    · have hnd : ((payload.map (fun e => (f e.1, e.2))).map (·.1)).Nodup := by
        rw [hkeys, List.Nodup, List.pairwise_map]
        refine hd.imp ?_
        intro a b hab
        rw [h3] at hab
        simpa using hab
      exact ⟨f, g, hk, (rangeFromVec_rangeOK (by decide) (by simpa using hne) (by
        intro e he
        obtain ⟨e', _, rfl⟩ := List.mem_map.1 he
        exact h2 _) hnd htot).1, hp.2⟩
  · split
    · rename_i hle
      obtain ⟨m, hm, ht, hp, _⟩ := IntegerMap.fromVec_ok env IdxTy.capacity_u8 hle
      have hp' := ofIntEntries_perm hty hk hp
      exact ⟨.u32Small m, by simp [hm], hp'.1, by simp, fun _ => ⟨f, g, hk, ht, hp'.2⟩⟩
    · obtain ⟨m, hm, ht, hp, _⟩ := IntegerMap.fromVec_ok env IdxTy.capacity_usize
        (payload := payload.map (fun e => (f e.1, e.2))) (by have := usz_ge; simp; omega)
      have hp' := ofIntEntries_perm hty hk hp
      exact ⟨.u32Large m, by simp [hm], hp'.1, by simp, fun _ => ⟨f, g, hk, ht, hp'.2⟩⟩

/-- Whatever the analysis concluded, a `u32` map that was built holds the payload. -/
theorem newU32_built (env : Env) {ty : KeyTy K} (hty : LawfulKey ty) {f : K → Int} {g : Int → K}
    (hk : ty.kind = .u32 f g) {payload : List (K × V)} (hne : payload ≠ [])
    {m : FrozenMap K V} (hcap : (∀ r, m ≠ .u32Range r) → payload.length < 2 ^ 32)
    (h : FrozenMap.newU32Map env f payload = .ok m) : Built ty payload m := by
  have hl := hty.kind
  rw [hk] at hl
  obtain ⟨h1, h2, h3⟩ := hl
  have hkeys : ((payload.map (fun e => (f e.1, e.2))).map (·.1)) = payload.map (fun e => f e.1) := by
    simp
  have hr : ∀ e ∈ payload.map (fun e => (f e.1, e.2)), IntTy.u32.InRange e.1 := by
    intro e he
    obtain ⟨e', _, rfl⟩ := List.mem_map.1 he
    exact h2 _
  unfold FrozenMap.newU32Map at h
  simp only at h
  rw [Res.bind_eq_ok] at h
  obtain ⟨v, _, h⟩ := h
  cases v with
  | range =>
    simp only at h
    rw [Res.bind_eq_ok] at h
    obtain ⟨r, hr', h⟩ := h
    simp only [Res.pure_eq, Res.ok.injEq] at h
    subst h
    obtain ⟨_, _, hs, hfit, hus, hent⟩ := rangeFromVec_ok (by decide) (by simpa using hne) hr hr'
    have hp := ofIntEntries_perm hty hk (payload := payload) (es := r.entries)
      (hent ▸ stableSort_perm (fun e : Int × V => e.1) (payload.map (fun e => (f e.1, e.2))))
    have hpl := (stableSort_perm (fun e : Int × V => e.1)
      (payload.map (fun e => (f e.1, e.2)))).length_eq
    refine ⟨hp.1, ?_, ?_⟩
    · intro r' hr'
      simp only [FrozenMap.u32Range.injEq] at hr'
      subst hr'
      refine ⟨⟨f, g, hk⟩, ?_, hfit, hus⟩
      rw [hent, hpl]
      exact hs
    rintro (hd | hd)
    · exact absurd rfl (hd _)
    · have hnd : ((payload.map (fun e => (f e.1, e.2))).map (·.1)).Nodup := by
        rw [hkeys, List.Nodup, List.pairwise_map]
        refine hd.imp ?_
        intro a b hab
        rw [h3] at hab
        simpa using hab
      exact ⟨f, g, hk, (rangeFromVec_rangeOK (by decide) (by simpa using hne) hr hnd hr').1, hp.2⟩
  | normal =>
    simp only at h
    split at h <;>
    · rw [Res.bind_eq_ok] at h
      obtain ⟨m', hm, h⟩ := h
      simp only [Res.pure_eq, Res.ok.injEq] at h
      subst h
      obtain ⟨ht, hp⟩ := IntegerMap.built hm (by simpa using hcap (by simp))
      have hp' := ofIntEntries_perm hty hk hp
      exact ⟨hp'.1, by simp, fun _ => ⟨f, g, hk, ht, hp'.2⟩⟩

/-- A right-hand verdict is about one byte that every key has. -/
theorem right_verdict_in_bounds {oc : Bool} {bh : Hasher} {keys : List Bytes} (hne : keys ≠ [])
    (hlt : ∀ k ∈ keys, k.length < usz) {i l : Nat}
    (hv : analyzeSliceKeys oc bh keys = .ok (.right i l)) :
    l = 1 ∧ ∀ k ∈ keys, i + 1 ≤ k.length := by
  have hv' : analyzeSubslices oc bh keys = .ok (.right i l) := by
    unfold analyzeSliceKeys at hv
    split at hv
    · exact hv
    · rename_i hn
      rcases analyzeLengths_cases keys with hc | hc
      · rw [hc] at hv; simp at hv
      · exact absurd hc hn
  have hmm : minLen keys ≠ maxLen keys := by
    intro hmm
    obtain ⟨v, hv'', hc⟩ := analyzeSubslices_same (oc := oc) (bh := bh) hmm
    rw [hv''] at hv'
    rcases hc with ⟨hc, _⟩ | ⟨_, _, hc, _⟩ <;> (rw [hc] at hv'; simp at hv')
  have hm := analyzeSubslices_mixed (oc := oc) (bh := bh) hne hlt hmm
  rw [hv'] at hm
  cases hm with
  | right1 _ hi => exact ⟨rfl, fun k hk => le_trans hi (minLen_le hk)⟩

/-- String construction follows the verdict of the analysis: a right-hand verdict is undefined
behaviour, a panic is a panic, and everything else succeeds. -/
theorem newString_outcome (env : Env) {ty : KeyTy K} (hty : LawfulKey ty) {f : K → Bytes}
    {g : Bytes → K} (hk : ty.kind = .string f g) {payload : List (K × V)} (hne : payload ≠ [])
    (hcap : payload.length < 2 ^ 31) (bh : Hasher) :
    (analyzeSliceKeys env.oc bh (payload.map (fun e => f e.1)) = .panic ∧
      FrozenMap.newStringMap env ty.enc f g payload bh = .panic) ∨
    ((∃ i l, analyzeSliceKeys env.oc bh (payload.map (fun e => f e.1)) = .ok (.right i l)) ∧
      FrozenMap.newStringMap env ty.enc f g payload bh = .ub) ∨
    ((∃ v, analyzeSliceKeys env.oc bh (payload.map (fun e => f e.1)) = .ok v ∧
        ∀ i l, v ≠ .right i l) ∧
      ∃ m, FrozenMap.newStringMap env ty.enc f g payload bh = .ok m ∧ Built ty payload m) := by
  have hl := hty.kind
  rw [hk] at hl
  obtain ⟨h1, h2, h3⟩ := hl
  have hkeys : ((payload.map (fun e => (f e.1, e.2))).map (·.1)) = payload.map (fun e => f e.1) := by
    simp
  have hne' : payload.map (fun e => f e.1) ≠ [] := by simpa using hne
  have hlt : ∀ k ∈ payload.map (fun e => f e.1), k.length < usz := by
    intro k hk
    obtain ⟨e, _, rfl⟩ := List.mem_map.1 hk
    have := h2 e.1
    omega
  have hback : (payload.map (fun e => (f e.1, e.2))).map (fun e => (g e.1, e.2)) = payload := by
    rw [List.map_map]
    have : ((fun e : Bytes × V => (g e.1, e.2)) ∘ fun e : K × V => (f e.1, e.2)) = id := by
      funext e; simp [h1]
    rw [this, List.map_id]
  unfold FrozenMap.newStringMap
  simp only [hkeys, List.length_map, hback]
  cases hv : analyzeSliceKeys env.oc bh (payload.map (fun e => f e.1)) with
  | panic => exact Or.inl ⟨rfl, rfl⟩
  | ub =>
    exfalso
    unfold analyzeSliceKeys at hv
    split at hv
    · by_cases hmm : minLen (payload.map (fun e => f e.1)) = maxLen (payload.map (fun e => f e.1))
      · obtain ⟨v, hv', _⟩ := analyzeSubslices_same (oc := env.oc) (bh := bh) hmm
        rw [hv'] at hv; simp at hv
      · have hm := analyzeSubslices_mixed (oc := env.oc) (bh := bh) hne' hlt hmm
        rw [hv] at hm
        cases hm
    · simp at hv
  | ok v =>
    simp only [Res.ok_bind]
    cases v with
    | normal =>
      right; right
      refine ⟨⟨_, rfl, by simp⟩, ?_⟩
      by_cases h : payload.length ≤ 255
      · obtain ⟨m, hm, hb, _⟩ := common_built env (ty := ty) IdxTy.capacity_u8 h bh
        exact ⟨.commonSmall m, by simp [h, hm], hb⟩
      · obtain ⟨m, hm, _, hb⟩ := common_built env (ty := ty) IdxTy.capacity_usize
          (payload := payload) (by omega) bh
        exact ⟨.commonLarge m, by simp [h, hm], hb⟩
    | length =>
      right; right
      refine ⟨⟨_, rfl, by simp⟩, ?_⟩
      by_cases h : payload.length ≤ 255
      · obtain ⟨m, hm, ht, hp, _⟩ := LengthMap.fromVec_ok env IdxTy.capacity_u8 List.length
          (payload := payload.map (fun e => (f e.1, e.2))) (by simpa using h)
        have hp' := ofBEntries_perm hty hk hp
        exact ⟨.lengthSmall m, by simp [h, hm], hp'.1, by simp, fun _ => ⟨f, g, hk, ht, hp'.2⟩⟩
      · obtain ⟨m, hm, _, hb⟩ := common_built env (ty := ty) IdxTy.capacity_usize
          (payload := payload) (by omega) bh
        exact ⟨.commonLarge m, by simp [h, hm], hb⟩
    | left i l =>
      right; right
      refine ⟨⟨_, rfl, by simp⟩, ?_⟩
      have hin := (left_verdict_in_bounds hne' hlt hv).2.2
      have hlong : ∀ e ∈ payload.map (fun e : K × V => (f e.1, e.2)), i + l ≤ e.1.length := by
        intro e he
        obtain ⟨e', he', rfl⟩ := List.mem_map.1 he
        exact hin _ (List.mem_map.2 ⟨e', he', rfl⟩)
      by_cases h : payload.length ≤ 255
      · obtain ⟨m, hm, ht, _, _, _, hp, _⟩ := LeftSliceMap.fromVec_ok env IdxTy.capacity_u8
          (payload := payload.map (fun e => (f e.1, e.2))) (by simpa using h) (a := i) (b := i + l)
          (by omega) hlong bh
        have hp' := ofBEntries_perm hty hk hp
        exact ⟨.leftSmall m, by simp [h, hm], hp'.1, by simp, fun _ => ⟨f, g, hk, ht, hp'.2⟩⟩
      · obtain ⟨m, hm, ht, _, _, _, hp, _⟩ := LeftSliceMap.fromVec_ok env IdxTy.capacity_usize
          (payload := payload.map (fun e => (f e.1, e.2))) (by simp; omega) (a := i) (b := i + l)
          (by omega) hlong bh
        have hp' := ofBEntries_perm hty hk hp
        exact ⟨.leftLarge m, by simp [h, hm], hp'.1, by simp, fun _ => ⟨f, g, hk, ht, hp'.2⟩⟩
    | right i l =>
      right; left
      refine ⟨⟨i, l, rfl⟩, ?_⟩
      obtain ⟨rfl, hin⟩ := right_verdict_in_bounds hne' hlt hv
      have hlong : ∀ e ∈ payload.map (fun e : K × V => (f e.1, e.2)), i + 1 ≤ e.1.length := by
        intro e he
        obtain ⟨e', he', rfl⟩ := List.mem_map.1 he
        exact hin _ (List.mem_map.2 ⟨e', he', rfl⟩)
      have hub := fun S => RightSliceMap.fromVec_ub env (S := S)
        (payload := payload.map (fun e => (f e.1, e.2))) (a := i) (b := i + 1) (by omega)
        (by simpa using hne) hlong bh
      by_cases h : payload.length ≤ 255
      · simp [h, hub]
      · simp [h, hub]

/-- A map of strings that was built holds the payload. -/
theorem newString_built (env : Env) {ty : KeyTy K} (hty : LawfulKey ty) {f : K → Bytes}
    {g : Bytes → K} (hk : ty.kind = .string f g) {payload : List (K × V)} (hne : payload ≠ [])
    (hcap : payload.length < 2 ^ 32) {bh : Hasher} {m : FrozenMap K V}
    (h : FrozenMap.newStringMap env ty.enc f g payload bh = .ok m) : Built ty payload m := by
  have hl := hty.kind
  rw [hk] at hl
  obtain ⟨h1, h2, h3⟩ := hl
  have hkeys : ((payload.map (fun e => (f e.1, e.2))).map (·.1)) = payload.map (fun e => f e.1) := by
    simp
  have hne' : payload.map (fun e => f e.1) ≠ [] := by simpa using hne
  have hlt : ∀ k ∈ payload.map (fun e => f e.1), k.length < usz := by
    intro k hk
    obtain ⟨e, _, rfl⟩ := List.mem_map.1 hk
    have := h2 e.1
    omega
  have hback : (payload.map (fun e => (f e.1, e.2))).map (fun e => (g e.1, e.2)) = payload := by
    rw [List.map_map]
    have : ((fun e : Bytes × V => (g e.1, e.2)) ∘ fun e : K × V => (f e.1, e.2)) = id := by
      funext e; simp [h1]
    rw [this, List.map_id]
  have hcap' : (payload.map (fun e => (f e.1, e.2))).length < 2 ^ 32 := by simpa using hcap
  have hcommon : ∀ {S : IdxTy} {m' : CommonMap K V},
      CommonMap.fromVecWithHasher env S ty.enc payload bh = .ok m' →
      Built ty payload (.commonSmall m') ∧ Built ty payload (.commonLarge m') := by
    intro S m' hm
    obtain ⟨hbh, ht, hp⟩ := CommonMap.built hm hcap
    subst hbh
    exact ⟨⟨hp, by simp, fun _ => ht⟩, ⟨hp, by simp, fun _ => ht⟩⟩
  unfold FrozenMap.newStringMap at h
  simp only [hkeys, List.length_map, hback] at h
  rw [Res.bind_eq_ok] at h
  obtain ⟨v, hv, h⟩ := h
  have hleft : ∀ {S : IdxTy} {i l : Nat} {m' : LeftSliceMap V}, v = .left i l →
      LeftSliceMap.fromVecWithHasher env S (payload.map (fun e => (f e.1, e.2))) i (i + l) bh
        = .ok m' → Built ty payload (.leftSmall m') ∧ Built ty payload (.leftLarge m') := by
    intro S i l m' _ hm
    obtain ⟨ht, hp⟩ := LeftSliceMap.built (fun _ => by omega) hm hcap'
    have hp' := ofBEntries_perm hty hk hp
    exact ⟨⟨hp'.1, by simp, fun _ => ⟨f, g, hk, ht, hp'.2⟩⟩,
      ⟨hp'.1, by simp, fun _ => ⟨f, g, hk, ht, hp'.2⟩⟩⟩
  have hright : ∀ {S : IdxTy} {i l : Nat} {m' : RightSliceMap V}, v = .right i l →
      RightSliceMap.fromVecWithHasher env S (payload.map (fun e => (f e.1, e.2))) i (i + l) bh
        = .ok m' → False := by
    intro S i l m' hvr hm
    subst hvr
    obtain ⟨rfl, hin⟩ := right_verdict_in_bounds hne' hlt hv
    obtain ⟨k, hk'⟩ := List.exists_mem_of_ne_nil _ hne'
    have hb : i + 1 < usz := lt_of_le_of_lt (hin k hk') (hlt k hk')
    exact RightSliceMap.fromVec_never_ok env (by omega) hb (by simpa using hne) bh _ hm
  split at h
  · cases v with
    | normal =>
      simp only [Res.bind_eq_ok, Res.pure_eq, Res.ok.injEq] at h
      obtain ⟨m', hm, rfl⟩ := h
      exact (hcommon hm).1
    | left i l =>
      simp only [Res.bind_eq_ok, Res.pure_eq, Res.ok.injEq] at h
      obtain ⟨m', hm, rfl⟩ := h
      exact (hleft rfl hm).1
    | right i l =>
      simp only [Res.bind_eq_ok, Res.pure_eq, Res.ok.injEq] at h
      obtain ⟨m', hm, rfl⟩ := h
      exact (hright rfl hm).elim
    | length =>
      simp only [Res.bind_eq_ok, Res.pure_eq, Res.ok.injEq] at h
      obtain ⟨m', hm, rfl⟩ := h
      obtain ⟨ht, hp⟩ := LengthMap.built hm hcap'
      have hp' := ofBEntries_perm hty hk hp
      exact ⟨hp'.1, by simp, fun _ => ⟨f, g, hk, ht, hp'.2⟩⟩
  · cases v with
    | normal | length =>
      simp only [Res.bind_eq_ok, Res.pure_eq, Res.ok.injEq] at h
      obtain ⟨m', hm, rfl⟩ := h
      exact (hcommon hm).2
    | left i l =>
      simp only [Res.bind_eq_ok, Res.pure_eq, Res.ok.injEq] at h
      obtain ⟨m', hm, rfl⟩ := h
      exact (hleft rfl hm).2
    | right i l =>
      simp only [Res.bind_eq_ok, Res.pure_eq, Res.ok.injEq] at h
      obtain ⟨m', hm, rfl⟩ := h
      exact (hright rfl hm).elim

/-- Every map the facade returns, for every kind of key. -/
theorem new_built (env : Env) {ty : KeyTy K} (hty : LawfulKey ty) {payload : List (K × V)}
    (hcap : payload.length < 2 ^ 32) {bh : Hasher} {m : FrozenMap K V}
    (h : FrozenMap.new env ty payload bh = .ok m) : Built ty payload m := by
  unfold FrozenMap.new at h
  split at h
  · simp at h
    subst h
    exact ⟨List.Perm.refl _, by simp, fun _ => trivial⟩
  · rename_i hlen
    have hne : payload ≠ [] := by rintro rfl; simp at hlen
    split at h
    · rename_i f g hk
      exact newU32_built env hty hk hne (fun _ => hcap) h
    · rename_i f g hk
      exact newString_built env hty hk hne hcap h
    · unfold FrozenMap.newCommonMap at h
      split at h <;>
      · simp only [Res.bind_eq_ok, Res.pure_eq, Res.ok.injEq] at h
        obtain ⟨m', hm, rfl⟩ := h
        obtain ⟨hbh, ht, hp⟩ := CommonMap.built hm hcap
        subst hbh
        exact ⟨hp, by simp, fun _ => ht⟩

/-- What the map is made of is of the kind its key type calls for. -/
theorem new_len (env : Env) {ty : KeyTy K} {payload : List (K × V)} {bh : Hasher}
    {m : FrozenMap K V} (h : FrozenMap.new env ty payload bh = .ok m) :
    m.len = (m.entries ty).length := by
  unfold FrozenMap.new at h
  split at h
  · cases h; rfl
  cases hk : ty.kind with
  | u32 f g =>
    rw [hk] at h
    simp only [FrozenMap.newU32Map, Res.bind_eq_ok] at h
    obtain ⟨v, _, h⟩ := h
    cases v with
    | range =>
      simp only [Res.bind_eq_ok, Res.pure_eq, Res.ok.injEq] at h
      obtain ⟨r, _, rfl⟩ := h
      simp [FrozenMap.len, FrozenMap.entries, KeyTy.ofIntEntries, hk, IntegerRangeMap.len]
    | normal =>
      simp only at h
      split at h <;>
      · simp only [Res.bind_eq_ok, Res.pure_eq, Res.ok.injEq] at h
        obtain ⟨m', _, rfl⟩ := h
        simp [FrozenMap.len, FrozenMap.entries, KeyTy.ofIntEntries, hk, IntegerMap.len, HashTable.len]
  | string f g =>
    rw [hk] at h
    simp only [FrozenMap.newStringMap, Res.bind_eq_ok] at h
    obtain ⟨v, _, h⟩ := h
    split at h <;> cases v <;> simp only [Res.bind_eq_ok, Res.pure_eq, Res.ok.injEq] at h <;>
      obtain ⟨m', hm, rfl⟩ := h <;>
      simp [FrozenMap.len, FrozenMap.entries, KeyTy.ofBEntries, hk, CommonMap.len, LengthMap.len,
        LeftSliceMap.len, RightSliceMap.len, HashTable.len]
  | other =>
    rw [hk] at h
    simp only [FrozenMap.newCommonMap] at h
    split at h <;>
    · simp only [Res.bind_eq_ok, Res.pure_eq, Res.ok.injEq] at h
      obtain ⟨m', _, rfl⟩ := h
      rfl

/-- A map that was built holds the payload, however many entries that has. -/
theorem new_perm (env : Env) {ty : KeyTy K} (hty : LawfulKey ty) {payload : List (K × V)}
    {bh : Hasher} {m : FrozenMap K V} (h : FrozenMap.new env ty payload bh = .ok m) :
    (m.entries ty).Perm payload := by
  unfold FrozenMap.new at h
  split at h
  · cases h; exact .refl _
  rename_i hlen
  have hne : payload ≠ [] := by rintro rfl; simp at hlen
  have hcommon : ∀ {S : IdxTy} {p : List (K × V)} {m' : CommonMap K V},
      CommonMap.fromVecWithHasher env S ty.enc p bh = .ok m' → m'.table.entries.Perm p := by
    intro S p m' hm
    unfold CommonMap.fromVecWithHasher at hm
    simp only [Res.bind_eq_ok, Res.pure_eq, Res.ok.injEq] at hm
    obtain ⟨_, _, t, ht, rfl⟩ := hm
    exact HashTable.new_perm ht
  have hl := hty.kind
  cases hk : ty.kind with
  | u32 f g =>
    rw [hk] at h hl
    obtain ⟨h1, h2, h3⟩ := hl
    simp only [FrozenMap.newU32Map, Res.bind_eq_ok] at h
    obtain ⟨v, _, h⟩ := h
    cases v with
    | range =>
      simp only [Res.bind_eq_ok, Res.pure_eq, Res.ok.injEq] at h
      obtain ⟨r, hr', rfl⟩ := h
      have hr : ∀ e ∈ payload.map (fun e => (f e.1, e.2)), IntTy.u32.InRange e.1 := by
        intro e he
        obtain ⟨e', _, rfl⟩ := List.mem_map.1 he
        exact h2 _
      obtain ⟨_, _, _, _, _, hent⟩ := rangeFromVec_ok (by decide) (by simpa using hne) hr hr'
      exact (ofIntEntries_perm hty hk (payload := payload) (es := r.entries)
        (hent ▸ stableSort_perm (fun e : Int × V => e.1) (payload.map (fun e => (f e.1, e.2))))).1
    | normal =>
      simp only at h
      split at h <;>
      · simp only [Res.bind_eq_ok, Res.pure_eq, Res.ok.injEq] at h
        obtain ⟨m', hm, rfl⟩ := h
        unfold IntegerMap.fromVec at hm
        simp only [Res.bind_eq_ok, Res.pure_eq, Res.ok.injEq] at hm
        obtain ⟨_, _, t, ht, rfl⟩ := hm
        exact (ofIntEntries_perm hty hk (HashTable.new_perm ht)).1
  | string f g =>
    rw [hk] at h hl
    obtain ⟨h1, h2, h3⟩ := hl
    have hback : (payload.map (fun e => (f e.1, e.2))).map (fun e => (g e.1, e.2)) = payload := by
      rw [List.map_map]
      have : ((fun e : Bytes × V => (g e.1, e.2)) ∘ fun e : K × V => (f e.1, e.2)) = id := by
        funext e; simp [h1]
      rw [this, List.map_id]
    have hleft : ∀ {S : IdxTy} {i l : Nat} {m' : LeftSliceMap V},
        LeftSliceMap.fromVecWithHasher env S (payload.map (fun e => (f e.1, e.2))) i l bh = .ok m' →
        (ty.ofBEntries m'.table.entries).Perm payload := by
      intro S i l m' hm
      unfold LeftSliceMap.fromVecWithHasher at hm
      simp only [Res.bind_eq_ok, Res.pure_eq, Res.ok.injEq] at hm
      obtain ⟨_, _, _, _, t, ht, rfl⟩ := hm
      exact (ofBEntries_perm hty hk (HashTable.new_perm ht)).1
    have hright : ∀ {S : IdxTy} {i l : Nat} {m' : RightSliceMap V},
        RightSliceMap.fromVecWithHasher env S (payload.map (fun e => (f e.1, e.2))) i l bh = .ok m' →
        (ty.ofBEntries m'.table.entries).Perm payload := by
      intro S i l m' hm
      unfold RightSliceMap.fromVecWithHasher at hm
      simp only [Res.bind_eq_ok, Res.pure_eq, Res.ok.injEq] at hm
      obtain ⟨_, _, _, _, t, ht, rfl⟩ := hm
      exact (ofBEntries_perm hty hk (HashTable.new_perm ht)).1
    simp only [FrozenMap.newStringMap, hback, Res.bind_eq_ok] at h
    obtain ⟨v, _, h⟩ := h
    split at h <;> cases v <;> simp only [Res.bind_eq_ok, Res.pure_eq, Res.ok.injEq] at h <;>
      obtain ⟨m', hm, rfl⟩ := h <;>
      first
      | exact hcommon hm
      | exact hleft hm
      | exact hright hm
      | skip
    unfold LengthMap.fromVec at hm
    simp only [Res.bind_eq_ok, Res.pure_eq, Res.ok.injEq] at hm
    obtain ⟨_, _, t, ht, rfl⟩ := hm
    exact (ofBEntries_perm hty hk (HashTable.new_perm ht)).1
  | other =>
    rw [hk] at h
    simp only [FrozenMap.newCommonMap] at h
    split at h <;>
    · simp only [Res.bind_eq_ok, Res.pure_eq, Res.ok.injEq] at h
      obtain ⟨m', hm, rfl⟩ := h
      exact hcommon hm

end FC
