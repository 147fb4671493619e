import Verif.Lemmas.History
import Verif.Props.Integers
import Verif.Props.SpecializedMaps

/-
C49, C50: every history of operations on a map gives what it gives on a plain dictionary.
C51: equality of maps after any histories.
-/

set_option autoImplicit false

namespace FC
variable {K V Q : Type}

/-! ### Every map type is a scan of its entries -/

theorem scanning_scanMap (P : Probe K Q) :
    ScanMap (scanningApi (V := V) P) P.eq P.borrow (fun _ => True) (·.entries) where
  kv _ _ _ := rfl
  get _ _ _ := rfl
  getMut _ _ := rfl
  contains _ _ := rfl
  index _ _ := rfl
  indexMut _ _ := rfl
  many _ _ := rfl
  len _ _ := rfl
  iter _ := rfl
  keys _ := rfl
  values _ := rfl
  inv_write _ _ _ _ := trivial
  ents_write _ _ _ := rfl

/-- The table of a map files every entry under hash function `h`. -/
def Filed (h : K → Nat) (t : HashTable K V) : Prop :=
  ∃ g, TableOK g t ∧ ∀ e ∈ t.entries, g e.1 = h e.1

theorem Filed.write {h : K → Nat} {t : HashTable K V} (ht : Filed h t) (i : Nat) (v : V) :
    Filed h { t with entries := setVal t.entries i v } := by
  obtain ⟨g, hg, he⟩ := ht
  exact ⟨g, hg.write i v, setVal_key_mem (P := fun k => g k = h k) he⟩

theorem Filed.lookup {h : K → Nat} {t : HashTable K V} (ht : Filed h t) {eq : Q → Q → Bool}
    {borrow : K → Q} {code : Nat} {q : Q} (hq : ∀ k, eq q (borrow k) = true → h k = code) :
    tableLookup eq borrow t code q = .ok (scan eq borrow q 0 t.entries) := by
  obtain ⟨g, hg, he⟩ := ht
  exact tableLookup_eq hg (fun e hm h1 => by rw [he e hm, hq _ h1])

theorem HashTable.new_filed [Target] {env : Env} {S : IdxTy} {payload : List (K × V)} {n : Nat}
    {hash : K → Res Nat} {h : K → Nat} {t : HashTable K V}
    (ht : HashTable.new env S payload n hash = .ok t) (h32 : payload.length < 2 ^ 32)
    (hh : ∀ e ∈ payload, hash e.1 = .ok (h e.1)) : Filed h t ∧ t.entries.Perm payload := by
  obtain ⟨hp, g, hg, hT, _⟩ := HashTable.new_inv ht h32
  refine ⟨⟨g, hT, fun e he => ?_⟩, hp⟩
  have he' := hp.mem_iff.1 he
  have := hg e he'
  rw [hh e he'] at this
  exact (Res.ok.inj this).symm

theorem common_scanMap (P : Probe K Q) (enc : K → List HCall)
    (henc : ∀ k q, P.eq q (P.borrow k) = true → P.enc q = enc k) :
    ScanMap (commonApi (V := V) P) P.eq P.borrow (fun m => Filed (fun k => m.bh (enc k)) m.table)
      (·.table.entries) where
  kv m q hm := by
    show m.getKeyValue P q = _
    rw [CommonMap.getKV_lookup]
    exact hm.lookup (fun k h => by rw [henc k q h])
  get m q hm := by
    show m.get P q = _
    rw [CommonMap.get_eq_kv, CommonMap.getKV_lookup, hm.lookup (fun k h => by rw [henc k q h])]
    rfl
  getMut _ _ := rfl
  contains _ _ := rfl
  index _ _ := rfl
  indexMut _ _ := rfl
  many _ _ := rfl
  len _ _ := rfl
  iter _ := rfl
  keys _ := rfl
  values _ := rfl
  inv_write m i v hm := hm.write i v
  ents_write _ _ _ := rfl

theorem integer_scanMap :
    ScanMap (integerApi (V := V)) IntegerMap.ieq id (fun m => Filed asU64 m.table)
      (·.table.entries) where
  kv m q hm := by
    show m.getKeyValue q = _
    rw [IntegerMap.getKV_lookup]
    exact hm.lookup (fun k h => by rw [of_decide_eq_true h]; rfl)
  get m q hm := by
    show m.get q = _
    rw [IntegerMap.get_eq_kv, IntegerMap.getKV_lookup,
      hm.lookup (fun k h => by rw [of_decide_eq_true h]; rfl)]
    rfl
  getMut _ _ := rfl
  contains _ _ := rfl
  index _ _ := rfl
  indexMut _ _ := rfl
  many _ _ := rfl
  len _ _ := rfl
  iter _ := rfl
  keys _ := rfl
  values _ := rfl
  inv_write m i v hm := hm.write i v
  ents_write _ _ _ := rfl

theorem length_scanMap (borrow : K → Q) (eq : Q → Q → Bool) (lenK : K → Nat) (lenQ : Q → Nat)
    (hlen : ∀ k q, eq q (borrow k) = true → lenQ q = lenK k) :
    ScanMap (lengthApi (V := V) borrow eq lenQ) eq borrow (fun m => Filed lenK m.table)
      (·.table.entries) where
  kv m q hm := by
    show m.getKeyValue borrow eq lenQ q = _
    rw [LengthMap.getKV_lookup]
    exact hm.lookup (fun k h => (hlen k q h).symm)
  get m q hm := by
    show m.get borrow eq lenQ q = _
    rw [LengthMap.get_eq_kv, LengthMap.getKV_lookup, hm.lookup (fun k h => (hlen k q h).symm)]
    rfl
  getMut _ _ := rfl
  contains _ _ := rfl
  index _ _ := rfl
  indexMut _ _ := rfl
  many _ _ := rfl
  len _ _ := rfl
  iter _ := rfl
  keys _ := rfl
  values _ := rfl
  inv_write m i v hm := hm.write i v
  ents_write _ _ _ := rfl

theorem LeftOK.write {m : LeftSliceMap V} (hm : LeftOK m) (i : Nat) (v : V) :
    LeftOK (m.write i v) :=
  ⟨hm.range, setVal_key_mem (P := fun k : Bytes => m.stop ≤ k.length) hm.long, hm.table.write i v⟩

theorem left_scanMap : ScanMap (leftApi (V := V)) beq id LeftOK (·.table.entries) where
  kv m q hm := LeftSliceMap.getKV_eq hm q
  get m q hm := by
    show m.get q = _
    rw [LeftSliceMap.get_eq_kv, LeftSliceMap.getKV_eq hm]
    rfl
  getMut _ _ := rfl
  contains _ _ := rfl
  index _ _ := rfl
  indexMut _ _ := rfl
  many _ _ := rfl
  len _ _ := rfl
  iter _ := rfl
  keys _ := rfl
  values _ := rfl
  inv_write m i v hm := hm.write i v
  ents_write _ _ _ := rfl

theorem RightOK.write {m : RightSliceMap V} (hm : RightOK m) (i : Nat) (v : V) :
    RightOK (m.write i v) :=
  ⟨hm.range, setVal_key_mem (P := fun k : Bytes => m.start ≤ k.length) hm.long, hm.table.write i v⟩

theorem right_scanMap [Target] (oc : Bool) :
    ScanMap (rightApi (V := V) oc) beq id RightOK (·.table.entries) where
  kv m q hm := RightSliceMap.getKV_eq hm q
  get m q hm := by
    show m.get oc q = _
    rw [RightSliceMap.get_eq_kv, RightSliceMap.getKV_eq hm]
    rfl
  getMut _ _ := rfl
  contains _ _ := rfl
  index _ _ := rfl
  indexMut _ _ := rfl
  many _ _ := rfl
  len _ _ := rfl
  iter _ := rfl
  keys _ := rfl
  values _ := rfl
  inv_write m i v hm := hm.write i v
  ents_write _ _ _ := rfl

theorem range_scanMap [Target] (oc : Bool) (t : IntTy) :
    ScanMap (rangeApi (V := V) oc t) IntegerMap.ieq id (RangeOK t) (·.entries) where
  kv m q hm := rangeKV_eq hm q
  get m q hm := by
    show m.get oc t q = _
    rw [rangeGet_eq_kv, rangeKV_eq hm]
    rfl
  getMut _ _ := rfl
  contains _ _ := rfl
  index _ _ := rfl
  indexMut _ _ := rfl
  many _ _ := rfl
  len _ _ := rfl
  iter _ := rfl
  keys _ := rfl
  values _ := rfl
  inv_write m i v hm := hm.write i v
  ents_write _ _ _ := rfl

theorem frozen_scanMap [Target] (env : Env) {ty : KeyTy K} (hty : LawfulKey ty) :
    ScanMap (frozenApi (V := V) env ty) ty.eq id (Good ty) (·.entries ty) where
  kv _ q hm := hm.getKeyValue hty env q
  get _ q hm := hm.get hty env q
  getMut m q := m.getMut_eq env ty q
  contains _ _ := rfl
  index _ _ := rfl
  indexMut _ _ := rfl
  many _ _ := rfl
  len _ hm := hm.len
  iter _ := rfl
  keys _ := rfl
  values _ := rfl
  inv_write _ i v hm := hm.write i v
  ents_write m i v := m.write_entries ty i v

/-! ### C49 -/

theorem ieq_lawful : LawfulEq IntegerMap.ieq := lawfulEq_decide
theorem beq_lawful : LawfulEq beq := lawfulEq_decide

theorem distinct_decide [DecidableEq K] {p : List (K × V)} (h : (p.map (·.1)).Nodup) :
    DistinctKeys (fun a b => decide (a = b)) p := by
  unfold DistinctKeys
  refine (List.pairwise_map.1 h).imp ?_
  intro a b hab
  simpa using hab

theorem C49_scanning_map (P : Probe K Q) (heq : LawfulEq P.eq) (payload : List (K × V))
    (hd : DistinctProbes P.eq P.borrow payload) :
    Refines (scanningApi P) P.eq P.borrow (ScanningMap.fromVec payload) payload :=
  (scanning_scanMap P).refines heq trivial (List.Perm.refl _) hd

example := C49_scanning_map otherTy.probe otherTy_lawful.eq exOther exOther_distinct

theorem CommonMap.filed [Target] {env : Env} {S : IdxTy} {enc : K → List HCall} {payload : List (K × V)}
    {bh : Hasher} {m : CommonMap K V}
    (hm : CommonMap.fromVecWithHasher env S enc payload bh = .ok m) (h32 : payload.length < 2 ^ 32) :
    Filed (fun k => m.bh (enc k)) m.table ∧ m.table.entries.Perm payload := by
  unfold CommonMap.fromVecWithHasher at hm
  simp only [Res.bind_eq_ok, Res.pure_eq, Res.ok.injEq] at hm
  obtain ⟨_, _, t, ht, rfl⟩ := hm
  exact HashTable.new_filed ht h32 (fun _ _ => rfl)

theorem C49_common_map [Target] (env : Env) (S : IdxTy) (P : Probe K Q) (heq : LawfulEq P.eq)
    (enc : K → List HCall) (henc : ∀ k q, P.eq q (P.borrow k) = true → P.enc q = enc k)
    (payload : List (K × V)) (hd : DistinctProbes P.eq P.borrow payload) (bh : Hasher)
    (m : CommonMap K V) (hm : CommonMap.fromVecWithHasher env S enc payload bh = .ok m) (h32 : payload.length < 2 ^ 32) :
    Refines (commonApi P) P.eq P.borrow m payload :=
  (common_scanMap P enc henc).refines heq (CommonMap.filed hm h32).1 (CommonMap.filed hm h32).2 hd

example := C49_common_map checkedEnv IdxTy.u8 otherTy.probe otherTy_lawful.eq otherTy.enc exOther_enc exOther
  exOther_distinct demoHasher exCommon exCommon_ok (by decide)

theorem IntegerMap.filed [Target] {env : Env} {S : IdxTy} {payload : List (Int × V)} {m : IntegerMap V}
    (hm : IntegerMap.fromVec env S payload = .ok m) (h32 : payload.length < 2 ^ 32) :
    Filed asU64 m.table ∧ m.table.entries.Perm payload := by
  unfold IntegerMap.fromVec at hm
  simp only [Res.bind_eq_ok, Res.pure_eq, Res.ok.injEq] at hm
  obtain ⟨_, _, t, ht, rfl⟩ := hm
  exact HashTable.new_filed ht h32 (fun _ _ => rfl)

theorem C49_integer_map [Target] (env : Env) (S : IdxTy) (payload : List (Int × V))
    (hd : (payload.map (·.1)).Nodup) (m : IntegerMap V)
    (hm : IntegerMap.fromVec env S payload = .ok m) (h32 : payload.length < 2 ^ 32) :
    Refines integerApi (fun a b => decide (a = b)) id m payload :=
  integer_scanMap.refines ieq_lawful (IntegerMap.filed hm h32).1 (IntegerMap.filed hm h32).2
    (distinct_decide hd)

example := C49_integer_map checkedEnv IdxTy.u8 exOther exOther_nodup exInteger exInteger_ok (by decide)

theorem LengthMap.filed [Target] {env : Env} {S : IdxTy} {lenK : K → Nat} {payload : List (K × V)}
    {m : LengthMap K V} (hm : LengthMap.fromVec env S lenK payload = .ok m) (h32 : payload.length < 2 ^ 32) :
    Filed lenK m.table ∧ m.table.entries.Perm payload := by
  unfold LengthMap.fromVec at hm
  simp only [Res.bind_eq_ok, Res.pure_eq, Res.ok.injEq] at hm
  obtain ⟨_, _, t, ht, rfl⟩ := hm
  exact HashTable.new_filed ht h32 (fun _ _ => rfl)

theorem C49_length_map [Target] (env : Env) (S : IdxTy) (borrow : K → Q) (eq : Q → Q → Bool)
    (heq : LawfulEq eq) (lenK : K → Nat) (lenQ : Q → Nat)
    (hlen : ∀ k q, eq q (borrow k) = true → lenQ q = lenK k) (payload : List (K × V))
    (hd : DistinctProbes eq borrow payload) (m : LengthMap K V)
    (hm : LengthMap.fromVec env S lenK payload = .ok m) (h32 : payload.length < 2 ^ 32) :
    Refines (lengthApi borrow eq lenQ) eq borrow m payload :=
  (length_scanMap borrow eq lenK lenQ hlen).refines heq (LengthMap.filed hm h32).1
    (LengthMap.filed hm h32).2 hd

example := C49_length_map checkedEnv IdxTy.u8 id _ lawfulEq_decide List.length List.length exBytes_len
  exBytes exBytes_distinct exLengths exLengths_ok (by decide)

theorem C49_left_slice_map [Target] (env : Env) (S : IdxTy) (payload : List (Bytes × V))
    (hd : (payload.map (·.1)).Nodup) (a b : Nat) (hab : payload = [] → a ≤ b) (bh : Hasher) (m : LeftSliceMap V)
    (hm : LeftSliceMap.fromVecWithHasher env S payload a b bh = .ok m) (h32 : payload.length < 2 ^ 32) :
    Refines leftApi (fun a b => decide (a = b)) id m payload :=
  left_scanMap.refines beq_lawful (LeftSliceMap.built hab hm h32).1 (LeftSliceMap.built hab hm h32).2
    (distinct_decide hd)

example := C49_left_slice_map checkedEnv IdxTy.u8 exBytes exBytes_nodup 1 2 (by decide) demoHasher
  exLeftSlice exLeftSlice_ok (by decide)

/-- Every right slice map that was built from something (C29 says which are), and the empty ones over a
range in descending order. -/
theorem C49_right_slice_map [Target] (env : Env) (S : IdxTy) (payload : List (Bytes × V))
    (hd : (payload.map (·.1)).Nodup) (a b : Nat) (hne : payload = [] → b ≤ a) (ha : a < usz) (hb : b < usz)
    (bh : Hasher) (m : RightSliceMap V)
    (hm : RightSliceMap.fromVecWithHasher env S payload a b bh = .ok m) (h32 : payload.length < 2 ^ 32) (oc : Bool) :
    Refines (rightApi oc) (fun a b => decide (a = b)) id m payload := by
  obtain ⟨_, _, h, hp⟩ := RightSliceMap.built hne ha hb hm h32
  exact (right_scanMap oc).refines beq_lawful h hp (distinct_decide hd)

example := C49_right_slice_map checkedEnv IdxTy.u8 exBytes exBytes_nodup 2 1 (by decide) (by decide)
  (by decide) demoHasher _
  (Res.built (r := RightSliceMap.fromVecWithHasher checkedEnv IdxTy.u8 exBytes 2 1 demoHasher)
    (by decide +kernel)) (by decide) true

/-- A non-empty range map; the empty one panics on some probes (C25). -/
theorem C49_range_map [Target] (oc oc' : Bool) (t : IntTy) (hb : 0 < t.bits) (payload : List (Int × V))
    (hne : payload ≠ []) (hr : ∀ e ∈ payload, t.InRange e.1) (hd : (payload.map (·.1)).Nodup)
    (m : IntegerRangeMap V) (hm : IntegerRangeMap.fromVec oc t payload = .ok m) :
    Refines (rangeApi oc' t) (fun a b => decide (a = b)) id m payload := by
  obtain ⟨h1, hp⟩ := rangeFromVec_rangeOK hb hne hr hd hm
  exact (range_scanMap oc' t).refines ieq_lawful h1 hp (distinct_decide hd)

example := C49_range_map true false IntTy.i8 (by decide) exInts (by decide) exInts_inRange exInts_nodup
  exIntRange exIntRange_ok

/-- A history with hits, misses, writes and a refused `get_many_mut`. -/
def exHistory : List (MapOp Nat Int) :=
  [.get 5, .getMut 70 9, .get 70, .getMut 6 1, .getManyMut [(5, 20), (-3, 21)], .getKeyValue 5,
    .getManyMut [(5, 0), (5, 1)], .getManyMut [(5, 0), (6, 1)], .containsKey 6, .indexMut 1000 50,
    .index 1000, .len]

/-- The implementation and the reference on that history (a concrete instance of the theorems). -/
example : (otherTy.probe.borrow = id) ∧ LawfulEq otherTy.eq ∧ (exOther.map (·.1)).Nodup ∧
    (do let m ← IntegerMap.fromVec checkedEnv IdxTy.u8 exOther
        return (← integerApi.run m exHistory).1) =
      .ok [.value (some 2), .value (some 3), .value (some 9), .value none, .many (some [2, 1]),
        .entry (some (5, 20)), .many none, .many none, .bool false, .value (some 5),
        .value (some 50), .number 5] ∧
    (do return (← Dict.run (fun a b => decide (a = b)) id exOther exHistory).1) =
      .ok [.value (some 2), .value (some 3), .value (some 9), .value none, .many (some [2, 1]),
        .entry (some (5, 20)), .many none, .many none, .bool false, .value (some 5),
        .value (some 50), .number 5] := by
  refine ⟨rfl, lawfulEq_decide, by decide +kernel, by decide +kernel, by decide +kernel⟩

/-- Indexing with an absent key panics on both sides. -/
example : (do let m ← IntegerMap.fromVec checkedEnv IdxTy.u8 exOther
              return (← integerApi.run m [.len, .index 6]).1) = .panic ∧
    (do return (← Dict.run (fun a b => decide (a = b)) id exOther [.len, .index 6]).1)
      = .panic := by
  refine ⟨by decide +kernel, by decide +kernel⟩

/-- Contiguous signed keys for a range map, and long enough keys for the slice maps. -/
example : (∀ e ∈ [((2 : Int), 'a'), (1, 'b'), (3, 'c')], IntTy.i8.InRange e.1) ∧
    ([((2 : Int), 'a'), (1, 'b'), (3, 'c')].map (·.1)).Nodup ∧
    (∃ m, IntegerRangeMap.fromVec true IntTy.i8 [((2 : Int), 'a'), (1, 'b'), (3, 'c')] = .ok m) ∧
    (∃ m, LeftSliceMap.fromVecWithHasher checkedEnv IdxTy.u8
      [(([1, 2, 3] : Bytes), 1), ([4, 5, 6], 2)] 1 3 demoHasher = .ok m) ∧
    ∃ m, LengthMap.fromVec checkedEnv IdxTy.u8 (fun k : RString => k.1.length) exLen = .ok m := by
  refine ⟨by decide, by decide, ⟨_, rfl⟩, Res.of_isOk (by decide +kernel),
    Res.of_isOk (by decide +kernel)⟩

/-! ### C50 -/

theorem C50_frozen_map [Target] (env env' : Env) (ty : KeyTy K) (hty : LawfulKey ty)
    (payload : List (K × V)) (hcap : payload.length < 2 ^ 32) (hd : DistinctKeys ty.eq payload)
    (bh : Hasher) (m : FrozenMap K V) (hm : FrozenMap.new env ty payload bh = .ok m) :
    Refines (frozenApi env' ty) ty.eq id m payload := by
  have hb := new_built env hty hcap hm
  exact (frozen_scanMap env' hty).refines hty.eq (hb.good (Or.inr hd)) hb.perm hd

example : ∃ m, FrozenMap.new checkedEnv u32Ty exRange demoHasher = .ok m ∧
    Refines (frozenApi releaseEnv u32Ty) u32Ty.eq id m exRange := by
  obtain ⟨m, hm⟩ := exRange_ok
  exact ⟨m, hm, C50_frozen_map checkedEnv releaseEnv u32Ty u32Ty_lawful exRange (by decide)
    exRange_distinct demoHasher m hm⟩

/-- A history on a range map, through the facade. -/
example : (do let m ← FrozenMap.new checkedEnv u32Ty exRange demoHasher
              return (← (frozenApi checkedEnv u32Ty).run m
                [.getMut 12 7, .get 12, .get 99, .getManyMut [(10, 1), (14, 2)], .index 14]).1) =
    .ok [.value (some 1), .value (some 7), .value none, .many (some [2, 5]), .value (some 2)] := by
  decide +kernel

/-! ### C51 -/

theorem C51_scanning_map (P : Probe K K) (hP : P.borrow = id) (heq : LawfulEq P.eq)
    (veq : V → V → Bool) (p₁ p₂ : List (K × V)) (hd₁ : DistinctKeys P.eq p₁)
    (hd₂ : DistinctKeys P.eq p₂) :
    EqRefines (scanningApi P) P.eq veq (ScanningMap.fromVec p₁) (ScanningMap.fromVec p₂) p₁ p₂ := by
  have := scanning_scanMap (V := V) P
  rw [hP] at this
  exact this.eqRefines heq veq trivial trivial (List.Perm.refl _) (List.Perm.refl _) hd₁ hd₂

example := C51_scanning_map otherTy.probe rfl otherTy_lawful.eq (· == ·) exOther [(5, 2), (6, 1)]
  exOther_distinct (by unfold DistinctKeys; decide +kernel)

/-- The two maps may have different hashers. -/
theorem C51_common_map [Target] (env : Env) (S : IdxTy) (P : Probe K K) (hP : P.borrow = id)
    (heq : LawfulEq P.eq) (henc : ∀ a b, P.eq a b = true → P.enc a = P.enc b)
    (veq : V → V → Bool) (p₁ p₂ : List (K × V)) (hd₁ : DistinctKeys P.eq p₁)
    (hd₂ : DistinctKeys P.eq p₂) (bh₁ bh₂ : Hasher) (m₁ m₂ : CommonMap K V)
    (hm₁ : CommonMap.fromVecWithHasher env S P.enc p₁ bh₁ = .ok m₁) (h32₁ : p₁.length < 2 ^ 32)
    (hm₂ : CommonMap.fromVecWithHasher env S P.enc p₂ bh₂ = .ok m₂) (h32₂ : p₂.length < 2 ^ 32) :
    EqRefines (commonApi P) P.eq veq m₁ m₂ p₁ p₂ := by
  have := common_scanMap (V := V) P P.enc (fun k q h => henc q k (by rw [hP] at h; exact h))
  rw [hP] at this
  exact this.eqRefines heq veq (CommonMap.filed hm₁ h32₁).1 (CommonMap.filed hm₂ h32₂).1
    (CommonMap.filed hm₁ h32₁).2 (CommonMap.filed hm₂ h32₂).2 hd₁ hd₂

example := C51_common_map checkedEnv IdxTy.u8 otherTy.probe rfl otherTy_lawful.eq otherTy_lawful.hash (· == ·)
  exOther exOther.reverse exOther_distinct (by unfold DistinctKeys; decide +kernel) demoHasher (fun _ => 3)
  exCommon _ exCommon_ok (by decide) (Res.built (r := CommonMap.fromVecWithHasher checkedEnv IdxTy.u8 otherTy.probe.enc exOther.reverse (fun _ => 3))
    (by decide +kernel)) (by decide)

theorem C51_integer_map [Target] (env : Env) (S : IdxTy) (veq : V → V → Bool) (p₁ p₂ : List (Int × V))
    (hd₁ : (p₁.map (·.1)).Nodup) (hd₂ : (p₂.map (·.1)).Nodup) (m₁ m₂ : IntegerMap V)
    (hm₁ : IntegerMap.fromVec env S p₁ = .ok m₁) (h32₁ : p₁.length < 2 ^ 32) (hm₂ : IntegerMap.fromVec env S p₂ = .ok m₂) (h32₂ : p₂.length < 2 ^ 32) :
    EqRefines integerApi (fun a b => decide (a = b)) veq m₁ m₂ p₁ p₂ :=
  integer_scanMap.eqRefines ieq_lawful veq (IntegerMap.filed hm₁ h32₁).1 (IntegerMap.filed hm₂ h32₂).1
    (IntegerMap.filed hm₁ h32₁).2 (IntegerMap.filed hm₂ h32₂).2 (distinct_decide hd₁) (distinct_decide hd₂)

example := C51_integer_map checkedEnv IdxTy.u8 (· == ·) exOther exInts exOther_nodup exInts_nodup exInteger _
  exInteger_ok (by decide) (Res.built (r := IntegerMap.fromVec checkedEnv IdxTy.u8 exInts)
    (by decide +kernel)) (by decide)

theorem C51_length_map [Target] (env : Env) (S : IdxTy) (eq : K → K → Bool) (heq : LawfulEq eq)
    (len : K → Nat) (hlen : ∀ a b, eq a b = true → len a = len b) (veq : V → V → Bool)
    (p₁ p₂ : List (K × V)) (hd₁ : DistinctKeys eq p₁) (hd₂ : DistinctKeys eq p₂)
    (m₁ m₂ : LengthMap K V) (hm₁ : LengthMap.fromVec env S len p₁ = .ok m₁) (h32₁ : p₁.length < 2 ^ 32)
    (hm₂ : LengthMap.fromVec env S len p₂ = .ok m₂) (h32₂ : p₂.length < 2 ^ 32) :
    EqRefines (lengthApi id eq len) eq veq m₁ m₂ p₁ p₂ :=
  (length_scanMap id eq len len (fun k q h => hlen q k h)).eqRefines heq veq
    (LengthMap.filed hm₁ h32₁).1 (LengthMap.filed hm₂ h32₂).1 (LengthMap.filed hm₁ h32₁).2
    (LengthMap.filed hm₂ h32₂).2 hd₁ hd₂

example := C51_length_map checkedEnv IdxTy.u8 _ lawfulEq_decide List.length (fun a b h => exBytes_len b a h)
  (· == ·) exBytes exBytes.reverse exBytes_distinct (by unfold DistinctKeys; decide +kernel) exLengths _
  exLengths_ok (by decide) (Res.built (r := LengthMap.fromVec checkedEnv IdxTy.u8 List.length exBytes.reverse)
    (by decide +kernel)) (by decide)

/-- The two maps may have different hashers and different ranges. -/
theorem C51_left_slice_map [Target] (env : Env) (S : IdxTy) (veq : V → V → Bool) (p₁ p₂ : List (Bytes × V))
    (hd₁ : (p₁.map (·.1)).Nodup) (hd₂ : (p₂.map (·.1)).Nodup) (a₁ b₁ a₂ b₂ : Nat)
    (h₁ : p₁ = [] → a₁ ≤ b₁) (h₂ : p₂ = [] → a₂ ≤ b₂) (bh₁ bh₂ : Hasher) (m₁ m₂ : LeftSliceMap V)
    (hm₁ : LeftSliceMap.fromVecWithHasher env S p₁ a₁ b₁ bh₁ = .ok m₁) (h32₁ : p₁.length < 2 ^ 32)
    (hm₂ : LeftSliceMap.fromVecWithHasher env S p₂ a₂ b₂ bh₂ = .ok m₂) (h32₂ : p₂.length < 2 ^ 32) :
    EqRefines leftApi (fun a b => decide (a = b)) veq m₁ m₂ p₁ p₂ :=
  left_scanMap.eqRefines beq_lawful veq (LeftSliceMap.built h₁ hm₁ h32₁).1 (LeftSliceMap.built h₂ hm₂ h32₂).1
    (LeftSliceMap.built h₁ hm₁ h32₁).2 (LeftSliceMap.built h₂ hm₂ h32₂).2 (distinct_decide hd₁)
    (distinct_decide hd₂)

example := C51_left_slice_map checkedEnv IdxTy.u8 (· == ·) exBytes exBytes exBytes_nodup exBytes_nodup 1 2 0 1
  (by decide) (by decide) demoHasher (fun _ => 3) exLeftSlice _ exLeftSlice_ok (by decide)
  (Res.built (r := LeftSliceMap.fromVecWithHasher checkedEnv IdxTy.u8 exBytes 0 1 (fun _ => 3))
    (by decide +kernel)) (by decide)

/-- Built from something, as in C49. The two maps may have different hashers and ranges. -/
theorem C51_right_slice_map [Target] (env : Env) (S : IdxTy) (oc : Bool) (veq : V → V → Bool)
    (p₁ p₂ : List (Bytes × V)) (hd₁ : (p₁.map (·.1)).Nodup)
    (hd₂ : (p₂.map (·.1)).Nodup) (a₁ b₁ a₂ b₂ : Nat) (hne₁ : p₁ = [] → b₁ ≤ a₁) (hne₂ : p₂ = [] → b₂ ≤ a₂)
    (ha₁ : a₁ < usz) (hb₁ : b₁ < usz)
    (ha₂ : a₂ < usz) (hb₂ : b₂ < usz) (bh₁ bh₂ : Hasher) (m₁ m₂ : RightSliceMap V)
    (hm₁ : RightSliceMap.fromVecWithHasher env S p₁ a₁ b₁ bh₁ = .ok m₁) (h32₁ : p₁.length < 2 ^ 32)
    (hm₂ : RightSliceMap.fromVecWithHasher env S p₂ a₂ b₂ bh₂ = .ok m₂) (h32₂ : p₂.length < 2 ^ 32) :
    EqRefines (rightApi oc) (fun a b => decide (a = b)) veq m₁ m₂ p₁ p₂ := by
  obtain ⟨_, _, i₁, q₁⟩ := RightSliceMap.built hne₁ ha₁ hb₁ hm₁ h32₁
  obtain ⟨_, _, i₂, q₂⟩ := RightSliceMap.built hne₂ ha₂ hb₂ hm₂ h32₂
  exact (right_scanMap oc).eqRefines beq_lawful veq i₁ i₂ q₁ q₂ (distinct_decide hd₁)
    (distinct_decide hd₂)

example := C51_right_slice_map checkedEnv IdxTy.u8 true (· == ·) exBytes exBytes exBytes_nodup exBytes_nodup
  2 1 2 2 (by decide) (by decide) (by decide) (by decide) (by decide) (by decide)
  demoHasher (fun _ => 3) _ _
  (Res.built (r := RightSliceMap.fromVecWithHasher checkedEnv IdxTy.u8 exBytes 2 1 demoHasher)
    (by decide +kernel)) (by decide)
  (Res.built (r := RightSliceMap.fromVecWithHasher checkedEnv IdxTy.u8 exBytes 2 2 (fun _ => 3))
    (by decide +kernel)) (by decide)

/-- An empty range map, although it panics on some probes (C25), compares without panic, from either
side and with any range map: it equals the empty ones. -/
theorem C51_empty_range_map [Target] (oc oc' : Bool) (t : IntTy) (veq : V → V → Bool)
    (m other : IntegerRangeMap V) (hm : IntegerRangeMap.fromVec oc t [] = .ok m) :
    (rangeApi oc' t).partialEq veq m other = .ok (decide (other.len = 0)) ∧
      (rangeApi oc' t).partialEq veq other m = .ok (decide (other.len = 0)) := by
  have he : m.entries = [] := by
    cases hm
    rfl
  have hlen : ∀ x : IntegerRangeMap V, (rangeApi oc' t).len x = x.entries.length := fun _ => rfl
  have hit : ∀ x : IntegerRangeMap V, ((rangeApi oc' t).iter x).entries = x.entries := fun _ => rfl
  unfold MapApi.partialEq mapEq
  rw [hlen, hlen, hit, hit, he]
  unfold IntegerRangeMap.len
  cases h : other.entries <;> simp [Res.allList]

example := C51_empty_range_map true false IntTy.i8 (· == ·) _ exIntRange (Res.built (by decide +kernel))

/-- The same for empty slice maps, over whatever range. -/
theorem C51_empty_left_slice_map [Target] (env : Env) (S : IdxTy) (veq : V → V → Bool) (a b : Nat)
    (bh : Hasher) (m other : LeftSliceMap V)
    (hm : LeftSliceMap.fromVecWithHasher env S [] a b bh = .ok m) :
    leftApi.partialEq veq m other = .ok (decide (other.len = 0)) ∧
      leftApi.partialEq veq other m = .ok (decide (other.len = 0)) := by
  have he : m.table.entries = [] := by
    unfold LeftSliceMap.fromVecWithHasher at hm
    simp only [Res.bind_eq_ok, Res.pure_eq, Res.ok.injEq] at hm
    obtain ⟨_, _, _, _, t, ht, rfl⟩ := hm
    exact (HashTable.new_inv ht (by simp)).1.eq_nil
  have hlen : ∀ x : LeftSliceMap V, leftApi.len x = x.table.entries.length := fun _ => rfl
  have hit : ∀ x : LeftSliceMap V, (leftApi.iter x).entries = x.table.entries := fun _ => rfl
  have hx : other.len = other.table.entries.length := rfl
  unfold MapApi.partialEq mapEq
  rw [hlen, hlen, hit, hit, he, hx]
  cases h : other.table.entries <;> simp [Res.allList]

theorem C51_empty_right_slice_map [Target] (env : Env) (S : IdxTy) (oc : Bool) (veq : V → V → Bool)
    (a b : Nat) (bh : Hasher) (m other : RightSliceMap V)
    (hm : RightSliceMap.fromVecWithHasher env S [] a b bh = .ok m) :
    (rightApi oc).partialEq veq m other = .ok (decide (other.len = 0)) ∧
      (rightApi oc).partialEq veq other m = .ok (decide (other.len = 0)) := by
  have he : m.table.entries = [] := by
    unfold RightSliceMap.fromVecWithHasher at hm
    simp only [Res.bind_eq_ok, Res.pure_eq, Res.ok.injEq] at hm
    obtain ⟨_, _, _, _, t, ht, rfl⟩ := hm
    exact (HashTable.new_inv ht (by simp)).1.eq_nil
  have hlen : ∀ x : RightSliceMap V, (rightApi oc).len x = x.table.entries.length := fun _ => rfl
  have hit : ∀ x : RightSliceMap V, ((rightApi oc).iter x).entries = x.table.entries := fun _ => rfl
  have hx : other.len = other.table.entries.length := rfl
  unfold MapApi.partialEq mapEq
  rw [hlen, hlen, hit, hit, he, hx]
  cases h : other.table.entries <;> simp [Res.allList]

example := C51_empty_left_slice_map checkedEnv IdxTy.u8 (· == ·) 3 1 demoHasher _ exLeftSlice
  (Res.built (by decide +kernel))

example (other : RightSliceMap Nat) := C51_empty_right_slice_map checkedEnv IdxTy.u8 true (· == ·) 1 3
  demoHasher _ other
  (Res.built (r := RightSliceMap.fromVecWithHasher checkedEnv IdxTy.u8 [] 1 3 demoHasher)
    (by decide +kernel))

theorem C51_range_map [Target] (oc : Bool) (t : IntTy) (hb : 0 < t.bits) (veq : V → V → Bool)
    (p₁ p₂ : List (Int × V)) (hne₁ : p₁ ≠ []) (hne₂ : p₂ ≠ []) (hr₁ : ∀ e ∈ p₁, t.InRange e.1)
    (hr₂ : ∀ e ∈ p₂, t.InRange e.1) (hd₁ : (p₁.map (·.1)).Nodup) (hd₂ : (p₂.map (·.1)).Nodup)
    (m₁ m₂ : IntegerRangeMap V) (hm₁ : IntegerRangeMap.fromVec oc t p₁ = .ok m₁)
    (hm₂ : IntegerRangeMap.fromVec oc t p₂ = .ok m₂) :
    EqRefines (rangeApi oc t) (fun a b => decide (a = b)) veq m₁ m₂ p₁ p₂ := by
  obtain ⟨h1, hp1⟩ := rangeFromVec_rangeOK hb hne₁ hr₁ hd₁ hm₁
  obtain ⟨h2, hp2⟩ := rangeFromVec_rangeOK hb hne₂ hr₂ hd₂ hm₂
  exact (range_scanMap oc t).eqRefines ieq_lawful veq h1 h2 hp1 hp2 (distinct_decide hd₁)
    (distinct_decide hd₂)

example := C51_range_map true IntTy.i8 (by decide) (· == ·) exInts exInts.reverse (by decide) (by decide)
  exInts_inRange (by decide +kernel) exInts_nodup (by decide +kernel) exIntRange _ exIntRange_ok
  (Res.built (r := IntegerRangeMap.fromVec true IntTy.i8 exInts.reverse)
    (by decide +kernel))

theorem C51_frozen_map [Target] (env : Env) (ty : KeyTy K) (hty : LawfulKey ty) (veq : V → V → Bool)
    (p₁ p₂ : List (K × V)) (hc₁ : p₁.length < 2 ^ 32) (hc₂ : p₂.length < 2 ^ 32)
    (hd₁ : DistinctKeys ty.eq p₁) (hd₂ : DistinctKeys ty.eq p₂) (bh₁ bh₂ : Hasher)
    (m₁ m₂ : FrozenMap K V) (hm₁ : FrozenMap.new env ty p₁ bh₁ = .ok m₁)
    (hm₂ : FrozenMap.new env ty p₂ bh₂ = .ok m₂) :
    EqRefines (frozenApi env ty) ty.eq veq m₁ m₂ p₁ p₂ := by
  have hb₁ := new_built env hty hc₁ hm₁
  have hb₂ := new_built env hty hc₂ hm₂
  exact (frozen_scanMap env hty).eqRefines hty.eq veq (hb₁.good (Or.inr hd₁))
    (hb₂.good (Or.inr hd₂)) hb₁.perm hb₂.perm hd₁ hd₂

example := C51_frozen_map checkedEnv u32Ty u32Ty_lawful (· == ·) exU32 exRange (by decide) (by decide)
  exU32_distinct exRange_distinct demoHasher (fun _ => 3) _ _
  (Res.built (r := FrozenMap.new checkedEnv u32Ty exU32 demoHasher) (by decide +kernel))
  (Res.built (r := FrozenMap.new checkedEnv u32Ty exRange (fun _ => 3)) (by decide +kernel))

/-- Two maps made equal by a write, although built from different payloads with different hashers. -/
example : (do let m₁ ← FrozenMap.new checkedEnv otherTy exOther demoHasher
              let m₂ ← FrozenMap.new checkedEnv otherTy ((5, 9) :: exOther.eraseIdx 1) (fun _ => 3)
              let r₂ ← (frozenApi checkedEnv otherTy).run m₂ [.getMut 5 2]
              let b₁ ← (frozenApi checkedEnv otherTy).partialEq (fun a b => a == b) m₁ m₂
              let b₂ ← (frozenApi checkedEnv otherTy).partialEq (fun a b => a == b) m₁ r₂.2
              return (b₁, b₂)) = .ok (false, true) := by
  decide +kernel

end FC
