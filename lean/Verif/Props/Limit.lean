import Verif.Spec.Limit
import Verif.Props.SpecializedMaps
import Verif.Props.MapMutate
import Verif.Props.MapIter
import Verif.Props.History

/-
C68: maps of any number of entries. The counters that lay out a hash table are `i32`.
-/

set_option autoImplicit false

namespace FC
variable {K V Q : Type}

theorem HashTable.new_panics_only [Target] {env : Env} {S : IdxTy} {payload : List (K × V)} {n : Nat}
    {hash : K → Res Nat} (hn : payload ≠ [] → 0 < n) {h : K → Nat}
    (hh : ∀ e ∈ payload, hash e.1 = .ok (h e.1)) :
    (∃ t, HashTable.new env S payload n hash = .ok t) ∨
      (HashTable.new env S payload n hash = .panic ∧ TooMany S payload.length) := by
  by_cases hb : TooMany S payload.length
  · cases hx : HashTable.new env S payload n hash with
    | ok t => exact Or.inl ⟨t, rfl⟩
    | panic => exact Or.inr ⟨rfl, hb⟩
    | ub => exact absurd hx (HashTable.new_no_ub (fun e he => ⟨_, hh e he⟩))
  · by_cases hne : payload = []
    · subst hne; exact Or.inl ⟨_, rfl⟩
    · left
      have hpos := List.length_pos_iff.2 hne
      unfold TooMany at hb
      have hS : S.capacity = some (min S.max (2 ^ 31 - 1)) := by
        unfold IdxTy.capacity
        rw [if_pos (by omega)]
      obtain ⟨t, ht, _⟩ := HashTable.new_ok env hS (by omega) hn (h := h) hh
      exact ⟨t, ht⟩

/-- `RightUpTo32` with the entries written out. -/
def RightRaw (matching : Q → K → Bool) (payload : List (K × V)) (len : Nat)
    (entries : List (K × V)) (getKeyValue : Q → Res (Option (K × Ref V)))
    (get getMut : Q → Res (Option (Ref V))) (containsKey : Q → Res Bool) : Prop :=
  len = payload.length ∧ entries.Perm payload ∧ ∀ q, ∃ o, getKeyValue q = .ok o ∧
    get q = .ok (o.map (·.2)) ∧ getMut q = .ok (o.map (·.2)) ∧ containsKey q = .ok o.isSome ∧
    (∀ k r, o = some (k, r) → (k, r.val) ∈ payload ∧ matching q k = true) ∧
    (payload.length < 2 ^ 32 → Exact (matching q) payload o)

theorem RightRaw.shows {M : Type} {A : MapApi M K V Q} {m : M} {matching : Q → K → Bool}
    {payload es : List (K × V)} (h : RightRaw matching payload (A.len m) es (A.getKeyValue m) (A.get m)
      (A.getMut m) (A.containsKey m)) (hi : A.iter m = MapIter.new es) :
    RightUpTo32 A m matching payload :=
  ⟨h.1, ⟨es, h.2.1, fun n => by rw [hi]; exact (C13_iter true _ n).1⟩, h.2.2⟩

theorem mem_of_perm_getElem? {α : Type} {l l' : List α} (hp : l.Perm l') {i : Nat} {a : α}
    (h : l[i]? = some a) : a ∈ l' := hp.mem_iff.1 (List.mem_of_getElem? h)

theorem common_map_right [Target] (env : Env) (S : IdxTy) (P : Probe K Q) (enc : K → List HCall)
    (henc : ∀ k q, P.eq q (P.borrow k) = true → P.enc q = enc k) (payload : List (K × V))
    (bh : Hasher) :
    (∃ m, CommonMap.fromVecWithHasher env S enc payload bh = .ok m ∧
      RightRaw (fun q k => P.eq q (P.borrow k)) payload m.len m.table.entries (m.getKeyValue P)
        (m.get P) (m.getMut P) (m.containsKey P)) ∨
    (CommonMap.fromVecWithHasher env S enc payload bh = .panic ∧ TooMany S payload.length) := by
  obtain ⟨r, hr, hpos⟩ := analyze_total (payload.map (fun e => bh (enc e.1)))
  rcases HashTable.new_panics_only (env := env) (S := S) (payload := payload) (n := r.numHashSlots)
    (hash := fun k => .ok (bh (enc k))) (h := fun k => bh (enc k))
    (fun h => hpos (by simpa using h)) (fun _ _ => rfl)
    with ⟨t, ht⟩ | ⟨ht, hb⟩
  · have hm : CommonMap.fromVecWithHasher env S enc payload bh = .ok ⟨t, bh⟩ := by
      unfold CommonMap.fromVecWithHasher
      simp [hr, ht]
    have hp := HashTable.new_perm ht
    refine Or.inl ⟨_, hm, hp.length_eq, hp, fun q => ?_⟩
    obtain ⟨o, h1, h2, h3, h4, h5⟩ := CommonMap.safe_lookups env S enc payload bh _ hm bh P q
    refine ⟨o, h1, h2, h3, h4, fun k r ho => ⟨mem_of_perm_getElem? hp (h5 k r ho).1, (h5 k r ho).2⟩,
      fun h32 => ?_⟩
    obtain ⟨⟨o', k1, _, _, _, k5⟩, _⟩ := C30_common_map env S P enc henc payload bh _ hm h32 q
    rw [k1] at h1
    cases h1
    exact k5
  · refine Or.inr ⟨?_, hb⟩
    unfold CommonMap.fromVecWithHasher
    simp [hr, ht]

/-- `CommonMap` with any number of entries, any hasher and any index type. Missing from C68: that all
keys are found in a map of `2^32` entries or more, where it is false, and that construction succeeds
whenever the index type suffices, which is false from `2^31` entries on. -/
theorem C68_common_map_partial [Target] (env : Env) (S : IdxTy) (P : Probe K Q) (enc : K → List HCall)
    (henc : ∀ k q, P.eq q (P.borrow k) = true → P.enc q = enc k) (payload : List (K × V))
    (bh : Hasher) :
    (∃ m, CommonMap.fromVecWithHasher env S enc payload bh = .ok m ∧
      RightUpTo32 (commonApi P) m (fun q k => P.eq q (P.borrow k)) payload) ∨
    (CommonMap.fromVecWithHasher env S enc payload bh = .panic ∧ TooMany S payload.length) := by
  rcases common_map_right env S P enc henc payload bh with ⟨m, hm, h⟩ | h
  · exact Or.inl ⟨m, hm, h.shows rfl⟩
  · exact Or.inr h

example := C68_common_map_partial checkedEnv IdxTy.u8 otherTy.probe otherTy.enc exOther_enc exOther demoHasher

theorem length_map_right [Target] (env : Env) (S : IdxTy) (borrow : K → Q) (eq : Q → Q → Bool)
    (lenK : K → Nat) (lenQ : Q → Nat) (hlen : ∀ k q, eq q (borrow k) = true → lenQ q = lenK k)
    (payload : List (K × V)) :
    (∃ m, LengthMap.fromVec env S lenK payload = .ok m ∧
      RightRaw (fun q k => eq q (borrow k)) payload m.len m.table.entries
        (m.getKeyValue borrow eq lenQ) (m.get borrow eq lenQ) (m.getMut borrow eq lenQ)
        (m.containsKey borrow eq lenQ)) ∨
    (LengthMap.fromVec env S lenK payload = .panic ∧ TooMany S payload.length) := by
  obtain ⟨r, hr, hpos⟩ := analyze_total (payload.map (fun e => lenK e.1))
  rcases HashTable.new_panics_only (env := env) (S := S) (payload := payload) (n := r.numHashSlots)
    (hash := fun k => .ok (lenK k)) (h := fun k => lenK k)
    (fun h => hpos (by simpa using h)) (fun _ _ => rfl)
    with ⟨t, ht⟩ | ⟨ht, hb⟩
  · have hm : LengthMap.fromVec env S lenK payload = .ok ⟨t⟩ := by
      unfold LengthMap.fromVec
      simp [hr, ht]
    have hp := HashTable.new_perm ht
    refine Or.inl ⟨_, hm, hp.length_eq, hp, fun q => ?_⟩
    obtain ⟨o, h1, h2, h3, h4, h5⟩ := LengthMap.safe_lookups env S lenK payload _ hm borrow eq lenQ q
    refine ⟨o, h1, h2, h3, h4, fun k r ho => ⟨mem_of_perm_getElem? hp (h5 k r ho).1, (h5 k r ho).2⟩,
      fun h32 => ?_⟩
    obtain ⟨⟨o', k1, _, _, _, k5⟩, _⟩ :=
      C30_length_map env S borrow eq lenK lenQ hlen payload _ hm h32 q
    rw [k1] at h1
    cases h1
    exact k5
  · refine Or.inr ⟨?_, hb⟩
    unfold LengthMap.fromVec
    simp [hr, ht]

theorem C68_length_map_partial [Target] (env : Env) (S : IdxTy) (borrow : K → Q) (eq : Q → Q → Bool)
    (lenK : K → Nat) (lenQ : Q → Nat) (hlen : ∀ k q, eq q (borrow k) = true → lenQ q = lenK k)
    (payload : List (K × V)) :
    (∃ m, LengthMap.fromVec env S lenK payload = .ok m ∧
      RightUpTo32 (lengthApi borrow eq lenQ) m (fun q k => eq q (borrow k)) payload) ∨
    (LengthMap.fromVec env S lenK payload = .panic ∧ TooMany S payload.length) := by
  rcases length_map_right env S borrow eq lenK lenQ hlen payload with ⟨m, hm, h⟩ | h
  · exact Or.inl ⟨m, hm, h.shows rfl⟩
  · exact Or.inr h

example := C68_length_map_partial checkedEnv IdxTy.u8 id (fun a b : Bytes => decide (a = b)) List.length
  List.length exBytes_len exBytes

theorem integer_map_right [Target] (env : Env) (S : IdxTy) (payload : List (Int × V)) :
    (∃ m, IntegerMap.fromVec env S payload = .ok m ∧
      RightRaw (fun q k => decide (q = k)) payload m.len m.table.entries m.getKeyValue m.get
        m.getMut m.containsKey) ∨
    (IntegerMap.fromVec env S payload = .panic ∧ TooMany S payload.length) := by
  obtain ⟨r, hr, hpos⟩ := analyze_total (payload.map (fun e => asU64 e.1))
  rcases HashTable.new_panics_only (env := env) (S := S) (payload := payload) (n := r.numHashSlots)
    (hash := fun k => .ok (asU64 k)) (h := fun k => asU64 k)
    (fun h => hpos (by simpa using h)) (fun _ _ => rfl)
    with ⟨t, ht⟩ | ⟨ht, hb⟩
  · have hm : IntegerMap.fromVec env S payload = .ok ⟨t⟩ := by
      unfold IntegerMap.fromVec
      simp [hr, ht]
    have hp := HashTable.new_perm ht
    refine Or.inl ⟨_, hm, hp.length_eq, hp, fun q => ?_⟩
    obtain ⟨o, h1, h5⟩ := tableLookup_sound (HashTable.new_outcome ht).2.1 IntegerMap.ieq id (asU64 q) q
    have h1' : (IntegerMap.mk t).getKeyValue q = .ok o := h1
    have hg : (IntegerMap.mk t).get q = .ok (o.map (·.2)) := by
      rw [IntegerMap.get_eq_kv, h1']; rfl
    refine ⟨o, h1', hg, hg, by unfold IntegerMap.containsKey; rw [hg]; simp,
      fun k r ho => ⟨mem_of_perm_getElem? hp (h5 k r ho).1, (h5 k r ho).2⟩, fun h32 => ?_⟩
    obtain ⟨⟨o', k1, _, _, _, k5⟩, _⟩ := C30_integer_map env S payload _ hm h32 q
    rw [k1] at h1'
    cases h1'
    exact k5
  · refine Or.inr ⟨?_, hb⟩
    unfold IntegerMap.fromVec
    simp [hr, ht]

theorem C68_integer_map_partial [Target] (env : Env) (S : IdxTy) (payload : List (Int × V)) :
    (∃ m, IntegerMap.fromVec env S payload = .ok m ∧
      RightUpTo32 integerApi m (fun q k => decide (q = k)) payload) ∨
    (IntegerMap.fromVec env S payload = .panic ∧ TooMany S payload.length) := by
  rcases integer_map_right env S payload with ⟨m, hm, h⟩ | h
  · exact Or.inl ⟨m, hm, h.shows rfl⟩
  · exact Or.inr h

theorem left_slice_map_right [Target] (env : Env) (S : IdxTy) (payload : List (Bytes × V))
    (a b : Nat) (hab : a ≤ b) (hlong : ∀ e ∈ payload, b ≤ e.1.length) (bh : Hasher) :
    (∃ m, LeftSliceMap.fromVecWithHasher env S payload a b bh = .ok m ∧
      RightRaw (fun q k => decide (q = k)) payload m.len m.table.entries m.getKeyValue m.get
        m.getMut m.containsKey) ∨
    (LeftSliceMap.fromVecWithHasher env S payload a b bh = .panic ∧ TooMany S payload.length) := by
  have hcodes : ∀ e ∈ payload, LeftSliceMap.analysisCode bh a b e.1
      = .ok (bh [.write (sub e.1 a b)]) := by
    intro e he
    unfold LeftSliceMap.analysisCode
    rw [if_pos (hlong e he)]
    exact sliceHash_ok hab (hlong e he)
  have hcodes' := Res.mapList_ok (g := fun e : Bytes × V => bh [.write (sub e.1 a b)]) hcodes
  obtain ⟨r, hr, hpos⟩ := analyze_total (payload.map (fun e => bh [.write (sub e.1 a b)]))
  rcases HashTable.new_panics_only (env := env) (S := S) (payload := payload) (n := r.numHashSlots)
    (hash := fun k => sliceHash bh k a b) (h := fun k => bh [.write (sub k a b)])
    (fun h => hpos (by simpa using h)) (fun e he => sliceHash_ok hab (hlong e he))
    with ⟨t, ht⟩ | ⟨ht, hb⟩
  · have hm : LeftSliceMap.fromVecWithHasher env S payload a b bh = .ok ⟨t, bh, a, b⟩ := by
      unfold LeftSliceMap.fromVecWithHasher
      simp only [hcodes', Res.ok_bind, hr, ht]
      rfl
    have hp := HashTable.new_perm ht
    refine Or.inl ⟨_, hm, hp.length_eq, hp, fun q => ?_⟩
    obtain ⟨code, hcode⟩ : ∃ code, (LeftSliceMap.mk t bh a b).getHashInfo q = t.getHashInfo code := by
      unfold LeftSliceMap.getHashInfo
      by_cases hl : q.length ≥ b
      · simp only [if_pos hl, sliceHash_ok hab hl]
        exact ⟨_, rfl⟩
      · simp only [if_neg hl]
        exact ⟨_, rfl⟩
    obtain ⟨o, h1, h5⟩ := tableLookup_sound (HashTable.new_outcome ht).2.1 beq id code q
    have h1' : (LeftSliceMap.mk t bh a b).getKeyValue q = .ok o := by
      unfold LeftSliceMap.getKeyValue
      rw [hcode]
      exact h1
    have hg : (LeftSliceMap.mk t bh a b).get q = .ok (o.map (·.2)) := by
      rw [LeftSliceMap.get_eq_kv, h1']; rfl
    refine ⟨o, h1', hg, hg, by unfold LeftSliceMap.containsKey; rw [hg]; simp,
      fun k r ho => ⟨mem_of_perm_getElem? hp (h5 k r ho).1, (h5 k r ho).2⟩, fun h32 => ?_⟩
    have hkv := LeftSliceMap.getKV_eq (LeftSliceMap.built (fun _ => hab) hm h32).1 q
    rw [hkv] at h1'
    cases h1'
    exact exact_scan (eq := beq) hp
  · refine Or.inr ⟨?_, hb⟩
    unfold LeftSliceMap.fromVecWithHasher
    simp only [hcodes', Res.ok_bind, hr, ht]
    rfl

/-- Keys that reach the end of the hashed range; probes of any length. -/
theorem C68_left_slice_map_partial [Target] (env : Env) (S : IdxTy) (payload : List (Bytes × V))
    (a b : Nat) (hab : a ≤ b) (hlong : ∀ e ∈ payload, b ≤ e.1.length) (bh : Hasher) :
    (∃ m, LeftSliceMap.fromVecWithHasher env S payload a b bh = .ok m ∧
      RightUpTo32 leftApi m (fun q k => decide (q = k)) payload) ∨
    (LeftSliceMap.fromVecWithHasher env S payload a b bh = .panic ∧ TooMany S payload.length) := by
  rcases left_slice_map_right env S payload a b hab hlong bh with ⟨m, hm, h⟩ | h
  · exact Or.inl ⟨m, hm, h.shows rfl⟩
  · exact Or.inr h

example := C68_left_slice_map_partial checkedEnv IdxTy.u8 exBytes 1 2 (by decide) exBytes_long demoHasher

theorem frozen_map_right [Target] (env : Env) (ty : KeyTy K) (hk : ty.kind = .other)
    (hty : LawfulKey ty) (payload : List (K × V)) (bh : Hasher) :
    (∃ m, FrozenMap.new env ty payload bh = .ok m ∧
      RightRaw ty.eq payload m.len (m.entries ty) (m.getKeyValue env ty) (m.get env ty)
        (m.getMut env ty) (m.containsKey env ty)) ∨
    (FrozenMap.new env ty payload bh = .panic ∧ 2 ^ 31 ≤ payload.length) := by
  have hu := usz_ge
  unfold FrozenMap.new
  by_cases h4 : payload.length < 4
  · rw [if_pos h4]
    refine Or.inl ⟨_, rfl, rfl, .refl _, fun q => ?_⟩
    refine ⟨scan ty.eq id q 0 payload, rfl, rfl, rfl, ?_, ?_, fun _ => ?_⟩
    · simp only [FrozenMap.containsKey, FrozenMap.get, ScanningMap.get, ScanningMap.fromVec,
        KeyTy.probe, Res.map_ok]
      simp
    · intro s r hr
      obtain ⟨_, b, c, _⟩ := scan_some hr
      exact ⟨List.mem_of_getElem? (by simpa using b), c⟩
    · exact exact_scan (eq := ty.eq) (borrow := id) (.refl _)
  · rw [if_neg h4, hk]
    simp only [FrozenMap.newCommonMap]
    have hsmall := fun S => common_map_right env S ty.probe ty.enc
      (fun k q h => hty.hash q k h) payload bh
    by_cases h255 : payload.length ≤ 255
    · rw [if_pos h255]
      rcases hsmall IdxTy.u8 with ⟨m, hm, hr⟩ | ⟨_, hb⟩
      · exact Or.inl ⟨.commonSmall m, by rw [hm]; rfl, hr⟩
      · exfalso
        unfold TooMany at hb
        have : IdxTy.u8.max = 255 := rfl
        omega
    · rw [if_neg h255]
      rcases hsmall IdxTy.usize with ⟨m, hm, hr⟩ | ⟨hp, hb⟩
      · exact Or.inl ⟨.commonLarge m, by rw [hm]; rfl, hr⟩
      · refine Or.inr ⟨by rw [hp]; rfl, ?_⟩
        unfold TooMany at hb
        have : IdxTy.usize.max = usz - 1 := rfl
        omega

/-- `FrozenMap` with any number of entries, over a key type of the caller's own. -/
theorem C68_frozen_map_partial [Target] (env : Env) (ty : KeyTy K) (hk : ty.kind = .other)
    (hty : LawfulKey ty) (payload : List (K × V)) (bh : Hasher) :
    (∃ m, FrozenMap.new env ty payload bh = .ok m ∧
      RightUpTo32 (frozenApi env ty) m ty.eq payload) ∨
    (FrozenMap.new env ty payload bh = .panic ∧ 2 ^ 31 ≤ payload.length) := by
  rcases frozen_map_right env ty hk hty payload bh with ⟨m, hm, h⟩ | h
  · exact Or.inl ⟨m, hm, h.shows rfl⟩
  · exact Or.inr h

example := C68_frozen_map_partial checkedEnv otherTy rfl otherTy_lawful exOther demoHasher

/-- `TooMany` holds of no payload that the index type can number and an `i32` can count. -/
example : ¬ TooMany IdxTy.u8 255 ∧ TooMany IdxTy.u8 256 ∧ ¬ TooMany IdxTy.usize (2 ^ 31 - 1) ∧
    TooMany IdxTy.usize (2 ^ 31) ∧ TooMany IdxTy.u128 1 := by
  unfold TooMany
  decide +kernel

/-- The premises are met by a map of strings probed through their bytes. -/
example : ∀ k q, exProbe.eq q (exProbe.borrow k) = true → exProbe.enc q = stringTy.enc k := by
  intro k q h
  simp only [exProbe, decide_eq_true_eq] at h
  subst h
  rfl

/-! ### The counterexample -/

theorem fillLoop_one_slot [Target] {S : IdxTy} {stack : List (PrepItem K V)}
    (hslot : ∀ it ∈ stack, it.slot = 0) (hlen : stack.length = 4294967296) {slots : List Slot}
    (hs : 0 < slots.length) :
    fillLoop false S stack slots [] 0 = .ok (slots.set 0 ⟨0, 0⟩, stack.map PrepItem.entry) := by
  cases stack with
  | nil => simp at hlen
  | cons item stack =>
    obtain ⟨taken, rest, rfl, hr, _, hrest⟩ := runLoop_spec item.slot stack item [] 0
    have h0 : item.slot = 0 := hslot item (by simp)
    obtain rfl : rest = [] := by
      cases rest with
      | nil => rfl
      | cons x xs =>
        exact absurd (hslot x (by simp)) (h0 ▸ hrest x rfl)
    have h1 : IntTy.i32.arith false ((0 + (taken.length + 1) : Nat) : Int) = .ok 0 := by
      have : ((0 + (taken.length + 1) : Nat) : Int) = 4294967296 := by
        simp at hlen; omega
      rw [this]
      decide +kernel
    have h2 : S.ofI32 0 = .ok 0 := IdxTy.ofI32_ok (S := S) (n := 0) (Nat.zero_le _)
    have h4 : S.add false 0 0 = .ok 0 := by
      unfold IdxTy.add
      simp
    have h5 : IntTy.i32.arith false ((0 : Int) + 0) = .ok 0 := by decide +kernel
    rw [fillLoop_turn hr h1 h2 h2 h4 (h0 ▸ hs) h5, h0]
    simp [fillLoop]


theorem distinct_payload (n : Nat) : ∃ payload : List (Int × Nat), payload.length = n ∧
    DistinctKeys otherTy.eq payload := by
  refine ⟨(List.range n).map (fun i : Nat => ((i : Int), i)), by simp, ?_⟩
  unfold DistinctKeys
  rw [List.pairwise_map]
  refine List.nodup_range.imp ?_
  intro a b hab
  simpa [otherTy] using hab

/-- C68 is false: on a 64-bit target, in a build without overflow checks, a `FrozenMap` of `2^32`
distinct keys that all hash alike is built, has every entry, and finds none of them. -/
theorem C68_counterexample [Target] (h64 : 2 ^ 32 < usz) (env : Env) (hoc : env.oc = false) :
    ∃ (payload : List (Int × Nat)) (m : FrozenMap Int Nat), payload.length = 2 ^ 32 ∧
      DistinctKeys otherTy.eq payload ∧ FrozenMap.new env otherTy payload (fun _ => 0) = .ok m ∧
      m.len = 2 ^ 32 ∧ ∀ env' k, m.get env' otherTy k = .ok none := by
  have key : ∀ payload : List (Int × Nat), payload.length = 4294967296 →
      ∃ m, FrozenMap.new env otherTy payload (fun _ => 0) = .ok m ∧ m.len = 4294967296 ∧
        ∀ env' k, m.get env' otherTy k = .ok none := by
    intro payload hlen
    obtain ⟨r, hr, hpos⟩ := analyze_total (payload.map (fun _ => 0))
    have hne : payload ≠ [] := by rintro rfl; simp at hlen
    have hn : 0 < r.numHashSlots := hpos (by simpa using hne)
    have hprep : Res.mapList (prepItem r.numHashSlots (fun _ : Int => Res.ok 0)) payload
        = .ok (payload.map (fun e => ⟨0, e⟩)) := by
      refine Res.mapList_ok (fun e _ => ?_)
      unfold prepItem umod
      simp [show r.numHashSlots ≠ 0 by omega]
    have hfill := fillLoop_one_slot (S := IdxTy.usize)
      (stack := (env.srt.run PrepItem.slot
        (payload.map (fun e => (⟨0, e⟩ : PrepItem Int Nat)))).reverse)
      (slots := List.replicate r.numHashSlots ⟨0, 0⟩)
      (by
        intro it hit
        rw [List.mem_reverse, (env.srt.perm _ _).mem_iff, List.mem_map] at hit
        obtain ⟨e, _, rfl⟩ := hit
        rfl)
      (by rw [List.length_reverse, (env.srt.perm _ _).length_eq, List.length_map, hlen])
      (by simpa using hn)
    obtain ⟨t, ht, hslots⟩ : ∃ t, HashTable.new env IdxTy.usize payload r.numHashSlots
        (fun _ => .ok 0) = .ok t ∧ t.slots = (List.replicate r.numHashSlots ⟨0, 0⟩).set 0 ⟨0, 0⟩ := by
      unfold HashTable.new
      have he : payload.isEmpty = false := List.isEmpty_eq_false_iff.2 hne
      simp only [he, Bool.false_eq_true, if_false, IdxTy.maxUsize_usize, Res.unwrap, Res.ok_bind]
      rw [if_neg (by omega)]
      simp only [hprep, Res.ok_bind, hoc, hfill]
      rw [if_neg (by simp; omega)]
      exact ⟨_, rfl, rfl⟩
    have hm : CommonMap.fromVecWithHasher env IdxTy.usize otherTy.enc payload (fun _ => 0)
        = .ok ⟨t, fun _ => 0⟩ := by
      unfold CommonMap.fromVecWithHasher
      simp only [hr, ht, Res.ok_bind]
      rfl
    refine ⟨.commonLarge ⟨t, fun _ => 0⟩, ?_, ?_, fun env' k => ?_⟩
    · unfold FrozenMap.new
      rw [if_neg (by omega)]
      show FrozenMap.newCommonMap env otherTy.enc payload (fun _ => 0) = _
      unfold FrozenMap.newCommonMap
      rw [if_neg (by omega), hm]
      rfl
    · show t.entries.length = _
      rw [(HashTable.new_perm ht).length_eq, hlen]
    · have hS := (HashTable.new_outcome ht).2.1
      show CommonMap.get _ _ _ = _
      unfold CommonMap.get CommonMap.getHashInfo HashTable.getHashInfo
      have h0 : t.slots[0 % t.numSlots]? = some ⟨0, 0⟩ := by
        rw [Nat.zero_mod, hslots, List.getElem?_set_self (by simpa using hn)]
      simp only [h0, Res.ok_bind]
      simp [sliceUnchecked, scan]
  obtain ⟨payload, hlen, hd⟩ := distinct_payload 4294967296
  obtain ⟨m, h1, h2, h3⟩ := key payload hlen
  exact ⟨payload, m, hlen, hd, h1, h2, h3⟩

end FC
