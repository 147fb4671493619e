import Verif.Spec.Sets
import Verif.Examples
import Verif.Lemmas.SetConsistent
import Verif.Props.SetOps

/-
C31, C36, C47, and the set parts of C16 and C37.
-/

set_option autoImplicit false

namespace FC
variable {T : Type}

/-! ### C31 -/

/-- `contains(x)` returns, and is true exactly when some payload value equals `x`. -/
theorem C31_contains [Target] (env : Env) (ty : KeyTy T) (hty : LawfulKey ty) (payload : List T)
    (hcap : payload.length < 2 ^ 32) (hd : Distinct ty.eq payload) (env₁ : Env) (bh : Hasher)
    (s : FrozenSet T) (hs : FrozenSet.new env₁ ty payload bh = .ok s) (x : T) :
    ∃ b, s.contains env ty x = .ok b ∧ (b = true ↔ Has ty.eq payload x) := by
  obtain ⟨ha, hp⟩ := FrozenSet.answers env hty hcap hs (Or.inr hd)
  obtain ⟨b, h1, h2⟩ := ha.contains x
  exact ⟨b, h1, h2.trans (has_perm hp x)⟩

example := C31_contains releaseEnv u32Ty u32Ty_lawful exSetKeys (by decide) (by unfold Distinct; decide +kernel) checkedEnv
  demoHasher _ exFrozenSet_ok

/-- `get(x)` returns the stored value equal to `x`, and `None` exactly when there is none. -/
theorem C31_get [Target] (env : Env) (ty : KeyTy T) (hty : LawfulKey ty) (payload : List T)
    (hcap : payload.length < 2 ^ 32) (hd : Distinct ty.eq payload) (env₁ : Env) (bh : Hasher)
    (s : FrozenSet T) (hs : FrozenSet.new env₁ ty payload bh = .ok s) (x : T) :
    ∃ o, s.get env ty x = .ok o ∧ (o.isSome = true ↔ Has ty.eq payload x) ∧
      ∀ y, o = some y → y ∈ payload ∧ ty.eq x y = true := by
  have hb := new_built env₁ hty (payload := unitPayload payload)
    (by rw [unitPayload_length]; exact hcap) (FrozenSet.new_ok hs)
  have hg : Good ty s.toMap := hb.good (Or.inr (distinctKeys_unit.2 hd))
  have hp := unit_perm hb.perm
  rw [FrozenSet.get_toMap, hg.getKeyValue hty]
  refine ⟨_, rfl, ?_, ?_⟩
  · rw [Option.isSome_map, scan_isSome]
    exact has_perm hp x
  · intro y hy
    rw [Option.map_eq_some_iff] at hy
    obtain ⟨⟨k, r⟩, h1, rfl⟩ := hy
    obtain ⟨_, h2, h3, _⟩ := scan_some h1
    refine ⟨?_, h3⟩
    rw [← hp.mem_iff]
    exact List.mem_map.2 ⟨(k, r.val), List.mem_of_getElem? h2, rfl⟩

example := C31_get releaseEnv u32Ty u32Ty_lawful exSetKeys (by decide) (by unfold Distinct; decide +kernel) checkedEnv
  demoHasher _ exFrozenSet_ok

/-- `len` and `is_empty` report the payload size, repeats included. -/
theorem C31_len [Target] (ty : KeyTy T) (hty : LawfulKey ty) (payload : List T)
    (env₁ : Env) (bh : Hasher)
    (s : FrozenSet T) (hs : FrozenSet.new env₁ ty payload bh = .ok s) :
    s.len = payload.length ∧ (s.isEmpty = true ↔ payload = []) := by
  have : s.len = payload.length := by
    rw [FrozenSet.len_toMap, (Reachable.new (FrozenSet.new_ok hs)).len hty, unitPayload_length]
  refine ⟨this, ?_⟩
  simp [FrozenSet.isEmpty, this]

example := C31_len u32Ty u32Ty_lawful exSetKeys checkedEnv demoHasher _ exFrozenSet_ok

/-- A contiguous `u32` set, a `String` set and a general set meet the hypotheses. -/
example : (∃ s, FrozenSet.new checkedEnv u32Ty (exRange.map (·.1)) demoHasher = .ok s) ∧
    Distinct u32Ty.eq (exRange.map (·.1)) ∧
    (∃ s, FrozenSet.new checkedEnv stringTy (exLeft.map (·.1)) demoHasher = .ok s) ∧
    Distinct stringTy.eq (exLeft.map (·.1)) ∧
    (∃ s, FrozenSet.new checkedEnv otherTy (exOther.map (·.1)) demoHasher = .ok s) ∧
    Distinct otherTy.eq (exOther.map (·.1)) := by
  unfold Distinct
  refine ⟨Res.of_isOk (by decide +kernel), by decide +kernel, Res.of_isOk (by decide +kernel),
    by decide +kernel, Res.of_isOk (by decide +kernel), by decide +kernel⟩

/-! ### C47 -/

theorem presents {eq : T → T → Bool} (heq : LawfulEq eq) {s : SetI T} {payload : List T}
    (hd : Distinct eq payload) (h : Answers eq s ∧ s.iter.Perm payload) : Presents eq s payload :=
  ⟨h.1.consistent (Distinct.perm heq h.2.symm hd), h.2⟩

theorem C47_frozen_set [Target] (env : Env) (ty : KeyTy T) (hty : LawfulKey ty) (payload : List T)
    (hcap : payload.length < 2 ^ 32) (hd : Distinct ty.eq payload) (env₁ : Env) (bh : Hasher)
    (s : FrozenSet T) (hs : FrozenSet.new env₁ ty payload bh = .ok s) :
    Presents ty.eq (s.toSetI env ty) payload :=
  presents hty.eq hd (FrozenSet.answers env hty hcap hs (Or.inr hd))

example := C47_frozen_set releaseEnv u32Ty u32Ty_lawful exSetKeys (by decide) (by unfold Distinct; decide +kernel) checkedEnv
  demoHasher _ exFrozenSet_ok

theorem C47_scanning_set (eq : T → T → Bool) (heq : LawfulEq eq) (enc : T → List HCall)
    (payload : List T) (hd : Distinct eq payload) :
    Presents eq ((ScanningSet.fromVec payload).toSetI ⟨id, eq, enc⟩) payload := by
  have hi : ((ScanningSet.fromVec payload).toSetI ⟨id, eq, enc⟩).iter
      = (unitPayload payload).map (·.1) := items_new _
  refine presents heq hd ⟨answers_of_scan (es := unitPayload payload) (fun x => ?_) hi rfl, ?_⟩
  · exact keyOf_isSome (.ok (scan eq id x 0 (unitPayload payload)))
  · rw [hi, unitPayload_keys]

example := C47_scanning_set (fun a b : Int => decide (a = b)) lawfulEq_decide otherTy.enc exElems
  (by unfold Distinct; decide +kernel)

theorem C47_common_set [Target] (env : Env) (S : IdxTy) (cap : Nat) (hS : S.capacity = some cap)
    (eq : T → T → Bool) (heq : LawfulEq eq) (enc : T → List HCall)
    (henc : ∀ a b, eq a b = true → enc a = enc b) (payload : List T)
    (hcap : payload.length ≤ cap) (hd : Distinct eq payload) (bh : Hasher) :
    ∃ s, CommonSet.fromVecWithHasher env S enc payload bh = .ok s ∧
      Presents eq (s.toSetI ⟨id, eq, enc⟩) payload := by
  obtain ⟨m, h1, h2, h3, h4, _⟩ := CommonMap.fromVec_ok env hS enc (payload := unitPayload payload)
    (by rw [unitPayload_length]; exact hcap) bh
  have hi : ((CommonSet.mk m).toSetI ⟨id, eq, enc⟩).iter = m.table.entries.map (·.1) := items_new _
  refine ⟨⟨m⟩, by unfold CommonSet.fromVecWithHasher; rw [h1]; rfl, presents heq hd
    ⟨answers_of_scan (es := m.table.entries) (fun x => ?_) hi rfl, by rw [hi]; exact unit_perm h4⟩⟩
  have := CommonMap.getKV_eq (ty := ⟨eq, enc, .other⟩) ⟨heq, henc, trivial⟩ (m := m)
    (by rw [h3]; exact h2) x
  rw [← this]
  exact keyOf_isSome _

example := C47_common_set checkedEnv IdxTy.u8 255 (by decide) otherTy.eq otherTy_lawful.eq otherTy.enc otherTy_lawful.hash
  exElems (by decide) (by unfold Distinct; decide +kernel) demoHasher

theorem C47_integer_set [Target] (env : Env) (S : IdxTy) (cap : Nat) (hS : S.capacity = some cap)
    (payload : List Int) (hcap : payload.length ≤ cap) (hd : payload.Nodup) :
    ∃ s, IntegerSet.fromVec env S payload = .ok s ∧
      Presents (fun a b => decide (a = b)) s.toSetI payload := by
  obtain ⟨m, h1, h2, h4, _⟩ := IntegerMap.fromVec_ok env hS (payload := unitPayload payload)
    (by rw [unitPayload_length]; exact hcap)
  have hi : (IntegerSet.mk m).toSetI.iter = m.table.entries.map (·.1) := items_new _
  refine ⟨⟨m⟩, by unfold IntegerSet.fromVec; rw [h1]; rfl, presents lawfulEq_decide
    (by simpa [Distinct, List.Nodup] using hd)
    ⟨answers_of_scan (es := m.table.entries) (fun x => ?_) hi rfl, by rw [hi]; exact unit_perm h4⟩⟩
  rw [show (Res.ok (scan (fun a b : Int => decide (a = b)) id x 0 m.table.entries))
    = m.getKeyValue x from (IntegerMap.getKV_eq h2 x).symm]
  exact keyOf_isSome _

example := C47_integer_set checkedEnv IdxTy.u8 255 (by decide) exElems (by decide) (by decide +kernel)

theorem C47_length_set [Target] (env : Env) (S : IdxTy) (cap : Nat) (hS : S.capacity = some cap)
    (eq : T → T → Bool) (heq : LawfulEq eq) (lenT : T → Nat)
    (hlen : ∀ a b, eq a b = true → lenT a = lenT b) (payload : List T)
    (hcap : payload.length ≤ cap) (hd : Distinct eq payload) :
    ∃ s, LengthSet.fromVec env S lenT payload = .ok s ∧
      Presents eq (s.toSetI eq lenT) payload := by
  obtain ⟨m, h1, h2, h4, _⟩ := LengthMap.fromVec_ok env hS lenT (payload := unitPayload payload)
    (by rw [unitPayload_length]; exact hcap)
  have hi : ((LengthSet.mk m).toSetI eq lenT).iter = m.table.entries.map (·.1) := items_new _
  refine ⟨⟨m⟩, by unfold LengthSet.fromVec; rw [h1]; rfl, presents heq hd
    ⟨answers_of_scan (es := m.table.entries) (fun x => ?_) hi rfl, by rw [hi]; exact unit_perm h4⟩⟩
  have := tableLookup_eq h2 (eq := eq) (borrow := id) (code := lenT x) (q := x)
    (fun e _ h => (hlen _ _ h).symm)
  rw [← this, ← LengthMap.getKV_lookup]
  exact keyOf_isSome _

example := C47_length_set checkedEnv IdxTy.u8 255 (by decide) (fun a b : Bytes => decide (a = b)) lawfulEq_decide List.length
  (fun _ _ h => congrArg List.length (of_decide_eq_true h)) exStrings (by decide) (by unfold Distinct; decide +kernel)

theorem C47_left_slice_set [Target] (env : Env) (S : IdxTy) (cap : Nat) (hS : S.capacity = some cap)
    (payload : List Bytes) (hcap : payload.length ≤ cap) (hd : payload.Nodup) (a b : Nat)
    (hab : a ≤ b) (hlong : ∀ k ∈ payload, b ≤ k.length) (bh : Hasher) :
    ∃ s, LeftSliceSet.fromVecWithHasher env S payload a b bh = .ok s ∧
      Presents (fun a b => decide (a = b)) s.toSetI payload := by
  obtain ⟨m, h1, h2, _, _, _, h4, _⟩ := LeftSliceMap.fromVec_ok env hS
    (payload := unitPayload payload) (by rw [unitPayload_length]; exact hcap) hab
    (by
      intro e he
      obtain ⟨k, hk, rfl⟩ := List.mem_map.1 he
      exact hlong k hk) bh
  have hi : (LeftSliceSet.mk m).toSetI.iter = m.table.entries.map (·.1) := items_new _
  refine ⟨⟨m⟩, by unfold LeftSliceSet.fromVecWithHasher; rw [h1]; rfl, presents lawfulEq_decide
    (by simpa [Distinct, List.Nodup] using hd)
    ⟨answers_of_scan (es := m.table.entries) (fun x => ?_) hi rfl, by rw [hi]; exact unit_perm h4⟩⟩
  rw [show (Res.ok (scan (fun a b : Bytes => decide (a = b)) id x 0 m.table.entries))
    = m.getKeyValue x from (LeftSliceMap.getKV_eq h2 x).symm]
  exact keyOf_isSome _

example := C47_left_slice_set checkedEnv IdxTy.u8 255 (by decide) exStrings (by decide) (by decide +kernel) 1 2 (by decide)
  (by decide +kernel) demoHasher

/-- Only with a range given in descending order (see C29). -/
theorem C47_right_slice_set [Target] (env : Env) (S : IdxTy) (cap : Nat) (hS : S.capacity = some cap)
    (payload : List Bytes) (hcap : payload.length ≤ cap) (hd : payload.Nodup) (a b : Nat)
    (hab : b ≤ a) (hlong : ∀ k ∈ payload, a ≤ k.length) (bh : Hasher) (oc : Bool) :
    ∃ s, RightSliceSet.fromVecWithHasher env S payload a b bh = .ok s ∧
      Presents (fun a b => decide (a = b)) (s.toSetI oc) payload := by
  obtain ⟨m, h1, h2, _, _, _, h4⟩ := RightSliceMap.fromVec_ok env hS
    (payload := unitPayload payload) (by rw [unitPayload_length]; exact hcap) hab
    (by
      intro e he
      obtain ⟨k, hk, rfl⟩ := List.mem_map.1 he
      exact hlong k hk) bh
  have hi : ((RightSliceSet.mk m).toSetI oc).iter = m.table.entries.map (·.1) := items_new _
  refine ⟨⟨m⟩, by unfold RightSliceSet.fromVecWithHasher; rw [h1]; rfl, presents lawfulEq_decide
    (by simpa [Distinct, List.Nodup] using hd)
    ⟨answers_of_scan (es := m.table.entries) (fun x => ?_) hi rfl, by rw [hi]; exact unit_perm h4⟩⟩
  rw [show (Res.ok (scan (fun a b : Bytes => decide (a = b)) id x 0 m.table.entries))
    = m.getKeyValue oc x from (RightSliceMap.getKV_eq h2 x).symm]
  exact keyOf_isSome _

example := C47_right_slice_set checkedEnv IdxTy.u8 255 (by decide) exStrings (by decide) (by decide +kernel) 2 1 (by decide)
  (by decide +kernel) demoHasher false

/-- Non-empty, as an empty range set panics on some probes (see C25). -/
theorem C47_integer_range_set [Target] (t : IntTy) (hb : 0 < t.bits) (oc oc' : Bool) (payload : List Int)
    (hne : payload ≠ []) (hr : ∀ k ∈ payload, t.InRange k) (hd : payload.Nodup)
    (s : IntegerRangeSet) (h : IntegerRangeSet.fromVec oc t payload = .ok s) :
    Presents (fun a b => decide (a = b)) (s.toSetI oc' t) payload := by
  unfold IntegerRangeSet.fromVec at h
  simp only [Res.bind_eq_ok, Res.pure_eq, Res.ok.injEq] at h
  obtain ⟨m, h1, rfl⟩ := h
  obtain ⟨h2, h4⟩ := rangeFromVec_rangeOK hb (payload := unitPayload payload)
    (by simpa [unitPayload] using hne)
    (by
      intro e he
      obtain ⟨k, hk, rfl⟩ := List.mem_map.1 he
      exact hr k hk)
    (by rw [unitPayload_keys]; exact hd) h1
  have hi : ((IntegerRangeSet.mk m).toSetI oc' t).iter = m.entries.map (·.1) := items_new _
  refine presents lawfulEq_decide (by simpa [Distinct, List.Nodup] using hd)
    ⟨answers_of_scan (es := m.entries) (fun x => ?_) hi rfl, by rw [hi]; exact unit_perm h4⟩
  rw [show (Res.ok (scan (fun a b : Int => decide (a = b)) id x 0 m.entries))
    = m.getKeyValue oc' t x from (rangeKV_eq h2 x).symm]
  exact keyOf_isSome _

example := C47_integer_range_set IntTy.i8 (by decide) true false (exInts.map (·.1)) (by decide) (by decide +kernel)
  (by decide +kernel) _ (Res.built (r := IntegerRangeSet.fromVec true IntTy.i8 (exInts.map (·.1))) (by decide +kernel))

/-- `HashSet`s collected from any list, e.g. by the set operators. -/
theorem C47_hash_set (eq : T → T → Bool) (heq : LawfulEq eq) (l : List T) :
    Consistent eq ((StdSet.collect eq l).toSetI eq) ∧
      ∀ x, Has eq ((StdSet.collect eq l).toSetI eq).iter x ↔ Has eq l x :=
  ⟨stdSet_consistent heq (collect_spec heq l).1, (collect_spec heq l).2⟩

example := C47_hash_set (fun a b : Int => decide (a = b)) lawfulEq_decide [1, 2, 2, 3]

/-- The same in whatever order the std set iterates; this also covers `BTreeSet`. -/
theorem C47_std_set (eq : T → T → Bool) (heq : LawfulEq eq) (l : List T) (s : StdSet T)
    (h : s.items.Perm (StdSet.collect eq l).items) :
    Consistent eq (s.toSetI eq) ∧ ∀ x, Has eq (s.toSetI eq).iter x ↔ Has eq l x :=
  ⟨stdSet_consistent heq ((collect_spec heq l).1.perm heq h.symm),
    fun x => (has_perm h x).trans ((collect_spec heq l).2 x)⟩

example := C47_std_set (fun a b : Int => decide (a = b)) lawfulEq_decide [1, 2, 2, 3] ⟨[3, 1, 2]⟩ (by decide +kernel)

/-- Payloads meeting the hypotheses for several set types. -/
example : (∃ s, LeftSliceSet.fromVecWithHasher checkedEnv IdxTy.u8
      [[1, 2, 3], [4, 5, 6], [7, 8, 9]] 1 3 demoHasher = .ok s) ∧
    (∃ s, IntegerRangeSet.fromVec true IntTy.u32 [5, 3, 4] = .ok s) ∧
    (∃ s, CommonSet.fromVecWithHasher checkedEnv IdxTy.u16 otherTy.enc [5, -3, 44] demoHasher
      = .ok s) ∧
    IdxTy.u8.capacity = some 255 ∧ IdxTy.u16.capacity = some 65535 :=
  ⟨Res.of_isOk (by decide +kernel), Res.of_isOk (by decide +kernel), Res.of_isOk (by decide +kernel),
    rfl, rfl⟩

/-! ### Set operations on frozen sets -/

/-- The generic results apply to frozen sets, here the union of two of them in terms of the
payloads. -/
theorem C32_union_frozen [Target] (env : Env) (ty : KeyTy T) (hty : LawfulKey ty) (p q : List T)
    (hp : p.length < 2 ^ 32) (hq : q.length < 2 ^ 32) (hdp : Distinct ty.eq p)
    (hdq : Distinct ty.eq q) (env₁ env₂ : Env) (bh bh' : Hasher) (a b : FrozenSet T)
    (ha : FrozenSet.new env₁ ty p bh = .ok a) (hb : FrozenSet.new env₂ ty q bh' = .ok b) :
    ∃ l : List T,
      (∀ n, ∃ st, rcalls BinIter.unionNext n (BinIter.new (a.toSetI env ty) (b.toSetI env ty))
        = .ok (firstCalls l n, st)) ∧
      Distinct ty.eq l ∧ ∀ x, Has ty.eq l x ↔ Has ty.eq p x ∨ Has ty.eq q x := by
  obtain ⟨hca, hpa⟩ := C47_frozen_set env ty hty p hp hdp env₁ bh a ha
  obtain ⟨hcb, hpb⟩ := C47_frozen_set env ty hty q hq hdq env₂ bh' b hb
  obtain ⟨l, h1, h2, h3, _⟩ := C32_union ty.eq hty.eq _ _ hca hcb
  exact ⟨l, h1, h2, fun x => by rw [h3, has_perm hpa, has_perm hpb]⟩

example := C32_union_frozen releaseEnv u32Ty u32Ty_lawful exSetKeys exRangeKeys (by decide) (by decide)
  (by unfold Distinct; decide +kernel) (by unfold Distinct; decide +kernel) checkedEnv checkedEnv demoHasher demoHasher _ _ exFrozenSet_ok
  exRangeFrozenSet_ok

/-! ### C37, `FrozenSet` -/

theorem FrozenSet.eq_toSetI [Target] {env : Env} {ty : KeyTy T} {a b : FrozenSet T}
    (hb : Safe ty b.toMap) :
    a.eq env ty b = (a.toSetI env ty).eq (b.toSetI env ty) := by
  unfold FrozenSet.eq SetI.eq FrozenSet.toSetI
  simp only
  congr 1
  congr 1
  funext x
  rw [FrozenSet.get_toMap, FrozenSet.contains_toMap hb, keyOf_isSome]

/-- `FrozenSet == FrozenSet`: true exactly when the payloads have the same values. -/
theorem C37_frozen_set_eq [Target] (env : Env) (ty : KeyTy T) (hty : LawfulKey ty) (p q : List T)
    (hp : p.length < 2 ^ 32) (hq : q.length < 2 ^ 32) (hdp : Distinct ty.eq p)
    (hdq : Distinct ty.eq q) (env₁ env₂ : Env) (bh bh' : Hasher) (a b : FrozenSet T)
    (ha : FrozenSet.new env₁ ty p bh = .ok a) (hb : FrozenSet.new env₂ ty q bh' = .ok b) :
    ∃ r, a.eq env ty b = .ok r ∧ (r = true ↔ ∀ x, Has ty.eq p x ↔ Has ty.eq q x) := by
  obtain ⟨hca, hpa⟩ := C47_frozen_set env ty hty p hp hdp env₁ bh a ha
  obtain ⟨hcb, hpb⟩ := C47_frozen_set env ty hty q hq hdq env₂ bh' b hb
  have hbs : Safe ty b.toMap := (new_built env₂ hty (payload := unitPayload q)
    (by rw [unitPayload_length]; exact hq) (FrozenSet.new_ok hb)).safe
  rw [FrozenSet.eq_toSetI hbs]
  obtain ⟨r, h1, h2⟩ := C37_eq_iff ty.eq hty.eq _ _ hca hcb
  exact ⟨r, h1, h2.trans (forall_congr' fun x => by rw [has_perm hpa, has_perm hpb])⟩

example : ∃ a b, FrozenSet.new checkedEnv u32Ty (exRange.map (·.1)) demoHasher = .ok a ∧
    FrozenSet.new releaseEnv u32Ty [14, 13, 12, 11, 10] (fun _ => 0) = .ok b ∧
    a.eq checkedEnv u32Ty b = .ok true := by
  obtain ⟨a, ha⟩ := Res.of_isOk
    (r := FrozenSet.new checkedEnv u32Ty (exRange.map (·.1)) demoHasher) (by decide +kernel)
  obtain ⟨b, hb⟩ := Res.of_isOk
    (r := FrozenSet.new releaseEnv u32Ty [14, 13, 12, 11, 10] (fun _ => 0)) (by decide +kernel)
  refine ⟨a, b, ha, hb, ?_⟩
  obtain ⟨r, h1, h2⟩ := C37_frozen_set_eq checkedEnv u32Ty u32Ty_lawful _ _ (by decide) (by decide)
    (by unfold Distinct; decide +kernel) (by unfold Distinct; decide +kernel) _ _ _ _ a b ha hb
  rw [h1, h2.2]
  intro x
  simp [Has, exRange, u32Ty]
  tauto

/-! ### C16, sets -/

/-- C16 is false for sets as well. -/
theorem C16_set_counterexample :
    ∃ a b : FrozenSet UInt32,
      FrozenSet.new checkedEnv u32Ty [1, 1, 2] demoHasher = .ok a ∧
      FrozenSet.new checkedEnv u32Ty [1, 2, 3] demoHasher = .ok b ∧
      a.eq checkedEnv u32Ty b = .ok true ∧ b.eq checkedEnv u32Ty a = .ok false :=
  ⟨.scanning (ScanningSet.fromVec [1, 1, 2]), .scanning (ScanningSet.fromVec [1, 2, 3]), rfl, rfl,
    by decide +kernel, by decide +kernel⟩

/-- Symmetric when neither payload repeats values. Missing from C16: repeated values, where it is
false. -/
theorem C16_set_symm_partial [Target] (env : Env) (ty : KeyTy T) (hty : LawfulKey ty) (p q : List T)
    (hp : p.length < 2 ^ 32) (hq : q.length < 2 ^ 32) (hdp : Distinct ty.eq p)
    (hdq : Distinct ty.eq q) (env₁ env₂ : Env) (bh bh' : Hasher) (a b : FrozenSet T)
    (ha : FrozenSet.new env₁ ty p bh = .ok a) (hb : FrozenSet.new env₂ ty q bh' = .ok b) :
    a.eq env ty b = b.eq env ty a := by
  obtain ⟨r, h1, h2⟩ := C37_frozen_set_eq env ty hty p q hp hq hdp hdq env₁ env₂ bh bh' a b ha hb
  obtain ⟨r', h1', h2'⟩ := C37_frozen_set_eq env ty hty q p hq hp hdq hdp env₂ env₁ bh' bh b a hb ha
  rw [h1, h1']
  have : r = true ↔ r' = true := by
    rw [h2, h2']
    exact forall_congr' fun x => Iff.comm
  cases r <;> cases r' <;> simp_all

example := C16_set_symm_partial releaseEnv u32Ty u32Ty_lawful exSetKeys exRangeKeys (by decide) (by decide)
  (by unfold Distinct; decide +kernel) (by unfold Distinct; decide +kernel) checkedEnv checkedEnv demoHasher demoHasher _ _ exFrozenSet_ok
  exRangeFrozenSet_ok

/-- With repeated values (unless the range representation holds them) `a == b` says that the lengths
agree and that every value of `a` is in `b`. -/
theorem C16_set_exact_partial [Target] (env : Env) (ty : KeyTy T) (hty : LawfulKey ty) (p q : List T)
    (hp : p.length < 2 ^ 32) (hq : q.length < 2 ^ 32) (env₁ env₂ : Env) (bh bh' : Hasher)
    (a b : FrozenSet T)
    (ha : FrozenSet.new env₁ ty p bh = .ok a) (hb : FrozenSet.new env₂ ty q bh' = .ok b)
    (hra : (∀ r, a ≠ .u32Range r) ∨ Distinct ty.eq p)
    (hrb : (∀ r, b ≠ .u32Range r) ∨ Distinct ty.eq q) :
    ∃ r, a.eq env ty b = .ok r ∧
      (r = true ↔ p.length = q.length ∧ ∀ x, Has ty.eq p x → Has ty.eq q x) := by
  obtain ⟨haa, hpa⟩ := FrozenSet.answers env hty hp ha hra
  obtain ⟨hab, hpb⟩ := FrozenSet.answers env hty hq hb hrb
  have hbs : Safe ty b.toMap := (new_built env₂ hty (payload := unitPayload q)
    (by rw [unitPayload_length]; exact hq) (FrozenSet.new_ok hb)).safe
  rw [FrozenSet.eq_toSetI hbs]
  obtain ⟨c, h1, h2⟩ := hab.total
  have hl : (a.toSetI env ty).len = p.length := by rw [haa.len, hpa.length_eq]
  have hl' : (b.toSetI env ty).len = q.length := by rw [hab.len, hpb.length_eq]
  unfold SetI.eq
  rw [hl, hl']
  by_cases h : p.length = q.length
  · rw [if_neg (by simpa using h), Res.allList_ok (f := c) (by intro v _; exact h1 v)]
    refine ⟨_, rfl, ?_⟩
    rw [List.all_eq_true]
    constructor
    · intro hall
      refine ⟨h, fun x hx => ?_⟩
      obtain ⟨y, hy, hxy⟩ := (has_perm hpa x).2 hx
      exact (has_congr hty.eq hxy).2 ((has_perm hpb y).1 ((h2 y).1 (hall y hy)))
    · rintro ⟨_, hall⟩ x hx
      exact (h2 x).2 ((has_perm hpb x).2 (hall x ((has_perm hpa x).1 (has_of_mem hty.eq hx))))
  · rw [if_pos h]
    exact ⟨false, rfl, by simp, fun hh => absurd hh.1 h⟩

/-- It is enough that the set on the left has distinct values. Missing from C16: repeated values on
the left, where it is false. -/
theorem C16_set_receiver_distinct_partial [Target] (env : Env) (ty : KeyTy T) (hty : LawfulKey ty)
    (p q : List T) (hp : p.length < 2 ^ 32) (hq : q.length < 2 ^ 32) (hdp : Distinct ty.eq p)
    (env₁ env₂ : Env) (bh bh' : Hasher) (a b : FrozenSet T)
    (ha : FrozenSet.new env₁ ty p bh = .ok a) (hb : FrozenSet.new env₂ ty q bh' = .ok b)
    (hrb : (∀ r, b ≠ .u32Range r) ∨ Distinct ty.eq q) (h : a.eq env ty b = .ok true) :
    Distinct ty.eq q ∧ b.eq env ty a = .ok true := by
  obtain ⟨r, h1, h2⟩ := C16_set_exact_partial env ty hty p q hp hq env₁ env₂ bh bh' a b ha hb
    (Or.inr hdp) hrb
  rw [h1] at h
  cases h
  obtain ⟨hlen, hsub⟩ := h2.1 rfl
  have hdq : Distinct ty.eq q := distinct_of_match hty.eq hdp
    (fun x hx => hsub x (has_of_mem hty.eq hx)) (by omega)
  refine ⟨hdq, ?_⟩
  rw [← C16_set_symm_partial env ty hty p q hp hq hdp hdq env₁ env₂ bh bh' a b ha hb, h1]

example := C16_set_receiver_distinct_partial releaseEnv u32Ty u32Ty_lawful exSetKeys exSetKeys (by decide) (by decide)
  (by unfold Distinct; decide +kernel) checkedEnv checkedEnv demoHasher demoHasher _ _ exFrozenSet_ok exFrozenSet_ok
  (.inr (by unfold Distinct; decide +kernel)) (by decide +kernel)

/-- Sets that repeat values: `{1, 1, 3, 3}` equals `{3, 3, 1, 4}` but not the other way round. -/
example : ∃ a b, FrozenSet.new checkedEnv otherTy [1, 1, 3, 3] demoHasher = .ok a ∧
    FrozenSet.new checkedEnv otherTy [3, 3, 1, 4] demoHasher = .ok b ∧
    a.eq checkedEnv otherTy b = .ok true ∧ b.eq checkedEnv otherTy a = .ok false := by
  obtain ⟨a, ha⟩ := Res.of_isOk (r := FrozenSet.new checkedEnv otherTy [1, 1, 3, 3] demoHasher)
    (by decide +kernel)
  obtain ⟨b, hb⟩ := Res.of_isOk (r := FrozenSet.new checkedEnv otherTy [3, 3, 1, 4] demoHasher)
    (by decide +kernel)
  have hno : ∀ (l : List Int) (s : FrozenSet Int), l.length < 2 ^ 32 →
      FrozenSet.new checkedEnv otherTy l demoHasher = .ok s → ∀ r, s ≠ .u32Range r := by
    rintro l s hl hs r rfl
    obtain ⟨⟨f, g, h⟩, _⟩ := (new_built checkedEnv otherTy_lawful (payload := unitPayload l)
      (by rw [unitPayload_length]; exact hl) (FrozenSet.new_ok hs)).shape _ rfl
    simp [otherTy] at h
  obtain ⟨r, h1, h2⟩ := C16_set_exact_partial checkedEnv otherTy otherTy_lawful _ _ (by decide)
    (by decide) _ _ _ _ a b ha hb (Or.inl (hno _ _ (by decide) ha)) (Or.inl (hno _ _ (by decide) hb))
  obtain ⟨r', h1', h2'⟩ := C16_set_exact_partial checkedEnv otherTy otherTy_lawful _ _ (by decide)
    (by decide) _ _ _ _ b a hb ha (Or.inl (hno _ _ (by decide) hb)) (Or.inl (hno _ _ (by decide) ha))
  refine ⟨a, b, ha, hb, ?_, ?_⟩
  · rw [h1, h2.2]
    refine ⟨rfl, ?_⟩
    simp [Has, otherTy]
  · have : r' = false := by
      cases r' with
      | false => rfl
      | true =>
        have := (h2'.1 rfl).2 4 ⟨4, by simp, by simp [otherTy]⟩
        simp [Has, otherTy] at this
    rw [h1', this]

/-! ### C36 -/

/-- C36 is false: `{1,1,1}` is reported not to be a subset of `{1,2}`. -/
theorem C36_counterexample :
    ∃ a b : FrozenSet UInt32,
      FrozenSet.new checkedEnv u32Ty [1, 1, 1] demoHasher = .ok a ∧
      FrozenSet.new checkedEnv u32Ty [1, 2] demoHasher = .ok b ∧
      (a.toSetI checkedEnv u32Ty).isSubset (b.toSetI checkedEnv u32Ty) = .ok false ∧
      (b.toSetI checkedEnv u32Ty).isSuperset (a.toSetI checkedEnv u32Ty) = .ok false ∧
      ∀ x, Has u32Ty.eq [1, 1, 1] x → Has u32Ty.eq [1, 2] x := by
  refine ⟨.scanning (ScanningSet.fromVec [1, 1, 1]), .scanning (ScanningSet.fromVec [1, 2]), rfl,
    rfl, by decide +kernel, by decide +kernel, ?_⟩
  intro x
  simp only [Has, List.mem_cons, List.not_mem_nil, or_false]
  rintro ⟨y, hy, h⟩
  exact ⟨y, Or.inl (by tauto), h⟩

/-- With repeated values (unless the range representation holds them) the predicate is the
mathematical one cut down by the length comparison. Missing from C36: a receiver that repeats values
and is longer than the argument, where the answer `false` can be wrong. -/
theorem C36_subset_partial [Target] (env : Env) (ty : KeyTy T) (hty : LawfulKey ty) (p q : List T)
    (hp : p.length < 2 ^ 32) (hq : q.length < 2 ^ 32) (env₁ env₂ : Env) (bh bh' : Hasher)
    (a b : FrozenSet T)
    (ha : FrozenSet.new env₁ ty p bh = .ok a) (hb : FrozenSet.new env₂ ty q bh' = .ok b)
    (hra : (∀ r, a ≠ .u32Range r) ∨ Distinct ty.eq p)
    (hrb : (∀ r, b ≠ .u32Range r) ∨ Distinct ty.eq q) :
    ∃ r, (a.toSetI env ty).isSubset (b.toSetI env ty) = .ok r ∧
      (b.toSetI env ty).isSuperset (a.toSetI env ty) = .ok r ∧
      (r = true ↔ p.length ≤ q.length ∧ ∀ x, Has ty.eq p x → Has ty.eq q x) := by
  obtain ⟨haa, hpa⟩ := FrozenSet.answers env hty hp ha hra
  obtain ⟨hab, hpb⟩ := FrozenSet.answers env hty hq hb hrb
  obtain ⟨c, h1, h2⟩ := hab.total
  have hl : (a.toSetI env ty).len = p.length := by rw [haa.len, hpa.length_eq]
  have hl' : (b.toSetI env ty).len = q.length := by rw [hab.len, hpb.length_eq]
  unfold SetI.isSubset SetI.isSuperset
  rw [hl, hl']
  by_cases h : p.length ≤ q.length
  · simp only [if_pos h]
    rw [Res.allList_ok (f := c) (by intro v _; exact h1 v)]
    refine ⟨_, rfl, rfl, ?_⟩
    rw [List.all_eq_true]
    constructor
    · intro hall
      refine ⟨h, fun x hx => ?_⟩
      obtain ⟨y, hy, hxy⟩ := (has_perm hpa x).2 hx
      exact (has_congr hty.eq hxy).2 ((has_perm hpb y).1 ((h2 y).1 (hall y hy)))
    · rintro ⟨_, hall⟩ x hx
      exact (h2 x).2 ((has_perm hpb x).2 (hall x ((has_perm hpa x).1 (has_of_mem hty.eq hx))))
  · simp only [if_neg h]
    exact ⟨false, rfl, rfl, by simp, fun hh => absurd hh.1 h⟩

example := C36_subset_partial releaseEnv otherTy otherTy_lawful exTwice exElems (by decide) (by decide) checkedEnv
  checkedEnv demoHasher demoHasher _ _ exTwiceSet_ok exElemSet_ok (.inl exTwiceSet_hashed)
  (.inr (by unfold Distinct; decide +kernel))

/-- The answer is exact as soon as the smaller side does not repeat values. -/
theorem C36_subset_receiver_distinct_partial [Target] (env : Env) (ty : KeyTy T) (hty : LawfulKey ty)
    (p q : List T) (hp : p.length < 2 ^ 32) (hq : q.length < 2 ^ 32) (hdp : Distinct ty.eq p)
    (env₁ env₂ : Env) (bh bh' : Hasher) (a b : FrozenSet T)
    (ha : FrozenSet.new env₁ ty p bh = .ok a) (hb : FrozenSet.new env₂ ty q bh' = .ok b)
    (hrb : (∀ r, b ≠ .u32Range r) ∨ Distinct ty.eq q) :
    ∃ r, (a.toSetI env ty).isSubset (b.toSetI env ty) = .ok r ∧
      (r = true ↔ ∀ x, Has ty.eq p x → Has ty.eq q x) := by
  obtain ⟨r, h1, _, h3⟩ := C36_subset_partial env ty hty p q hp hq env₁ env₂ bh bh' a b ha hb
    (Or.inr hdp) hrb
  refine ⟨r, h1, h3.trans ⟨fun h => h.2, fun h => ⟨?_, h⟩⟩⟩
  exact length_le_of_match hty.eq hdp (fun x hx => h x (has_of_mem hty.eq hx))

example := C36_subset_receiver_distinct_partial releaseEnv u32Ty u32Ty_lawful exSetKeys exRangeKeys (by decide) (by decide)
  (by unfold Distinct; decide +kernel) checkedEnv checkedEnv demoHasher demoHasher _ _ exFrozenSet_ok
  exRangeFrozenSet_ok
  (.inr (by unfold Distinct; decide +kernel))

example : (∃ s, FrozenSet.new checkedEnv otherTy [1, 2, 2, 3, 3] demoHasher = .ok s) ∧
    (∀ s, FrozenSet.new checkedEnv otherTy [1, 2, 2, 3, 3] demoHasher = .ok s →
      ∀ r, s ≠ .u32Range r) := by
  refine ⟨Res.of_isOk (by decide +kernel), ?_⟩
  intro s hs r hr
  subst hr
  have : (FrozenSet.new checkedEnv otherTy [1, 2, 2, 3, 3] demoHasher).map
      (fun s => match s with | .u32Range _ => true | _ => false) = .ok false := by decide +kernel
  rw [hs] at this
  simp at this

end FC
