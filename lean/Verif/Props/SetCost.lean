import Verif.Examples
import Verif.Lemmas.SetCost
import Verif.Props.FacadeCost
import Verif.Props.Average
import Verif.Props.RightSlices

/-
C20, C72 and C84 for sets: what lookups cost.
-/

set_option autoImplicit false

namespace FC
variable {T Q : Type}

/-! ### C72: finding every element, and missing -/

/-- Counting changes no answer. -/
theorem C72_set_same_answers [Target] (env : Env) (ty : KeyTy T) (s : FrozenSet T) (x : T) :
    (s.getCounted env ty x).map Prod.fst = s.get env ty x := by
  rw [FrozenSet.getCounted_toMap, keyOfCounted_fst, C72_same_answers, FrozenSet.get_toMap]

/-- General hash sets: one comparison for each element, and one more for each pair of elements that
share a slot. A value that is not an element is compared with exactly the elements whose slot it
shares. -/
theorem C72_common_set [Target] (env : Env) (S : IdxTy) (P : Probe T Q) (heq : LawfulEq P.eq)
    (enc : T → List HCall) (henc : ∀ x, P.enc (P.borrow x) = enc x) (payload : List T)
    (bh : Hasher) (s : CommonSet T) (hs : CommonSet.fromVecWithHasher env S enc payload bh = .ok s)
    (h32 : payload.length < 2 ^ 32) (r : HashAnalysis)
    (hr : analyzeHashCodes (payload.map (fun x => bh (enc x))) = .ok r) :
    (Distinct (fun a b => P.eq (P.borrow a) (P.borrow b)) payload →
      SetFindsAll (fun x => s.getCounted P (P.borrow x)) payload
        (payload.length + sharing r.numHashSlots (payload.map (fun x => bh (enc x))))) ∧
    ∀ q, (∀ x ∈ payload, P.eq q (P.borrow x) = false) →
      s.getCounted P q = .ok (none, ((payload.map (fun x => bh (enc x))).filter
        (fun d => d % r.numHashSlots = bh (P.enc q) % r.numHashSlots)).length) := by
  unfold CommonSet.fromVecWithHasher at hs
  simp only [Res.bind_eq_ok, Res.pure_eq, Res.ok.injEq] at hs
  obtain ⟨m, hm, rfl⟩ := hs
  have hc := unitPayload_codes payload (fun x => bh (enc x))
  obtain ⟨h1, h2⟩ := C72_common_map env S P heq enc henc _ bh m hm
    (by rwa [unitPayload_length]) r (by rwa [hc])
  rw [hc, unitPayload_length] at h1
  rw [hc] at h2
  refine ⟨fun hd => (h1 (unitPayload_distinct hd)).toSet (fun _ => rfl), fun q hq => ?_⟩
  unfold CommonSet.getCounted
  rw [h2 q (unitPayload_forall hq)]
  rfl

example := (C72_common_set checkedEnv IdxTy.u8 otherTy.probe otherTy_lawful.eq otherTy.enc (fun _ => rfl)
  exElems demoHasher _ (Res.built (by decide +kernel)) (by decide) _ (Res.built (by decide +kernel))).1 (by unfold Distinct; decide +kernel)

/-- Integer sets, whose codes are the values. -/
theorem C72_integer_set [Target] (env : Env) (S : IdxTy) (payload : List Int) (s : IntegerSet)
    (hs : IntegerSet.fromVec env S payload = .ok s) (h32 : payload.length < 2 ^ 32)
    (r : HashAnalysis) (hr : analyzeHashCodes (payload.map asU64) = .ok r) :
    (payload.Nodup → SetFindsAll s.getCounted payload
      (payload.length + sharing r.numHashSlots (payload.map asU64))) ∧
    ∀ q, q ∉ payload →
      s.getCounted q = .ok (none, ((payload.map asU64).filter
        (fun d => d % r.numHashSlots = asU64 q % r.numHashSlots)).length) := by
  unfold IntegerSet.fromVec at hs
  simp only [Res.bind_eq_ok, Res.pure_eq, Res.ok.injEq] at hs
  obtain ⟨m, hm, rfl⟩ := hs
  have hc := unitPayload_codes payload asU64
  obtain ⟨h1, h2⟩ := C72_integer_map env S _ m hm (by rwa [unitPayload_length]) r (by rwa [hc])
  rw [hc, unitPayload_length, unitPayload_keys] at h1
  rw [hc] at h2
  refine ⟨fun hd => (h1 hd).toSet (fun _ => rfl), fun q hq => ?_⟩
  unfold IntegerSet.getCounted
  rw [h2 q (unitPayload_forall (C := fun x => q ≠ x) (fun x hx h => hq (h ▸ hx)))]
  rfl

example := (C72_integer_set checkedEnv IdxTy.u8 exElems _ (Res.built (by decide +kernel)) (by decide) _
  (Res.built (by decide +kernel))).1 (by decide +kernel)

/-- Length sets, whose codes are the lengths. -/
theorem C72_length_set [Target] (env : Env) (S : IdxTy) (borrow : T → Q) (eq : Q → Q → Bool)
    (heq : LawfulEq eq) (lenT : T → Nat) (lenQ : Q → Nat) (hlen : ∀ x, lenQ (borrow x) = lenT x)
    (payload : List T) (s : LengthSet T) (hs : LengthSet.fromVec env S lenT payload = .ok s)
    (h32 : payload.length < 2 ^ 32) (r : HashAnalysis)
    (hr : analyzeHashCodes (payload.map lenT) = .ok r) :
    (Distinct (fun a b => eq (borrow a) (borrow b)) payload →
      SetFindsAll (fun x => s.getCounted borrow eq lenQ (borrow x)) payload
        (payload.length + sharing r.numHashSlots (payload.map lenT))) ∧
    ∀ q, (∀ x ∈ payload, eq q (borrow x) = false) →
      s.getCounted borrow eq lenQ q = .ok (none, ((payload.map lenT).filter
        (fun d => d % r.numHashSlots = lenQ q % r.numHashSlots)).length) := by
  unfold LengthSet.fromVec at hs
  simp only [Res.bind_eq_ok, Res.pure_eq, Res.ok.injEq] at hs
  obtain ⟨m, hm, rfl⟩ := hs
  have hc := unitPayload_codes payload lenT
  obtain ⟨h1, h2⟩ := C72_length_map env S borrow eq heq lenT lenQ hlen _ m hm
    (by rwa [unitPayload_length]) r (by rwa [hc])
  rw [hc, unitPayload_length] at h1
  rw [hc] at h2
  refine ⟨fun hd => (h1 (unitPayload_distinct hd)).toSet (fun _ => rfl), fun q hq => ?_⟩
  unfold LengthSet.getCounted
  rw [h2 q (unitPayload_forall hq)]
  rfl

example := (C72_length_set checkedEnv IdxTy.u8 id (fun a b : Bytes => decide (a = b)) lawfulEq_decide
  List.length List.length (fun _ => rfl) exStrings _ (Res.built (by decide +kernel)) (by decide) _
  (Res.built (by decide +kernel))).1 (by unfold Distinct; decide +kernel)

/-- Left slice sets, whose codes are the hashes of the range. A string too short for the range is
compared with the elements of the first slot. -/
theorem C72_left_slice_set [Target] (env : Env) (S : IdxTy) (payload : List Bytes)
    (a b : Nat) (hab : payload = [] → a ≤ b) (bh : Hasher) (s : LeftSliceSet)
    (hs : LeftSliceSet.fromVecWithHasher env S payload a b bh = .ok s)
    (h32 : payload.length < 2 ^ 32) (r : HashAnalysis)
    (hr : analyzeHashCodes (payload.map (fun x => bh [.write ((x.drop a).take (b - a))])) = .ok r) :
    (payload.Nodup → SetFindsAll s.getCounted payload (payload.length
      + sharing r.numHashSlots (payload.map (fun x => bh [.write ((x.drop a).take (b - a))])))) ∧
    ∀ q, q ∉ payload →
      s.getCounted q = .ok (none,
        ((payload.map (fun x => bh [.write ((x.drop a).take (b - a))])).filter
        (fun d => d % r.numHashSlots = (if b ≤ q.length then bh [.write ((q.drop a).take (b - a))]
          else 0) % r.numHashSlots)).length) := by
  unfold LeftSliceSet.fromVecWithHasher at hs
  simp only [Res.bind_eq_ok, Res.pure_eq, Res.ok.injEq] at hs
  obtain ⟨m, hm, rfl⟩ := hs
  have hc := unitPayload_codes payload (fun x => bh [.write ((x.drop a).take (b - a))])
  obtain ⟨h1, h2⟩ := C72_left_slice_map env S (unitPayload payload) a b
    (fun h => hab (List.map_eq_nil_iff.1 h)) bh m hm (by rwa [unitPayload_length]) r
    (by rwa [hc])
  rw [hc, unitPayload_length, unitPayload_keys] at h1
  rw [hc] at h2
  refine ⟨fun hd => (h1 hd).toSet (fun _ => rfl), fun q hq => ?_⟩
  unfold LeftSliceSet.getCounted
  rw [h2 q (unitPayload_forall (C := fun x => q ≠ x) (fun x hx h => hq (h ▸ hx)))]
  rfl

example := (C72_left_slice_set checkedEnv IdxTy.u8 exStrings 1 2 (by decide) demoHasher _
  (Res.built (by decide +kernel)) (by decide) _ (Res.built (by decide +kernel))).1 (by decide +kernel)

/-- Right slice sets that could be built, whose codes are the hashes of the range counted from the end. -/
theorem C72_right_slice_set [Target] (env : Env) (S : IdxTy) (payload : List Bytes)
    (a b : Nat) (hne : payload = [] → b ≤ a) (ha : a < usz) (hb : b < usz) (bh : Hasher)
    (s : RightSliceSet) (hs : RightSliceSet.fromVecWithHasher env S payload a b bh = .ok s)
    (h32 : payload.length < 2 ^ 32) (r : HashAnalysis)
    (hr : analyzeHashCodes (payload.map (fun x => bh [.write (beforeEnd a b x)])) = .ok r)
    (oc : Bool) :
    (payload.Nodup → SetFindsAll (s.getCounted oc) payload (payload.length
      + sharing r.numHashSlots (payload.map (fun x => bh [.write (beforeEnd a b x)])))) ∧
    ∀ q, q ∉ payload →
      s.getCounted oc q = .ok (none,
        ((payload.map (fun x => bh [.write (beforeEnd a b x)])).filter
        (fun d => d % r.numHashSlots = (if a ≤ q.length then bh [.write (beforeEnd a b q)]
          else 0) % r.numHashSlots)).length) := by
  unfold RightSliceSet.fromVecWithHasher at hs
  simp only [Res.bind_eq_ok, Res.pure_eq, Res.ok.injEq] at hs
  obtain ⟨m, hm, rfl⟩ := hs
  have hc := unitPayload_codes payload (fun x => bh [.write (beforeEnd a b x)])
  obtain ⟨h1, h2⟩ := C72_right_slice_map env S _ a b
    (fun h => hne (by simpa [unitPayload] using h)) ha hb bh m hm
    (by rwa [unitPayload_length]) r (by rwa [hc]) oc
  rw [hc, unitPayload_length, unitPayload_keys] at h1
  rw [hc] at h2
  refine ⟨fun hd => (h1 hd).toSet (fun _ => rfl), fun q hq => ?_⟩
  unfold RightSliceSet.getCounted
  rw [h2 q (unitPayload_forall (C := fun x => q ≠ x) (fun x hx h => hq (h ▸ hx)))]
  rfl

example := (C72_right_slice_set checkedEnv IdxTy.u8 exStrings 2 1 (by decide) (by decide) (by decide)
  demoHasher _ (Res.built (by decide +kernel)) (by decide) _ (Res.built (by decide +kernel)) true).1 (by decide +kernel)

/-- The linear scan: `n * (n + 1) / 2` comparisons to find all `n` elements, `n` for any other value. -/
theorem C72_scanning_set (P : Probe T Q) (heq : LawfulEq P.eq) (payload : List T) :
    (Distinct (fun a b => P.eq (P.borrow a) (P.borrow b)) payload →
      SetFindsAll (fun x => (ScanningSet.fromVec payload).getCounted P (P.borrow x)) payload
        (payload.length * (payload.length + 1) / 2)) ∧
    ∀ q, (∀ x ∈ payload, P.eq q (P.borrow x) = false) →
      (ScanningSet.fromVec payload).getCounted P q = .ok (none, payload.length) := by
  obtain ⟨h1, h2⟩ := C72_scanning_map P heq (unitPayload payload)
  rw [unitPayload_length] at h1 h2
  refine ⟨fun hd => (h1 (unitPayload_distinct hd)).toSet (fun _ => rfl), fun q hq => ?_⟩
  unfold ScanningSet.getCounted ScanningSet.fromVec
  rw [h2 q (unitPayload_forall hq)]
  rfl

example := (C72_scanning_set otherTy.probe otherTy_lawful.eq exElems).1 (by unfold Distinct; decide +kernel)

/-- `FrozenSet` with four elements or more that are filed by a code. -/
theorem C72_frozen_set [Target] (env : Env) (ty : KeyTy T) (hty : LawfulKey ty)
    (payload : List T) (bh : Hasher) (s : FrozenSet T)
    (hs : FrozenSet.new env ty payload bh = .ok s) (h32 : payload.length < 2 ^ 32)
    (h4 : 4 ≤ payload.length) (code : T → Nat)
    (hf : filedBy env.oc ty bh payload = some code) (r : HashAnalysis)
    (hr : analyzeHashCodes (payload.map code) = .ok r) :
    (Distinct ty.eq payload → SetFindsAll (s.getCounted env ty) payload
      (payload.length + sharing r.numHashSlots (payload.map code))) ∧
    ∀ q, (∀ x ∈ payload, ty.eq q x = false) →
      s.getCounted env ty q = .ok (none, ((payload.map code).filter
        (fun d => d % r.numHashSlots = code q % r.numHashSlots)).length) := by
  have hc := unitPayload_codes payload code
  obtain ⟨h1, h2⟩ := C72_frozen_map env ty hty (unitPayload payload) bh s.toMap (FrozenSet.new_ok hs)
    (by rwa [unitPayload_length]) (by rwa [unitPayload_length]) code
    (by rwa [unitPayload_keys]) r (by rwa [hc])
  rw [hc, unitPayload_length] at h1
  rw [hc] at h2
  refine ⟨fun hd => (h1 (unitPayload_distinct hd)).toSet (FrozenSet.getCounted_toMap env ty s),
    fun q hq => ?_⟩
  rw [FrozenSet.getCounted_toMap, h2 q]
  · rfl
  · rintro ⟨e, he, h⟩
    rw [unitPayload_forall (C := fun x => ty.eq q x = false) hq e he] at h
    cases h

example := (C72_frozen_set checkedEnv u32Ty u32Ty_lawful exSetKeys demoHasher _ exFrozenSet_ok (by decide)
  (by decide) _ rfl _ (Res.built (by decide +kernel))).1 (by unfold Distinct; decide +kernel)

/-- `FrozenSet` over contiguous `u32` elements: none is ever compared. -/
theorem C72_frozen_set_range [Target] (env : Env) (ty : KeyTy T) (hty : LawfulKey ty)
    (payload : List T) (hd : Distinct ty.eq payload) (bh : Hasher) (s : FrozenSet T)
    (hs : FrozenSet.new env ty payload bh = .ok s) (h32 : payload.length < 2 ^ 32)
    (h4 : 4 ≤ payload.length) (hf : filedBy env.oc ty bh payload = none) :
    SetFindsAll (s.getCounted env ty) payload 0 ∧
    ∀ q, (∀ x ∈ payload, ty.eq q x = false) → s.getCounted env ty q = .ok (none, 0) := by
  obtain ⟨h1, h2⟩ := C72_frozen_map_range env ty hty (unitPayload payload) (unitPayload_distinct hd) bh
    s.toMap (FrozenSet.new_ok hs) (by rwa [unitPayload_length]) (by rwa [unitPayload_length])
    (by rwa [unitPayload_keys])
  refine ⟨h1.toSet (FrozenSet.getCounted_toMap env ty s), fun q hq => ?_⟩
  rw [FrozenSet.getCounted_toMap, h2 q]
  · rfl
  · rintro ⟨e, he, h⟩
    rw [unitPayload_forall (C := fun x => ty.eq q x = false) hq e he] at h
    cases h

example := C72_frozen_set_range checkedEnv u32Ty u32Ty_lawful exRangeKeys (by unfold Distinct; decide +kernel)
  demoHasher _ exRangeFrozenSet_ok (by decide) (by decide) rfl

/-- `FrozenSet` with fewer than four elements: a linear scan. -/
theorem C72_frozen_set_small [Target] (env : Env) (ty : KeyTy T) (hty : LawfulKey ty)
    (payload : List T) (bh : Hasher) (s : FrozenSet T)
    (hs : FrozenSet.new env ty payload bh = .ok s) (h4 : payload.length < 4) :
    (Distinct ty.eq payload →
      SetFindsAll (s.getCounted env ty) payload (payload.length * (payload.length + 1) / 2)) ∧
    ∀ q, (∀ x ∈ payload, ty.eq q x = false) →
      s.getCounted env ty q = .ok (none, payload.length) := by
  obtain ⟨h1, h2⟩ := C72_frozen_map_small env ty hty (unitPayload payload) bh s.toMap
    (FrozenSet.new_ok hs) (by rwa [unitPayload_length])
  rw [unitPayload_length] at h1 h2
  refine ⟨fun hd => (h1 (unitPayload_distinct hd)).toSet (FrozenSet.getCounted_toMap env ty s),
    fun q hq => ?_⟩
  rw [FrozenSet.getCounted_toMap, h2 q]
  · rfl
  · rintro ⟨e, he, h⟩
    rw [unitPayload_forall (C := fun x => ty.eq q x = false) hq e he] at h
    cases h

example := (C72_frozen_set_small checkedEnv u32Ty u32Ty_lawful (exScan.map (·.1)) demoHasher _ rfl
  (by decide)).1 (by unfold Distinct; decide +kernel)

/-! ### C20: one lookup -/

/-- General hash sets, any hasher, any equality. -/
theorem C20_common_set [Target] (env : Env) (S : IdxTy) (P : Probe T Q) (enc : T → List HCall)
    (payload : List T) (bh : Hasher) (s : CommonSet T)
    (hs : CommonSet.fromVecWithHasher env S enc payload bh = .ok s)
    (h32 : payload.length < 2 ^ 32) (r : HashAnalysis)
    (hr : analyzeHashCodes (payload.map (fun x => bh (enc x))) = .ok r) (q : Q) :
    ∃ o n, s.getCounted P q = .ok (o, n) ∧ s.get P q = .ok o ∧ n ≤ 1 + r.numHashCollisions := by
  unfold CommonSet.fromVecWithHasher at hs
  simp only [Res.bind_eq_ok, Res.pure_eq, Res.ok.injEq] at hs
  obtain ⟨m, hm, rfl⟩ := hs
  exact counted_toSet (C20_common_map env S P enc _ bh m hm (by rwa [unitPayload_length]) r
    (by rwa [unitPayload_codes payload (fun x => bh (enc x))]) q)

example := C20_common_set checkedEnv IdxTy.u8 otherTy.probe otherTy.enc exElems demoHasher _
  (Res.built (by decide +kernel)) (by decide) ⟨9, 0⟩ (by decide +kernel) 70

theorem C20_integer_set [Target] (env : Env) (S : IdxTy) (payload : List Int) (s : IntegerSet)
    (hs : IntegerSet.fromVec env S payload = .ok s) (h32 : payload.length < 2 ^ 32)
    (r : HashAnalysis) (hr : analyzeHashCodes (payload.map asU64) = .ok r) (q : Int) :
    ∃ o n, s.getCounted q = .ok (o, n) ∧ s.get q = .ok o ∧ n ≤ 1 + r.numHashCollisions := by
  unfold IntegerSet.fromVec at hs
  simp only [Res.bind_eq_ok, Res.pure_eq, Res.ok.injEq] at hs
  obtain ⟨m, hm, rfl⟩ := hs
  exact counted_toSet (C20_integer_map env S _ m hm (by rwa [unitPayload_length]) r
    (by rwa [unitPayload_codes payload asU64]) q)

example := C20_integer_set checkedEnv IdxTy.u8 exElems _ (Res.built (by decide +kernel)) (by decide) _
  (Res.built (by decide +kernel)) 70

theorem C20_length_set [Target] (env : Env) (S : IdxTy) (borrow : T → Q) (eq : Q → Q → Bool)
    (lenT : T → Nat) (lenQ : Q → Nat) (payload : List T) (s : LengthSet T)
    (hs : LengthSet.fromVec env S lenT payload = .ok s) (h32 : payload.length < 2 ^ 32)
    (r : HashAnalysis) (hr : analyzeHashCodes (payload.map lenT) = .ok r) (q : Q) :
    ∃ o n, s.getCounted borrow eq lenQ q = .ok (o, n) ∧ s.get borrow eq lenQ q = .ok o ∧
      n ≤ 1 + r.numHashCollisions := by
  unfold LengthSet.fromVec at hs
  simp only [Res.bind_eq_ok, Res.pure_eq, Res.ok.injEq] at hs
  obtain ⟨m, hm, rfl⟩ := hs
  exact counted_toSet (C20_length_map env S borrow eq lenT lenQ _ m hm (by rwa [unitPayload_length]) r
    (by rwa [unitPayload_codes payload lenT]) q)

example := C20_length_set checkedEnv IdxTy.u8 id (fun a b : Bytes => decide (a = b)) List.length
  List.length exStrings _ (Res.built (by decide +kernel)) (by decide) _ (Res.built (by decide +kernel)) [121, 100]

/-- Left slice sets over strings that reach the end of the range. -/
theorem C20_left_slice_set [Target] (env : Env) (S : IdxTy) (cap : Nat) (hS : S.capacity = some cap)
    (payload : List Bytes) (hcap : payload.length ≤ cap) (a b : Nat) (hab : a ≤ b)
    (hlong : ∀ x ∈ payload, b ≤ x.length) (bh : Hasher) (r : HashAnalysis)
    (hr : analyzeHashCodes (payload.map (fun x => bh [.write ((x.drop a).take (b - a))])) = .ok r) :
    ∃ s, LeftSliceSet.fromVecWithHasher env S payload a b bh = .ok s ∧
      ∀ q, ∃ o n, s.getCounted q = .ok (o, n) ∧ s.get q = .ok o ∧
        n ≤ 1 + r.numHashCollisions := by
  obtain ⟨m, h1, h2⟩ := C20_left_slice_map env S cap hS (unitPayload payload)
    (by rwa [unitPayload_length]) a b hab
    (unitPayload_forall (C := fun x : Bytes => b ≤ x.length) hlong) bh r
    (by rwa [unitPayload_codes payload (fun x => bh [.write ((x.drop a).take (b - a))])])
  refine ⟨⟨m⟩, ?_, fun q => counted_toSet (h2 q)⟩
  unfold LeftSliceSet.fromVecWithHasher
  rw [h1]
  rfl

example := C20_left_slice_set checkedEnv IdxTy.u8 255 (by decide) exStrings (by decide) 1 2 (by decide)
  (by decide) demoHasher _ (Res.built (by decide +kernel))

/-- Right slice sets over a range in descending order and strings that reach its start. -/
theorem C20_right_slice_set [Target] (env : Env) (S : IdxTy) (cap : Nat) (hS : S.capacity = some cap)
    (payload : List Bytes) (hcap : payload.length ≤ cap) (a b : Nat) (hba : b ≤ a)
    (hlong : ∀ x ∈ payload, a ≤ x.length) (bh : Hasher) (r : HashAnalysis)
    (hr : analyzeHashCodes (payload.map (fun x => bh [.write (beforeEnd a b x)])) = .ok r) :
    ∃ s, RightSliceSet.fromVecWithHasher env S payload a b bh = .ok s ∧
      ∀ oc q, ∃ o n, s.getCounted oc q = .ok (o, n) ∧ s.get oc q = .ok o ∧
        n ≤ 1 + r.numHashCollisions := by
  obtain ⟨m, h1, h2⟩ := C20_right_slice_map env S cap hS (unitPayload payload)
    (by rwa [unitPayload_length]) a b hba
    (unitPayload_forall (C := fun x : Bytes => a ≤ x.length) hlong) bh r
    (by rwa [unitPayload_codes payload (fun x => bh [.write (beforeEnd a b x)])])
  refine ⟨⟨m⟩, ?_, fun oc q => counted_toSet (h2 oc q)⟩
  unfold RightSliceSet.fromVecWithHasher
  rw [h1]
  rfl

example := C20_right_slice_set checkedEnv IdxTy.u8 255 (by decide) exStrings (by decide) 2 1 (by decide)
  (by decide) demoHasher _ (Res.built (by decide +kernel))

/-- `FrozenSet` with four elements or more that are filed by a code, repeated or not. -/
theorem C20_frozen_set [Target] (env : Env) (ty : KeyTy T) (hty : LawfulKey ty)
    (payload : List T) (bh : Hasher) (s : FrozenSet T)
    (hs : FrozenSet.new env ty payload bh = .ok s) (h32 : payload.length < 2 ^ 32)
    (h4 : 4 ≤ payload.length) (code : T → Nat)
    (hf : filedBy env.oc ty bh payload = some code) (r : HashAnalysis)
    (hr : analyzeHashCodes (payload.map code) = .ok r) (q : T) :
    ∃ o n, s.getCounted env ty q = .ok (o, n) ∧ s.get env ty q = .ok o ∧
      n ≤ 1 + r.numHashCollisions := by
  rw [FrozenSet.getCounted_toMap, FrozenSet.get_toMap]
  exact counted_toSet (C20_frozen_map env ty hty (unitPayload payload) bh s.toMap (FrozenSet.new_ok hs)
    (by rwa [unitPayload_length]) (by rwa [unitPayload_length]) code
    (by rwa [unitPayload_keys]) r (by rwa [unitPayload_codes payload code]) q)

example (q : _) := C20_frozen_set checkedEnv u32Ty u32Ty_lawful exSetKeys demoHasher _ exFrozenSet_ok
  (by decide) (by decide) _ rfl _ (Res.built (by decide +kernel)) q

/-! ### C84: misses on average -/

/-- General hash sets. -/
theorem C84_common_set [Target] (env : Env) (S : IdxTy) (P : Probe T Q) (enc : T → List HCall)
    (payload : List T) (bh : Hasher) (s : CommonSet T)
    (hs : CommonSet.fromVecWithHasher env S enc payload bh = .ok s)
    (h32 : payload.length < 2 ^ 32) (N : Nat) :
    CheapMisses payload.length N (s.getCounted P) (fun q => bh (P.enc q))
      (fun q => ∀ x ∈ payload, P.eq q (P.borrow x) = false) := by
  unfold CommonSet.fromVecWithHasher at hs
  simp only [Res.bind_eq_ok, Res.pure_eq, Res.ok.injEq] at hs
  obtain ⟨m, hm, rfl⟩ := hs
  have h := C84_common_map env S P enc _ bh m hm (by rwa [unitPayload_length]) N
  rw [unitPayload_length] at h
  exact h.toSet (fun _ => rfl) (fun q hq => unitPayload_forall hq)

example := C84_common_set checkedEnv IdxTy.u8 otherTy.probe otherTy.enc exElems demoHasher _
  (Res.built (by decide +kernel)) (by decide) (2 ^ 64)

/-- Integer sets: integers that are not elements. -/
theorem C84_integer_set [Target] (env : Env) (S : IdxTy) (payload : List Int)
    (s : IntegerSet) (hs : IntegerSet.fromVec env S payload = .ok s)
    (h32 : payload.length < 2 ^ 32) (N : Nat) :
    CheapMisses payload.length N s.getCounted asU64 (fun q => q ∉ payload) := by
  unfold IntegerSet.fromVec at hs
  simp only [Res.bind_eq_ok, Res.pure_eq, Res.ok.injEq] at hs
  obtain ⟨m, hm, rfl⟩ := hs
  have h := C84_integer_map env S _ m hm (by rwa [unitPayload_length]) N
  rw [unitPayload_length] at h
  exact h.toSet (fun _ => rfl)
    (fun q hq => unitPayload_forall (C := fun x => q ≠ x) (fun x hx h => hq (h ▸ hx)))

example := C84_integer_set checkedEnv IdxTy.u8 exElems _ (Res.built (by decide +kernel)) (by decide) (2 ^ 64)

/-- Length sets: values of different lengths that are not elements. -/
theorem C84_length_set [Target] (env : Env) (S : IdxTy) (borrow : T → Q) (eq : Q → Q → Bool)
    (lenT : T → Nat) (lenQ : Q → Nat) (payload : List T)
    (s : LengthSet T) (hs : LengthSet.fromVec env S lenT payload = .ok s)
    (h32 : payload.length < 2 ^ 32) (N : Nat) :
    CheapMisses payload.length N (s.getCounted borrow eq lenQ) lenQ
      (fun q => ∀ x ∈ payload, eq q (borrow x) = false) := by
  unfold LengthSet.fromVec at hs
  simp only [Res.bind_eq_ok, Res.pure_eq, Res.ok.injEq] at hs
  obtain ⟨m, hm, rfl⟩ := hs
  have h := C84_length_map env S borrow eq lenT lenQ _ m hm (by rwa [unitPayload_length]) N
  rw [unitPayload_length] at h
  exact h.toSet (fun _ => rfl) (fun q hq => unitPayload_forall hq)

example := C84_length_set checkedEnv IdxTy.u8 id (fun a b : Bytes => decide (a = b)) List.length
  List.length exStrings _ (Res.built (by decide +kernel)) (by decide) 1000

/-- Left slice sets. -/
theorem C84_left_slice_set [Target] (env : Env) (S : IdxTy) (payload : List Bytes)
    (a b : Nat) (hab : payload = [] → a ≤ b) (bh : Hasher) (s : LeftSliceSet)
    (hs : LeftSliceSet.fromVecWithHasher env S payload a b bh = .ok s)
    (h32 : payload.length < 2 ^ 32) (N : Nat) :
    CheapMisses payload.length N s.getCounted
      (fun q => if b ≤ q.length then bh [.write ((q.drop a).take (b - a))] else 0)
      (fun q => q ∉ payload) := by
  unfold LeftSliceSet.fromVecWithHasher at hs
  simp only [Res.bind_eq_ok, Res.pure_eq, Res.ok.injEq] at hs
  obtain ⟨m, hm, rfl⟩ := hs
  have h := C84_left_slice_map env S (unitPayload payload) a b (fun h => hab (List.map_eq_nil_iff.1 h)) bh m hm (by rwa [unitPayload_length]) N
  rw [unitPayload_length] at h
  exact h.toSet (fun _ => rfl)
    (fun q hq => unitPayload_forall (C := fun x => q ≠ x) (fun x hx h => hq (h ▸ hx)))

example := C84_left_slice_set checkedEnv IdxTy.u8 exStrings 1 2 (by decide) demoHasher _
  (Res.built (by decide +kernel)) (by decide) (2 ^ 64)

/-- Right slice sets. -/
theorem C84_right_slice_set [Target] (env : Env) (S : IdxTy) (payload : List Bytes)
    (a b : Nat) (hne : payload = [] → b ≤ a) (ha : a < usz) (hb : b < usz) (bh : Hasher)
    (s : RightSliceSet) (hs : RightSliceSet.fromVecWithHasher env S payload a b bh = .ok s)
    (h32 : payload.length < 2 ^ 32) (oc : Bool) (N : Nat) :
    CheapMisses payload.length N (s.getCounted oc)
      (fun q => if a ≤ q.length then bh [.write (beforeEnd a b q)] else 0)
      (fun q => q ∉ payload) := by
  unfold RightSliceSet.fromVecWithHasher at hs
  simp only [Res.bind_eq_ok, Res.pure_eq, Res.ok.injEq] at hs
  obtain ⟨m, hm, rfl⟩ := hs
  have h := C84_right_slice_map env S _ a b (fun h => hne (by simpa [unitPayload] using h)) ha hb bh m
    hm (by rwa [unitPayload_length]) oc N
  rw [unitPayload_length] at h
  exact h.toSet (fun _ => rfl)
    (fun q hq => unitPayload_forall (C := fun x => q ≠ x) (fun x hx h => hq (h ▸ hx)))

example := C84_right_slice_set checkedEnv IdxTy.u8 exStrings 2 1 (by decide) (by decide) (by decide)
  demoHasher _ (Res.built (by decide +kernel)) (by decide) true (2 ^ 64)

/-- `FrozenSet` with four elements or more that are filed by a code. -/
theorem C84_frozen_set [Target] (env : Env) (ty : KeyTy T) (hty : LawfulKey ty)
    (payload : List T) (bh : Hasher) (s : FrozenSet T)
    (hs : FrozenSet.new env ty payload bh = .ok s) (h32 : payload.length < 2 ^ 32)
    (h4 : 4 ≤ payload.length) (code : T → Nat)
    (hf : filedBy env.oc ty bh payload = some code) (N : Nat) :
    CheapMisses payload.length N (s.getCounted env ty) code
      (fun q => ∀ x ∈ payload, ty.eq q x = false) := by
  have h := C84_frozen_map env ty hty (unitPayload payload) bh s.toMap (FrozenSet.new_ok hs)
    (by rwa [unitPayload_length]) (by rwa [unitPayload_length]) code (by rwa [unitPayload_keys]) N
  rw [unitPayload_length] at h
  refine h.toSet (FrozenSet.getCounted_toMap env ty s) (fun q hq => ?_)
  rintro ⟨e, he, h⟩
  rw [unitPayload_forall (C := fun x => ty.eq q x = false) hq e he] at h
  cases h

example := C84_frozen_set checkedEnv u32Ty u32Ty_lawful exSetKeys demoHasher _ exFrozenSet_ok (by decide)
  (by decide) _ rfl (2 ^ 64)

end FC
