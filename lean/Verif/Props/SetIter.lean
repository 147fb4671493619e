import Verif.Spec.Sets
import Verif.Props.MapIter
import Verif.Lemmas.Sets

/-
C11 (sets), C14, C44, C46: iteration over sets.
-/

set_option autoImplicit false

namespace FC
variable {T : Type}

/-- State of the borrowing set iterator after `n` calls. -/
theorem SetIter.calls_eq (es : List (T × Unit)) (n : Nat) :
    calls SetIter.next n (SetIter.new es)
      = (firstCalls (es.map (·.1)) n, ⟨es, min n es.length⟩) := by
  have h := calls_index (SetIter.next (T := T)) (fun i => ⟨es, i⟩) (·.1) es (by
    intro i
    simp only [SetIter.next]
    cases es[i]? <;> rfl) n 0 (Nat.zero_le _)
  simp only [List.drop_zero, Nat.zero_add] at h
  exact h

/-! ### C46 -/

/-- The borrowing set iterator: `next`, `len` and `size_hint` keep the contract at every point. -/
theorem C46_iter [Target] (oc : Bool) (es : List (T × Unit)) (n : Nat) :
    let r := calls SetIter.next n (SetIter.new es)
    r.1 = firstCalls (es.map (·.1)) n ∧
    r.2.len oc = .ok (es.length - n) ∧
    r.2.sizeHint oc = .ok (es.length - n, some (es.length - n)) := by
  rw [SetIter.calls_eq]
  have hlen : usub oc es.length (min n es.length) = .ok (es.length - n) := by
    rw [usub_ok (by omega)]; congr 1; omega
  refine ⟨rfl, hlen, ?_⟩
  simp only [SetIter.sizeHint, SetIter.len, hlen, Res.ok_bind, Res.pure_eq]

example : (calls SetIter.next 2 (SetIter.new (unitPayload [5, 6, 7]))).2.len true = .ok 1 := by
  decide +kernel

/-! ### C14 -/

/-- C14 is false: after one `next()` on a three-element set two items remain, `count()` says one;
after two calls, with overflow checks, `count()` panics, and without them it wraps. -/
theorem C14_counterexample :
    (calls SetIter.next 1 (SetIter.new (unitPayload [5, 6, 7]))).2.count true = .ok 1 ∧
    (calls SetIter.next 2 (SetIter.new (unitPayload [5, 6, 7]))).2.count true = .panic ∧
    (calls SetIter.next 2 (SetIter.new (unitPayload [5, 6, 7]))).2.count false = .ok (usz - 1) := by
  decide +kernel

/-- `count()` is the number of items still to come exactly when no item has been taken yet (or the
set is empty). Missing from C14: every other point, where it is false. -/
theorem C14_count_exact_iff_fresh_partial [Target] (oc : Bool) (es : List (T × Unit))
    (hlen : es.length < usz) (n : Nat) :
    (calls SetIter.next n (SetIter.new es)).2.count oc = .ok (es.length - n) ↔ n = 0 ∨ es = [] := by
  rw [SetIter.calls_eq]
  have h1 : usub oc es.length (min n es.length) = .ok (es.length - n) := by
    rw [usub_ok (by omega)]; congr 1; omega
  simp only [SetIter.count, SetIter.len, h1, Res.ok_bind]
  rw [← List.length_eq_zero_iff]
  generalize es.length = L at *
  rcases usub_cases oc (L - n) (min n L) with ⟨a, b⟩ | ⟨a, b | ⟨c, b⟩⟩
  · rw [b]
    simp only [Res.ok.injEq]
    omega
  · rw [b]; simp; omega
  · rcases b with ⟨b, d⟩ | b
    · rw [b]
      simp only [Res.ok.injEq]
      generalize usz = W at *
      omega
    · generalize usz = W at *
      omega

example := C14_count_exact_iff_fresh_partial true (unitPayload [5, 6, 7]) (by decide) 2

/-- `count()` on a fresh iterator. -/
theorem C14_fresh_count_partial [Target] (oc : Bool) (es : List (T × Unit)) :
    (SetIter.new es).count oc = .ok es.length := by
  simp [SetIter.count, SetIter.len, SetIter.new, usub]

example : (SetIter.new (unitPayload [5, 6, 7])).count true = .ok 3 := by decide +kernel

/-! ### C11, sets -/

/-- Iterating a constructed set produces the payload, in some order, then `None`. -/
theorem C11_set_iteration [Target] (env : Env) (ty : KeyTy T) (hty : LawfulKey ty)
    (payload : List T) (bh : Hasher) (s : FrozenSet T)
    (hs : FrozenSet.new env ty payload bh = .ok s) :
    ∃ es : List T, es.Perm payload ∧ ∀ n,
      (calls SetIter.next n (s.iter ty)).1 = firstCalls es n := by
  have hb := new_perm env hty (FrozenSet.new_ok hs)
  refine ⟨(s.toMap.entries ty).map (·.1), ?_, fun n => ?_⟩
  · have := hb.map (·.1)
    rwa [unitPayload_keys] at this
  · rw [FrozenSet.iter_toMap, SetIter.calls_eq]

/-- C31, its part about iteration: the set is iterated over by going through the payload's values. -/
theorem C31_iteration [Target] (env : Env) (ty : KeyTy T) (hty : LawfulKey ty)
    (payload : List T) (bh : Hasher) (s : FrozenSet T)
    (hs : FrozenSet.new env ty payload bh = .ok s) :
    ∃ es : List T, es.Perm payload ∧ ∀ n,
      (calls SetIter.next n (s.iter ty)).1 = firstCalls es n :=
  C11_set_iteration env ty hty payload bh s hs

example := C31_iteration checkedEnv u32Ty u32Ty_lawful exSetKeys demoHasher exFrozenSet exFrozenSet_ok

example : ∃ s, FrozenSet.new checkedEnv u32Ty [10, 500, 7, 9000, 3] demoHasher = .ok s ∧
    ∃ es : List UInt32, es.Perm [10, 500, 7, 9000, 3] ∧ ∀ n,
      (calls SetIter.next n (s.iter u32Ty)).1 = firstCalls es n := by
  obtain ⟨s, h⟩ := Res.of_isOk (r := FrozenSet.new checkedEnv u32Ty [10, 500, 7, 9000, 3]
    demoHasher) (by decide +kernel)
  exact ⟨s, h, C11_set_iteration _ _ u32Ty_lawful _ _ s h⟩

/-! ### C44 -/

/-- The consuming iterator over `es`: the items in order, then `None`; exact counts throughout. -/
theorem SetIntoIter.contract (es : List (T × Unit)) (n : Nat) :
    let r := calls SetIntoIter.next n (SetIntoIter.new es)
    r.1 = firstCalls (es.map (·.1)) n ∧ r.2.len = es.length - n ∧
    r.2.sizeHint = (es.length - n, some (es.length - n)) ∧ r.2.count = es.length - n := by
  have h : ∀ n (es : List (T × Unit)), calls SetIntoIter.next n ⟨es⟩
      = (firstCalls (es.map (·.1)) n, ⟨es.drop n⟩) := by
    intro n
    induction n with
    | zero => intro es; rfl
    | succ n ih =>
      intro es
      unfold calls
      cases es with
      | nil =>
        simp only [SetIntoIter.next]
        rw [ih []]
        simp [firstCalls_nil, List.replicate_succ]
      | cons e es =>
        simp only [SetIntoIter.next]
        rw [ih es]
        simp [firstCalls_cons]
  simp only [SetIntoIter.new]
  rw [h]
  simp [SetIntoIter.len, SetIntoIter.sizeHint, SetIntoIter.count]

theorem yieldsExactly {es : List (T × Unit)} {payload : List T}
    (h : es.Perm (unitPayload payload)) : YieldsExactly (SetIntoIter.new es) payload := by
  refine ⟨es.map (·.1), ?_, fun n => ?_⟩
  · have := h.map (·.1)
    rwa [unitPayload_keys] at this
  · simpa using SetIntoIter.contract es n

theorem C44_scanning_set (payload : List T) :
    YieldsExactly (ScanningSet.fromVec payload).intoIter payload :=
  yieldsExactly (List.Perm.refl _)

theorem C44_common_set [Target] (env : Env) (S : IdxTy) (enc : T → List HCall) (payload : List T)
    (bh : Hasher) (s : CommonSet T)
    (h : CommonSet.fromVecWithHasher env S enc payload bh = .ok s) :
    YieldsExactly s.intoIter payload := by
  unfold CommonSet.fromVecWithHasher CommonMap.fromVecWithHasher at h
  simp only [Res.bind_eq_ok, Res.pure_eq, Res.ok.injEq] at h
  obtain ⟨_, ⟨r, _, t, ht, rfl⟩, rfl⟩ := h
  exact yieldsExactly (HashTable.new_perm ht)

example := C44_common_set checkedEnv IdxTy.u8 otherTy.enc exElems demoHasher _
  (Res.built (r := CommonSet.fromVecWithHasher checkedEnv IdxTy.u8 otherTy.enc exElems demoHasher)
    (by decide +kernel))

theorem C44_integer_set [Target] (env : Env) (S : IdxTy) (payload : List Int) (s : IntegerSet)
    (h : IntegerSet.fromVec env S payload = .ok s) : YieldsExactly s.intoIter payload := by
  unfold IntegerSet.fromVec IntegerMap.fromVec at h
  simp only [Res.bind_eq_ok, Res.pure_eq, Res.ok.injEq] at h
  obtain ⟨_, ⟨r, _, t, ht, rfl⟩, rfl⟩ := h
  exact yieldsExactly (HashTable.new_perm ht)

example := C44_integer_set checkedEnv IdxTy.u8 exElems _
  (Res.built (r := IntegerSet.fromVec checkedEnv IdxTy.u8 exElems) (by decide +kernel))

theorem C44_length_set [Target] (env : Env) (S : IdxTy) (lenT : T → Nat) (payload : List T)
    (s : LengthSet T) (h : LengthSet.fromVec env S lenT payload = .ok s) :
    YieldsExactly s.intoIter payload := by
  unfold LengthSet.fromVec LengthMap.fromVec at h
  simp only [Res.bind_eq_ok, Res.pure_eq, Res.ok.injEq] at h
  obtain ⟨_, ⟨r, _, t, ht, rfl⟩, rfl⟩ := h
  exact yieldsExactly (HashTable.new_perm ht)

example := C44_length_set checkedEnv IdxTy.u8 List.length exStrings _
  (Res.built (r := LengthSet.fromVec checkedEnv IdxTy.u8 List.length exStrings) (by decide +kernel))

theorem C44_left_slice_set [Target] (env : Env) (S : IdxTy) (payload : List Bytes) (a b : Nat) (bh : Hasher)
    (s : LeftSliceSet) (h : LeftSliceSet.fromVecWithHasher env S payload a b bh = .ok s) :
    YieldsExactly s.intoIter payload := by
  unfold LeftSliceSet.fromVecWithHasher LeftSliceMap.fromVecWithHasher at h
  simp only [Res.bind_eq_ok, Res.pure_eq, Res.ok.injEq] at h
  obtain ⟨_, ⟨c, _, r, _, t, ht, rfl⟩, rfl⟩ := h
  exact yieldsExactly (HashTable.new_perm ht)

example := C44_left_slice_set checkedEnv IdxTy.u8 exStrings 1 2 demoHasher _
  (Res.built (r := LeftSliceSet.fromVecWithHasher checkedEnv IdxTy.u8 exStrings 1 2 demoHasher)
    (by decide +kernel))

theorem C44_right_slice_set [Target] (env : Env) (S : IdxTy) (payload : List Bytes) (a b : Nat) (bh : Hasher)
    (s : RightSliceSet) (h : RightSliceSet.fromVecWithHasher env S payload a b bh = .ok s) :
    YieldsExactly s.intoIter payload := by
  unfold RightSliceSet.fromVecWithHasher RightSliceMap.fromVecWithHasher at h
  simp only [Res.bind_eq_ok, Res.pure_eq, Res.ok.injEq] at h
  obtain ⟨_, ⟨c, _, r, _, t, ht, rfl⟩, rfl⟩ := h
  exact yieldsExactly (HashTable.new_perm ht)

example := C44_right_slice_set checkedEnv IdxTy.u8 exStrings 2 1 demoHasher _
  (Res.built (r := RightSliceSet.fromVecWithHasher checkedEnv IdxTy.u8 exStrings 2 1 demoHasher)
    (by decide +kernel))

theorem rangeFromVec_perm [Target] {V : Type} {oc : Bool} {t : IntTy} {payload : List (Int × V)}
    {m : IntegerRangeMap V} (h : IntegerRangeMap.fromVec oc t payload = .ok m) :
    m.entries.Perm payload := by
  have hp := stableSort_perm (fun e : Int × V => e.1) payload
  unfold IntegerRangeMap.fromVec at h
  simp only at h
  split at h
  · rename_i he
    cases h
    rwa [he] at hp
  · rename_i first rest he
    simp only [Res.bind_eq_ok, Res.pure_eq, Res.ok.injEq] at h
    obtain ⟨d, _, sp, _, _, _, rfl⟩ := h
    exact hp

theorem C44_integer_range_set [Target] (oc : Bool) (t : IntTy) (payload : List Int) (s : IntegerRangeSet)
    (h : IntegerRangeSet.fromVec oc t payload = .ok s) : YieldsExactly s.intoIter payload := by
  unfold IntegerRangeSet.fromVec at h
  simp only [Res.bind_eq_ok, Res.pure_eq, Res.ok.injEq] at h
  obtain ⟨m, hm, rfl⟩ := h
  exact yieldsExactly (rangeFromVec_perm hm)

example := C44_integer_range_set true IntTy.u32 [3, 1, 2] _
  (Res.built (r := IntegerRangeSet.fromVec true IntTy.u32 [3, 1, 2]) (by decide +kernel))

/-! ### C46, the sets themselves -/

theorem visitsExactly [Target] {es : List (T × Unit)} {payload : List T}
    (h : es.Perm (unitPayload payload)) : VisitsExactly (SetIter.new es) es.length payload := by
  have hl : es.length = payload.length := by rw [h.length_eq, unitPayload_length]
  refine ⟨hl, es.map (·.1), ?_, fun oc n => ?_⟩
  · have := h.map (·.1)
    rwa [unitPayload_keys] at this
  · rw [← hl]
    exact C46_iter oc es n

theorem C46_frozen_set [Target] (env : Env) (ty : KeyTy T) (hty : LawfulKey ty)
    (payload : List T) (bh : Hasher) (s : FrozenSet T)
    (hs : FrozenSet.new env ty payload bh = .ok s) : VisitsExactly (s.iter ty) s.len payload := by
  have hp := new_perm env hty (FrozenSet.new_ok hs)
  have := visitsExactly hp
  rw [← new_len env (FrozenSet.new_ok hs), ← FrozenSet.len_toMap] at this
  rw [FrozenSet.iter_toMap]
  exact this

example := C46_frozen_set checkedEnv u32Ty u32Ty_lawful exSetKeys demoHasher exFrozenSet exFrozenSet_ok

theorem C46_scanning_set [Target] (payload : List T) :
    VisitsExactly (ScanningSet.fromVec payload).iter (ScanningSet.fromVec payload).len payload :=
  visitsExactly (List.Perm.refl _)

theorem C46_common_set [Target] (env : Env) (S : IdxTy) (enc : T → List HCall) (payload : List T)
    (bh : Hasher) (s : CommonSet T)
    (h : CommonSet.fromVecWithHasher env S enc payload bh = .ok s) :
    VisitsExactly s.iter s.len payload := by
  unfold CommonSet.fromVecWithHasher CommonMap.fromVecWithHasher at h
  simp only [Res.bind_eq_ok, Res.pure_eq, Res.ok.injEq] at h
  obtain ⟨_, ⟨r, _, t, ht, rfl⟩, rfl⟩ := h
  exact visitsExactly (HashTable.new_perm ht)

example := C46_common_set checkedEnv IdxTy.u8 otherTy.enc exElems demoHasher _
  (Res.built (r := CommonSet.fromVecWithHasher checkedEnv IdxTy.u8 otherTy.enc exElems demoHasher)
    (by decide +kernel))

theorem C46_integer_set [Target] (env : Env) (S : IdxTy) (payload : List Int) (s : IntegerSet)
    (h : IntegerSet.fromVec env S payload = .ok s) :
    VisitsExactly s.iter s.len payload := by
  unfold IntegerSet.fromVec IntegerMap.fromVec at h
  simp only [Res.bind_eq_ok, Res.pure_eq, Res.ok.injEq] at h
  obtain ⟨_, ⟨r, _, t, ht, rfl⟩, rfl⟩ := h
  exact visitsExactly (HashTable.new_perm ht)

example := C46_integer_set checkedEnv IdxTy.u8 exElems _
  (Res.built (r := IntegerSet.fromVec checkedEnv IdxTy.u8 exElems) (by decide +kernel))

theorem C46_length_set [Target] (env : Env) (S : IdxTy) (lenT : T → Nat) (payload : List T)
    (s : LengthSet T) (h : LengthSet.fromVec env S lenT payload = .ok s) :
    VisitsExactly s.iter s.len payload := by
  unfold LengthSet.fromVec LengthMap.fromVec at h
  simp only [Res.bind_eq_ok, Res.pure_eq, Res.ok.injEq] at h
  obtain ⟨_, ⟨r, _, t, ht, rfl⟩, rfl⟩ := h
  exact visitsExactly (HashTable.new_perm ht)

example := C46_length_set checkedEnv IdxTy.u8 List.length exStrings _
  (Res.built (r := LengthSet.fromVec checkedEnv IdxTy.u8 List.length exStrings) (by decide +kernel))

theorem C46_left_slice_set [Target] (env : Env) (S : IdxTy) (payload : List Bytes) (a b : Nat)
    (bh : Hasher) (s : LeftSliceSet)
    (h : LeftSliceSet.fromVecWithHasher env S payload a b bh = .ok s) :
    VisitsExactly s.iter s.len payload := by
  unfold LeftSliceSet.fromVecWithHasher LeftSliceMap.fromVecWithHasher at h
  simp only [Res.bind_eq_ok, Res.pure_eq, Res.ok.injEq] at h
  obtain ⟨_, ⟨c, _, r, _, t, ht, rfl⟩, rfl⟩ := h
  exact visitsExactly (HashTable.new_perm ht)

example := C46_left_slice_set checkedEnv IdxTy.u8 exStrings 1 2 demoHasher _
  (Res.built (r := LeftSliceSet.fromVecWithHasher checkedEnv IdxTy.u8 exStrings 1 2 demoHasher)
    (by decide +kernel))

theorem C46_right_slice_set [Target] (env : Env) (S : IdxTy) (payload : List Bytes) (a b : Nat)
    (bh : Hasher) (s : RightSliceSet)
    (h : RightSliceSet.fromVecWithHasher env S payload a b bh = .ok s) :
    VisitsExactly s.iter s.len payload := by
  unfold RightSliceSet.fromVecWithHasher RightSliceMap.fromVecWithHasher at h
  simp only [Res.bind_eq_ok, Res.pure_eq, Res.ok.injEq] at h
  obtain ⟨_, ⟨c, _, r, _, t, ht, rfl⟩, rfl⟩ := h
  exact visitsExactly (HashTable.new_perm ht)

example := C46_right_slice_set checkedEnv IdxTy.u8 exStrings 2 1 demoHasher _
  (Res.built (r := RightSliceSet.fromVecWithHasher checkedEnv IdxTy.u8 exStrings 2 1 demoHasher)
    (by decide +kernel))

theorem C46_integer_range_set [Target] (oc : Bool) (t : IntTy) (payload : List Int)
    (s : IntegerRangeSet) (h : IntegerRangeSet.fromVec oc t payload = .ok s) :
    VisitsExactly s.iter s.len payload := by
  unfold IntegerRangeSet.fromVec at h
  simp only [Res.bind_eq_ok, Res.pure_eq, Res.ok.injEq] at h
  obtain ⟨m, hm, rfl⟩ := h
  exact visitsExactly (rangeFromVec_perm hm)

example := C46_integer_range_set true IntTy.u32 [3, 1, 2] _
  (Res.built (r := IntegerRangeSet.fromVec true IntTy.u32 [3, 1, 2]) (by decide +kernel))

/-- Sets of five and of three elements are built, so the hypotheses can be met. -/
example : (IntegerSet.fromVec checkedEnv IdxTy.u8 [10, -3, 7, 100, 4]).isOk = true ∧
    (LeftSliceSet.fromVecWithHasher checkedEnv IdxTy.u8 [[1, 2], [1, 3], [1, 4]] 1 2
      demoHasher).isOk = true ∧
    (IntegerRangeSet.fromVec true IntTy.u32 [3, 1, 2]).isOk = true ∧
    (CommonSet.fromVecWithHasher checkedEnv IdxTy.u8 otherTy.enc [5, 9, 5] demoHasher).isOk = true ∧
    (LengthSet.fromVec checkedEnv IdxTy.u8 List.length [[1], [1, 2, 3], []]).isOk = true ∧
    (RightSliceSet.fromVecWithHasher checkedEnv IdxTy.u8 [[1, 2], [1, 3], [1, 4]] 1 0
      demoHasher).isOk = true := by
  decide +kernel

end FC
