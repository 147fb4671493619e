import Verif.Props.SpecializedMaps
import Verif.Props.Integers
import Verif.Spec.Sets

/-
C86: the specialized sets find the stored element, also through borrowed values.
-/

set_option autoImplicit false

namespace FC
variable {T Q : Type}

theorem answersMember_of {matching : T → Bool} {payload : List T}
    {kv : Res (Option (T × Ref Unit))} {g g' : Res (Option (Ref Unit))} {c : Res Bool}
    (h : AnswersProbe matching (unitPayload payload) kv g g' c) :
    AnswersMember matching payload (keyOf kv) ((keyOf kv).map Option.isSome) := by
  obtain ⟨o, rfl, _, _, _, ho⟩ := h
  refine ⟨o.map (·.1), rfl, rfl, fun x hx => ?_, fun hn x hx => ?_⟩
  · cases o with
    | none => cases hx
    | some p =>
      cases hx
      obtain ⟨h1, h2⟩ := ho
      obtain ⟨y, hy, hy'⟩ := List.mem_map.1 h1
      cases hy'
      exact ⟨hy, h2⟩
  · cases o with
    | none => exact ho (x, ()) (List.mem_map.2 ⟨x, hx, rfl⟩)
    | some p => cases hn

/-! Elements that are a number with a note, looked up by the number alone. -/

def noted : Probe (Int × String) Int := ⟨Prod.fst, fun a b => decide (a = b), fun q => otherTy.enc q⟩

def exNoted : List (Int × String) := [(3, "a"), (5, "b"), (8, "c"), (9, "d"), (20, "e")]

def exNotedSet : CommonSet (Int × String) :=
  (CommonSet.fromVecWithHasher checkedEnv IdxTy.u8 (fun x => noted.enc x.1) exNoted demoHasher).get
    (by decide +kernel)

theorem exNotedSet_ok : CommonSet.fromVecWithHasher checkedEnv IdxTy.u8 (fun x => noted.enc x.1) exNoted
    demoHasher = .ok exNotedSet := Res.built _

def exNotedLengths : LengthSet (Bytes × String) :=
  (LengthSet.fromVec checkedEnv IdxTy.u8 (fun x : Bytes × String => x.1.length)
    [([1], "a"), ([1, 2], "b"), ([7, 7], "c"), ([1, 2, 3], "d")]).get (by decide +kernel)

theorem C86_scanning_set (P : Probe T Q) (payload : List T) (q : Q) :
    let s := ScanningSet.fromVec payload
    AnswersMember (fun x => P.eq q (P.borrow x)) payload (s.get P q) (s.contains P q) ∧
      s.len = payload.length := by
  obtain ⟨h1, h2⟩ := C30_scanning_map P (unitPayload payload) q
  exact ⟨answersMember_of h1, by rw [← unitPayload_length payload, ← h2]; rfl⟩

theorem C86_common_set [Target] (env : Env) (S : IdxTy) (P : Probe T Q) (enc : T → List HCall)
    (henc : ∀ x q, P.eq q (P.borrow x) = true → P.enc q = enc x)
    (payload : List T) (bh : Hasher) (s : CommonSet T)
    (hs : CommonSet.fromVecWithHasher env S enc payload bh = .ok s)
    (h32 : payload.length < 2 ^ 32) (q : Q) :
    AnswersMember (fun x => P.eq q (P.borrow x)) payload (s.get P q) (s.contains P q) ∧
      s.len = payload.length := by
  unfold CommonSet.fromVecWithHasher at hs
  simp only [Res.bind_eq_ok, Res.pure_eq, Res.ok.injEq] at hs
  obtain ⟨m, hm, rfl⟩ := hs
  obtain ⟨h1, h2⟩ := C30_common_map env S P enc henc (unitPayload payload) bh m hm
    (by rwa [unitPayload_length]) q
  exact ⟨answersMember_of h1, by rw [← unitPayload_length payload, ← h2]; rfl⟩

example := C86_common_set checkedEnv IdxTy.u8 noted (fun x => noted.enc x.1)
  (fun x q h => by rw [of_decide_eq_true h]; rfl) exNoted demoHasher exNotedSet exNotedSet_ok (by decide)
example : exNotedSet.get noted 9 = .ok (some (9, "d")) ∧ exNotedSet.contains noted 10 = .ok false := by
  decide +kernel

theorem C86_integer_set [Target] (env : Env) (S : IdxTy) (payload : List Int) (s : IntegerSet)
    (hs : IntegerSet.fromVec env S payload = .ok s) (h32 : payload.length < 2 ^ 32) (q : Int) :
    AnswersMember (fun x => decide (q = x)) payload (s.get q) (s.contains q) ∧
      s.len = payload.length := by
  unfold IntegerSet.fromVec at hs
  simp only [Res.bind_eq_ok, Res.pure_eq, Res.ok.injEq] at hs
  obtain ⟨m, hm, rfl⟩ := hs
  obtain ⟨h1, h2⟩ := C30_integer_map env S (unitPayload payload) m hm
    (by rwa [unitPayload_length]) q
  exact ⟨answersMember_of h1, by rw [← unitPayload_length payload, ← h2]; rfl⟩

example := C86_integer_set checkedEnv IdxTy.u8 exElems _
  (Res.built (r := IntegerSet.fromVec checkedEnv IdxTy.u8 exElems) (by decide +kernel)) (by decide)

theorem C86_length_set [Target] (env : Env) (S : IdxTy) (borrow : T → Q) (eq : Q → Q → Bool)
    (lenT : T → Nat) (lenQ : Q → Nat) (hlen : ∀ x q, eq q (borrow x) = true → lenQ q = lenT x)
    (payload : List T) (s : LengthSet T) (hs : LengthSet.fromVec env S lenT payload = .ok s)
    (h32 : payload.length < 2 ^ 32) (q : Q) :
    AnswersMember (fun x => eq q (borrow x)) payload (s.get borrow eq lenQ q)
        (s.contains borrow eq lenQ q) ∧ s.len = payload.length := by
  unfold LengthSet.fromVec at hs
  simp only [Res.bind_eq_ok, Res.pure_eq, Res.ok.injEq] at hs
  obtain ⟨m, hm, rfl⟩ := hs
  obtain ⟨h1, h2⟩ := C30_length_map env S borrow eq lenT lenQ hlen (unitPayload payload) m hm
    (by rwa [unitPayload_length]) q
  exact ⟨answersMember_of h1, by rw [← unitPayload_length payload, ← h2]; rfl⟩

example := C86_length_set checkedEnv IdxTy.u8 Prod.fst (fun a b : Bytes => decide (a = b))
  (fun x : Bytes × String => x.1.length) List.length (fun x q h => by rw [of_decide_eq_true h])
  [([1], "a"), ([1, 2], "b"), ([7, 7], "c"), ([1, 2, 3], "d")] exNotedLengths (Res.built _) (by decide)
example : exNotedLengths.get Prod.fst (fun a b => decide (a = b)) List.length [7, 7]
    = .ok (some ([7, 7], "c")) := by decide +kernel

/-- Probes of every length, values at least as long as the range of the slice. -/
theorem C86_left_slice_set [Target] (env : Env) (S : IdxTy) (cap : Nat) (hS : S.capacity = some cap)
    (payload : List Bytes) (hcap : payload.length ≤ cap) (a b : Nat) (hab : a ≤ b)
    (hlong : ∀ x ∈ payload, b ≤ x.length) (bh : Hasher) :
    ∃ s, LeftSliceSet.fromVecWithHasher env S payload a b bh = .ok s ∧ s.len = payload.length ∧
      ∀ q, AnswersMember (fun x => decide (q = x)) payload (s.get q) (s.contains q) := by
  obtain ⟨m, hm, h2, h1⟩ := C28_lookup env S cap hS (unitPayload payload)
    (by rwa [unitPayload_length]) a b hab
    (fun e he => by obtain ⟨x, hx, rfl⟩ := List.mem_map.1 he; exact hlong x hx) bh
  exact ⟨⟨m⟩, by unfold LeftSliceSet.fromVecWithHasher; rw [hm]; rfl,
    by rw [← unitPayload_length payload, ← h2]; rfl, fun q => answersMember_of (h1 q)⟩

example := C86_left_slice_set checkedEnv IdxTy.u8 255 (by decide) (exBytes.map (·.1)) (by decide) 1 2 (by decide)
  (by decide +kernel) demoHasher

/-- For ranges written downwards; what becomes of the others is in C29. -/
theorem C86_right_slice_set [Target] (env : Env) (S : IdxTy) (cap : Nat) (hS : S.capacity = some cap)
    (payload : List Bytes) (hcap : payload.length ≤ cap) (a b : Nat) (hab : b ≤ a)
    (hlong : ∀ x ∈ payload, a ≤ x.length) (bh : Hasher) :
    ∃ s, RightSliceSet.fromVecWithHasher env S payload a b bh = .ok s ∧ s.len = payload.length ∧
      ∀ oc q, AnswersMember (fun x => decide (q = x)) payload (s.get oc q) (s.contains oc q) := by
  obtain ⟨m, hm, h2, h1⟩ := C29_descending_partial env S cap hS (unitPayload payload)
    (by rwa [unitPayload_length]) a b hab
    (fun e he => by obtain ⟨x, hx, rfl⟩ := List.mem_map.1 he; exact hlong x hx) bh
  exact ⟨⟨m⟩, by unfold RightSliceSet.fromVecWithHasher; rw [hm]; rfl,
    by rw [← unitPayload_length payload, ← h2]; rfl, fun oc q => answersMember_of (h1 oc q)⟩

example := C86_right_slice_set checkedEnv IdxTy.u8 255 (by decide) (exBytes.map (·.1)) (by decide) 2 1
  (by decide) (by decide +kernel) demoHasher

theorem C86_integer_range_set [Target] (t : IntTy) (hb : 0 < t.bits) (oc : Bool) (payload : List Int)
    (hne : payload ≠ []) (hr : ∀ x ∈ payload, t.InRange x) (hd : payload.Nodup)
    (hc : Contiguous payload) (hspan : ∀ a ∈ payload, ∀ b ∈ payload, b - a ≤ t.hi)
    (hlen : payload.length < usz) :
    ∃ s, IntegerRangeSet.fromVec oc t payload = .ok s ∧ s.len = payload.length ∧
      ∀ oc' q, AnswersMember (fun x => decide (q = x)) payload (s.get oc' t q)
        (s.contains oc' t q) := by
  have hm' : ∀ e ∈ unitPayload payload, e.1 ∈ payload := fun e he => by
    obtain ⟨x, hx, rfl⟩ := List.mem_map.1 he; exact hx
  obtain ⟨m, hm, h2, h1⟩ := C23_lookup t hb oc (unitPayload payload)
    (by simpa [unitPayload] using hne) (fun e he => hr _ (hm' e he))
    (by rwa [unitPayload_keys]) (by rwa [unitPayload_keys])
    (fun a ha b hb => hspan _ (hm' a ha) _ (hm' b hb)) (by rwa [unitPayload_length])
  exact ⟨⟨m⟩, by unfold IntegerRangeSet.fromVec; rw [hm]; rfl,
    by rw [← unitPayload_length payload, ← h2]; rfl, fun oc' q => answersMember_of (h1 oc' q)⟩

example := C86_integer_range_set IntTy.i8 (by decide) true [-1, 1, 0, 2] (by decide) (by decide +kernel)
  (by decide) ((contiguous_span (by decide) (mn := -1) (mx := 2) ⟨by decide, by decide⟩
    ⟨by decide, by decide⟩).1 rfl) (by decide +kernel) (by decide +kernel)

end FC
