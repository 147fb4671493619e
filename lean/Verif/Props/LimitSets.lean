import Verif.Props.Limit
import Verif.Props.SetConstruct

/-
C68: sets of any number of values.
-/

set_option autoImplicit false

namespace FC
variable {T Q : Type}

/-- A map of units that is right makes a set that is right. -/
theorem RightRaw.set {matching : Q → T → Bool} {payload : List T} {len : Nat}
    {entries : List (T × Unit)} {getKeyValue : Q → Res (Option (T × Ref Unit))}
    {get getMut : Q → Res (Option (Ref Unit))} {containsKey : Q → Res Bool}
    (h : RightRaw matching (unitPayload payload) len entries getKeyValue get getMut containsKey) :
    SetRightUpTo32 matching payload len (SetIter.new entries).items (fun q => keyOf (getKeyValue q))
      (fun q => (keyOf (getKeyValue q)).map Option.isSome) := by
  obtain ⟨h1, h2, h3⟩ := h
  refine ⟨by simpa [unitPayload] using h1, ?_, fun q => ?_⟩
  · have := h2.map (·.1)
    simpa [SetIter.items, SetIter.new, unitPayload, Function.comp_def] using this
  · obtain ⟨o, k1, _, _, _, k5, k6⟩ := h3 q
    refine ⟨o.map (·.1), by simp [keyOf, k1], by simp [keyOf, k1], fun x hx => ?_, fun h32 ho x hx => ?_⟩
    · obtain ⟨⟨k, r⟩, rfl, rfl⟩ := Option.map_eq_some_iff.1 hx
      obtain ⟨hm, hq⟩ := k5 k r rfl
      simp only [unitPayload, List.mem_map, Prod.mk.injEq] at hm
      obtain ⟨y, hy, rfl, _⟩ := hm
      exact ⟨hy, hq⟩
    · have := k6 (by simpa [unitPayload] using h32)
      rw [Option.map_eq_none_iff] at ho
      subst ho
      exact this (x, ()) (by simpa [unitPayload] using hx)

/-- `CommonSet` with any number of values, any hasher and any index type. Missing from C68: as for
`C68_common_map_partial`. -/
theorem C68_common_set_partial [Target] (env : Env) (S : IdxTy) (P : Probe T Q) (enc : T → List HCall)
    (henc : ∀ k q, P.eq q (P.borrow k) = true → P.enc q = enc k) (payload : List T) (bh : Hasher) :
    (∃ s, CommonSet.fromVecWithHasher env S enc payload bh = .ok s ∧
      SetRightUpTo32 (fun q k => P.eq q (P.borrow k)) payload s.len s.iter.items (s.get P)
        (s.contains P)) ∨
    (CommonSet.fromVecWithHasher env S enc payload bh = .panic ∧ TooMany S payload.length) := by
  rcases common_map_right env S P enc henc (unitPayload payload) bh with ⟨m, hm, h⟩ | ⟨hm, hb⟩
  · exact Or.inl ⟨⟨m⟩, by unfold CommonSet.fromVecWithHasher; rw [hm]; rfl, h.set⟩
  · exact Or.inr ⟨by unfold CommonSet.fromVecWithHasher; rw [hm]; rfl,
      by simpa [unitPayload] using hb⟩

example := C68_common_set_partial checkedEnv IdxTy.u8 otherTy.probe otherTy.enc exOther_enc
  (exOther.map (·.1)) demoHasher

theorem C68_integer_set_partial [Target] (env : Env) (S : IdxTy) (payload : List Int) :
    (∃ s, IntegerSet.fromVec env S payload = .ok s ∧
      SetRightUpTo32 (fun q k => decide (q = k)) payload s.len s.iter.items s.get s.contains) ∨
    (IntegerSet.fromVec env S payload = .panic ∧ TooMany S payload.length) := by
  rcases integer_map_right env S (unitPayload payload) with ⟨m, hm, h⟩ | ⟨hm, hb⟩
  · exact Or.inl ⟨⟨m⟩, by unfold IntegerSet.fromVec; rw [hm]; rfl, h.set⟩
  · exact Or.inr ⟨by unfold IntegerSet.fromVec; rw [hm]; rfl, by simpa [unitPayload] using hb⟩

example := C68_integer_set_partial checkedEnv IdxTy.u8 [5, 9, -3, 5]

theorem C68_length_set_partial [Target] (env : Env) (S : IdxTy) (borrow : T → Q) (eq : Q → Q → Bool)
    (lenT : T → Nat) (lenQ : Q → Nat) (hlen : ∀ k q, eq q (borrow k) = true → lenQ q = lenT k)
    (payload : List T) :
    (∃ s, LengthSet.fromVec env S lenT payload = .ok s ∧
      SetRightUpTo32 (fun q k => eq q (borrow k)) payload s.len s.iter.items (s.get borrow eq lenQ)
        (s.contains borrow eq lenQ)) ∨
    (LengthSet.fromVec env S lenT payload = .panic ∧ TooMany S payload.length) := by
  rcases length_map_right env S borrow eq lenT lenQ hlen (unitPayload payload)
    with ⟨m, hm, h⟩ | ⟨hm, hb⟩
  · exact Or.inl ⟨⟨m⟩, by unfold LengthSet.fromVec; rw [hm]; rfl, h.set⟩
  · exact Or.inr ⟨by unfold LengthSet.fromVec; rw [hm]; rfl, by simpa [unitPayload] using hb⟩

example := C68_length_set_partial checkedEnv IdxTy.u8 id (fun a b : Bytes => decide (a = b)) List.length
  List.length exBytes_len (exBytes.map (·.1))

/-- Values that reach the end of the hashed range; probes of any length. -/
theorem C68_left_slice_set_partial [Target] (env : Env) (S : IdxTy) (payload : List Bytes)
    (a b : Nat) (hab : a ≤ b) (hlong : ∀ x ∈ payload, b ≤ x.length) (bh : Hasher) :
    (∃ s, LeftSliceSet.fromVecWithHasher env S payload a b bh = .ok s ∧
      SetRightUpTo32 (fun q k => decide (q = k)) payload s.len s.iter.items s.get s.contains) ∨
    (LeftSliceSet.fromVecWithHasher env S payload a b bh = .panic ∧ TooMany S payload.length) := by
  rcases left_slice_map_right env S (unitPayload payload) a b hab
    (by intro e he; simp only [unitPayload, List.mem_map] at he
        obtain ⟨x, hx, rfl⟩ := he
        exact hlong x hx) bh with ⟨m, hm, h⟩ | ⟨hm, hb⟩
  · exact Or.inl ⟨⟨m⟩, by unfold LeftSliceSet.fromVecWithHasher; rw [hm]; rfl, h.set⟩
  · exact Or.inr ⟨by unfold LeftSliceSet.fromVecWithHasher; rw [hm]; rfl,
      by simpa [unitPayload] using hb⟩

example := C68_left_slice_set_partial checkedEnv IdxTy.u8 (exBytes.map (·.1)) 1 2 (by decide)
  (by decide) demoHasher

/-- `FrozenSet` with any number of values, over a type of the caller's own. -/
theorem C68_frozen_set_partial [Target] (env : Env) (ty : KeyTy T) (hk : ty.kind = .other)
    (hty : LawfulKey ty) (payload : List T) (bh : Hasher) :
    (∃ s, FrozenSet.new env ty payload bh = .ok s ∧
      SetRightUpTo32 ty.eq payload s.len (s.iter ty).items (s.get env ty) (s.contains env ty)) ∨
    (FrozenSet.new env ty payload bh = .panic ∧ 2 ^ 31 ≤ payload.length) := by
  have hmap := FrozenSet.new_toMap env ty payload bh
  rcases frozen_map_right env ty hk hty (unitPayload payload) bh with ⟨m, hm, h⟩ | ⟨hm, hb⟩
  · rw [hm] at hmap
    cases hs : FrozenSet.new env ty payload bh with
    | ok s =>
      rw [hs] at hmap
      simp only [Res.map_ok, Res.ok.injEq] at hmap
      subst hmap
      refine Or.inl ⟨s, rfl, ?_⟩
      obtain ⟨h1, h2, h3⟩ := h.set
      rw [← FrozenSet.len_toMap] at h1
      rw [← FrozenSet.iter_toMap] at h2
      refine ⟨h1, h2, fun q => ?_⟩
      obtain ⟨o, k1, _, k3⟩ := h3 q
      obtain ⟨o', g1, g2, _⟩ := C10_frozen_set_safe env ty hk payload bh s hs env ty q
      beta_reduce at k1
      rw [← FrozenSet.get_toMap, g1] at k1
      cases k1
      exact ⟨_, g1, g2, k3⟩
    | panic => rw [hs] at hmap; cases hmap
    | ub => rw [hs] at hmap; cases hmap
  · rw [hm] at hmap
    cases hs : FrozenSet.new env ty payload bh with
    | ok s => rw [hs] at hmap; cases hmap
    | panic => exact Or.inr ⟨rfl, by simpa [unitPayload] using hb⟩
    | ub => rw [hs] at hmap; cases hmap

example := C68_frozen_set_partial checkedEnv otherTy rfl otherTy_lawful (exOther.map (·.1)) demoHasher

end FC
