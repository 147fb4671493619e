import Verif.Lemmas.Built
import Verif.Spec
import Verif.Lemmas.Reach

/-
A frozen set behaves as the frozen map with `()` values.
-/

set_option autoImplicit false

namespace FC
variable [Target]
variable {T : Type}

omit [Target] in
theorem unitPayload_map {U : Type} (f : T → U) (p : List T) :
    (unitPayload p).map (fun e => (f e.1, e.2)) = unitPayload (p.map f) := by
  simp [unitPayload, Function.comp_def]

omit [Target] in
theorem unitPayload_keys (p : List T) : (unitPayload p).map (·.1) = p := by
  simp [unitPayload, Function.comp_def]

omit [Target] in
theorem unitPayload_length (p : List T) : (unitPayload p).length = p.length := by
  simp [unitPayload]

/-- The map inside a set. -/
def FrozenSet.toMap : FrozenSet T → FrozenMap T Unit
  | .scanning s => .scanning s.map
  | .commonSmall s => .commonSmall s.map
  | .commonLarge s => .commonLarge s.map
  | .u32Small s => .u32Small s.map
  | .u32Large s => .u32Large s.map
  | .u32Range s => .u32Range s.map
  | .leftSmall s => .leftSmall s.map
  | .leftLarge s => .leftLarge s.map
  | .rightSmall s => .rightSmall s.map
  | .rightLarge s => .rightLarge s.map
  | .lengthSmall s => .lengthSmall s.map

omit [Target] in
theorem Res.map_bind {α β γ : Type} (r : Res α) (f : α → Res β) (g : β → γ) :
    (r >>= f).map g = (r >>= fun a => (f a).map g) := by
  cases r <;> rfl

theorem FrozenSet.new_toMap (env : Env) (ty : KeyTy T) (p : List T) (bh : Hasher) :
    (FrozenSet.new env ty p bh).map FrozenSet.toMap = FrozenMap.new env ty (unitPayload p) bh := by
  unfold FrozenSet.new FrozenMap.new
  rw [unitPayload_length]
  split
  · rfl
  · cases ty.kind with
    | u32 f g =>
      simp only [FrozenSet.newU32Set, FrozenMap.newU32Map, unitPayload_map, unitPayload_keys,
        unitPayload_length, Res.map_bind]
      congr 1
      funext d
      cases d with
      | range => simp only [IntegerRangeSet.fromVec]; cases IntegerRangeMap.fromVec env.oc IntTy.u32 (unitPayload (p.map f)) <;> rfl
      | normal =>
        simp only
        split
        · simp only [IntegerSet.fromVec]
          cases IntegerMap.fromVec env IdxTy.u8 (unitPayload (p.map f)) <;> rfl
        · simp only [IntegerSet.fromVec]
          cases IntegerMap.fromVec env IdxTy.usize (unitPayload (p.map f)) <;> rfl
    | string f g =>
      simp only [FrozenSet.newStringSet, FrozenMap.newStringMap, unitPayload_map, unitPayload_keys,
        unitPayload_length, Res.map_bind]
      congr 1
      funext d
      split
      · cases d with
        | normal =>
          simp only [CommonSet.fromVecWithHasher]
          cases CommonMap.fromVecWithHasher env IdxTy.u8 ty.enc (unitPayload ((p.map f).map g)) bh <;> rfl
        | left i l =>
          simp only [LeftSliceSet.fromVecWithHasher]
          cases LeftSliceMap.fromVecWithHasher env IdxTy.u8 (unitPayload (p.map f)) i (i + l) bh <;> rfl
        | right i l =>
          simp only [RightSliceSet.fromVecWithHasher]
          cases RightSliceMap.fromVecWithHasher env IdxTy.u8 (unitPayload (p.map f)) i (i + l) bh <;> rfl
        | length =>
          simp only [LengthSet.fromVec]
          cases LengthMap.fromVec env IdxTy.u8 List.length (unitPayload (p.map f)) <;> rfl
      · cases d with
        | normal =>
          simp only [CommonSet.fromVecWithHasher]
          cases CommonMap.fromVecWithHasher env IdxTy.usize ty.enc (unitPayload ((p.map f).map g)) bh <;> rfl
        | left i l =>
          simp only [LeftSliceSet.fromVecWithHasher]
          cases LeftSliceMap.fromVecWithHasher env IdxTy.usize (unitPayload (p.map f)) i (i + l) bh <;> rfl
        | right i l =>
          simp only [RightSliceSet.fromVecWithHasher]
          cases RightSliceMap.fromVecWithHasher env IdxTy.usize (unitPayload (p.map f)) i (i + l) bh <;> rfl
        | length =>
          simp only [CommonSet.fromVecWithHasher]
          cases CommonMap.fromVecWithHasher env IdxTy.usize ty.enc (unitPayload ((p.map f).map g)) bh <;> rfl
    | other =>
      simp only [FrozenSet.newCommonSet, FrozenMap.newCommonMap, unitPayload_length]
      split
      · simp only [CommonSet.fromVecWithHasher]
        cases CommonMap.fromVecWithHasher env IdxTy.u8 ty.enc (unitPayload p) bh <;> rfl
      · simp only [CommonSet.fromVecWithHasher]
        cases CommonMap.fromVecWithHasher env IdxTy.usize ty.enc (unitPayload p) bh <;> rfl

theorem FrozenSet.new_ok {env : Env} {ty : KeyTy T} {p : List T} {bh : Hasher} {s : FrozenSet T}
    (h : FrozenSet.new env ty p bh = .ok s) :
    FrozenMap.new env ty (unitPayload p) bh = .ok s.toMap := by
  rw [← FrozenSet.new_toMap, h]; rfl

omit [Target] in
theorem keyOf_map_ofInt (ty : KeyTy T) (r : Res (Option (Int × Ref Unit))) :
    (keyOf r).map ty.ofIntT = keyOf (r.map ty.ofIntKV) := by
  unfold keyOf KeyTy.ofIntT KeyTy.ofIntKV
  cases ty.kind <;> cases r <;> simp [Res.map]
  all_goals (rename_i o; cases o <;> simp)

omit [Target] in
theorem keyOf_map_ofB (ty : KeyTy T) (r : Res (Option (Bytes × Ref Unit))) :
    (keyOf r).map ty.ofBT = keyOf (r.map ty.ofBKV) := by
  unfold keyOf KeyTy.ofBT KeyTy.ofBKV
  cases ty.kind <;> cases r <;> simp [Res.map]
  all_goals (rename_i o; cases o <;> simp)

theorem FrozenSet.get_toMap (env : Env) (ty : KeyTy T) (s : FrozenSet T) (x : T) :
    s.get env ty x = keyOf (s.toMap.getKeyValue env ty x) := by
  cases s <;> first
    | rfl
    | exact keyOf_map_ofInt ty _
    | exact keyOf_map_ofB ty _

omit [Target] in
theorem FrozenSet.len_toMap (s : FrozenSet T) : s.len = s.toMap.len := by cases s <;> rfl

omit [Target] in
theorem FrozenSet.iter_toMap (ty : KeyTy T) (s : FrozenSet T) :
    s.iter ty = SetIter.new (s.toMap.entries ty) := by cases s <;> rfl

theorem FrozenSet.contains_toMap {env : Env} {ty : KeyTy T} {s : FrozenSet T}
    (hs : Safe ty s.toMap) (x : T) :
    s.contains env ty x = (s.toMap.getKeyValue env ty x).map Option.isSome := by
  have hI : ∀ f g (r : Res (Option (Int × Ref Unit))), ty.kind = .u32 f g →
      (keyOf r).map Option.isSome = (r.map ty.ofIntKV).map Option.isSome := by
    intro f g r hk
    unfold keyOf KeyTy.ofIntKV
    rw [hk]
    cases r <;> simp
  have hB : ∀ f g (r : Res (Option (Bytes × Ref Unit))), ty.kind = .string f g →
      (keyOf r).map Option.isSome = (r.map ty.ofBKV).map Option.isSome := by
    intro f g r hk
    unfold keyOf KeyTy.ofBKV
    rw [hk]
    cases r <;> simp
  have hK : ∀ (r : Res (Option (T × Ref Unit))),
      (keyOf r).map Option.isSome = r.map Option.isSome := by
    intro r
    unfold keyOf
    cases r <;> simp
  cases s with
  | scanning r => exact hK (r.map.getKeyValue ty.probe x)
  | commonSmall r => exact hK _
  | commonLarge r => exact hK _
  | u32Small r =>
    rcases hs with ⟨f, g, hk, _⟩ | ⟨_, _, _, h, _⟩
    · exact hI f g _ hk
    · cases h
  | u32Large r =>
    rcases hs with ⟨f, g, hk, _⟩ | ⟨_, _, _, h, _⟩
    · exact hI f g _ hk
    · cases h
  | u32Range r =>
    rcases hs with ⟨f, g, hk, _⟩ | ⟨_, f, g, _, hk, _⟩
    · exact hI f g _ hk
    · exact hI f g _ hk
  | leftSmall r =>
    rcases hs with ⟨f, g, hk, _⟩ | ⟨_, _, _, h, _⟩
    · exact hB f g _ hk
    · cases h
  | leftLarge r =>
    rcases hs with ⟨f, g, hk, _⟩ | ⟨_, _, _, h, _⟩
    · exact hB f g _ hk
    · cases h
  | rightSmall r =>
    rcases hs with h | ⟨_, _, _, h, _⟩
    · exact absurd h (by simp [FrozenSet.toMap, Good])
    · cases h
  | rightLarge r =>
    rcases hs with h | ⟨_, _, _, h, _⟩
    · exact absurd h (by simp [FrozenSet.toMap, Good])
    · cases h
  | lengthSmall r =>
    rcases hs with ⟨f, g, hk, _⟩ | ⟨_, _, _, h, _⟩
    · exact hB f g _ hk
    · cases h

end FC
