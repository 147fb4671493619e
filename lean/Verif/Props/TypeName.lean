import Verif.Lemmas.TypeName
import Verif.Props.History
import Verif.Props.Sets
import Verif.Props.MapConstruct

/-
C78: which key types the facades take for `u32` and `String`.
-/

set_option autoImplicit false

namespace FC
variable {K V T : Type}

/-- No type but `u32` is printed as `u32`. -/
theorem C78_u32_name (t : RTy) : t.text = RTy.u32.text ↔ t = RTy.u32 :=
  ⟨text_u32, fun h => by rw [h]⟩

example : (RTy.adt ⟨"user", 7⟩ [] "u32" []).text = "user::u32".toList := by decide +kernel

/-- The types printed like `String` are `String` and the impostors. Missing for the full claim: there
should be no impostors. -/
theorem C78_string_name_partial (t : RTy) (ht : t.Named) :
    t.text = RTy.string.text ↔ t = RTy.string ∨ t.Impostor :=
  ⟨text_string ht, fun h => by
    rcases h with h | h
    · rw [h]
    · exact impostor_text h⟩

example := C78_string_name_partial (RTy.adt ⟨"user", 7⟩ ["string"] "String" []) (by refine ⟨?_, ?_, ?_⟩ <;> simp [PathPart])

example : (RTy.adt ⟨"user", 7⟩ ["string"] "String" []).Named ∧
    (RTy.adt ⟨"user", 7⟩ ["string"] "String" []).text ≠ RTy.string.text := by
  refine ⟨⟨?_, ?_, ?_⟩, by decide +kernel⟩ <;> simp [PathPart]

/-- A `FrozenMap` over a type that is not an impostor takes its keys for what they are: it is the map
that the other claims are about. -/
theorem C78_map_partial [Target] (env : Env) (t : RTy) (ht : t.Named) (hi : ¬ t.Impostor)
    (ty : KeyTy K) (hty : ty.Describes t) (payload : List (K × V)) (bh : Hasher) :
    FrozenMap.newNamed env t ty payload bh = FrozenMap.new env ty payload bh := by
  unfold FrozenMap.newNamed FrozenMap.new
  split
  · rfl
  · unfold KeyTy.Describes at hty
    cases hk : ty.kind with
    | u32 f g =>
      rw [hk] at hty
      rw [if_pos ((C78_u32_name t).2 hty)]
    | string f g =>
      rw [hk] at hty
      have hne : ¬ t.text = RTy.u32.text := by
        rw [C78_u32_name, hty]; intro h; cases h
      rw [if_neg hne, if_pos (by rw [hty])]
    | other =>
      rw [hk] at hty
      rw [if_neg (fun h => hty.1 ((C78_u32_name t).1 h)),
        if_neg (fun h => ((C78_string_name_partial t ht).1 h).elim hty.2 hi)]

example := C78_map_partial checkedEnv RTy.u32 trivial (by rintro ⟨_, _, _, h⟩; cases h) u32Ty rfl exU32 demoHasher

/-- The same for a `FrozenSet`. -/
theorem C78_set_partial [Target] (env : Env) (t : RTy) (ht : t.Named) (hi : ¬ t.Impostor)
    (ty : KeyTy T) (hty : ty.Describes t) (payload : List T) (bh : Hasher) :
    FrozenSet.newNamed env t ty payload bh = FrozenSet.new env ty payload bh := by
  unfold FrozenSet.newNamed FrozenSet.new
  split
  · rfl
  · unfold KeyTy.Describes at hty
    cases hk : ty.kind with
    | u32 f g =>
      rw [hk] at hty
      rw [if_pos ((C78_u32_name t).2 hty)]
    | string f g =>
      rw [hk] at hty
      have hne : ¬ t.text = RTy.u32.text := by
        rw [C78_u32_name, hty]; intro h; cases h
      rw [if_neg hne, if_pos (by rw [hty])]
    | other =>
      rw [hk] at hty
      rw [if_neg (fun h => hty.1 ((C78_u32_name t).1 h)),
        if_neg (fun h => ((C78_string_name_partial t ht).1 h).elim hty.2 hi)]

example := C78_set_partial checkedEnv RTy.u32 trivial (by rintro ⟨_, _, _, h⟩; cases h) u32Ty rfl exSetKeys demoHasher

/-- `u32`, `String` and a type of the caller's own are described by the key types of the examples. -/
example : u32Ty.Describes RTy.u32 ∧ stringTy.Describes RTy.string ∧
    otherTy.Describes (.adt ⟨"user", 7⟩ ["string"] "String" []) ∧
    ¬ (RTy.adt ⟨"user", 7⟩ ["string"] "String" []).Impostor := by
  refine ⟨rfl, rfl, ⟨(by intro h; cases h),
    (by unfold RTy.string stdAlloc; intro h; injection h with h; revert h; decide)⟩, ?_⟩
  rintro ⟨c, hc, _, h⟩
  injection h with h
  rw [← h] at hc
  revert hc; decide

/-- So a map whose keys are of a type that is not an impostor, with a lawful `Eq` and `Hash`, is a
dictionary in every history, and building it is not undefined unless it is for strings (C03). -/
theorem C78_dictionary_partial [Target] (env env' : Env) (t : RTy) (ht : t.Named)
    (hi : ¬ t.Impostor) (ty : KeyTy K) (hty : ty.Describes t) (hl : LawfulKey ty)
    (payload : List (K × V)) (hcap : payload.length < 2 ^ 31) (hd : DistinctKeys ty.eq payload)
    (bh : Hasher) :
    (t = RTy.string ∨ ∃ m, FrozenMap.newNamed env t ty payload bh = .ok m) ∧
    ∀ m, FrozenMap.newNamed env t ty payload bh = .ok m →
      Refines (frozenApi env' ty) ty.eq id m payload := by
  rw [C78_map_partial env t ht hi ty hty payload bh]
  refine ⟨?_, fun m hm => C50_frozen_map env env' ty hl payload (by omega) hd bh m hm⟩
  unfold KeyTy.Describes at hty
  cases hk : ty.kind with
  | u32 f g => exact .inr (C02_u32_construction_total env ty hl f g hk payload hcap bh)
  | string f g =>
    rw [hk] at hty
    exact .inl hty
  | other => exact .inr (C02_other_construction_total env ty hk payload hcap bh)

example : ∃ m, FrozenMap.newNamed checkedEnv (.adt ⟨"alloc", 7⟩ ["string"] "Text" []) otherTy exOther
      demoHasher = .ok m ∧ Refines (frozenApi releaseEnv otherTy) otherTy.eq id m exOther := by
  have hi : ¬ (RTy.adt ⟨"alloc", 7⟩ ["string"] "Text" []).Impostor := by
    rintro ⟨c, _, _, h⟩
    injection h with _ _ h
    revert h; decide
  have ht : (RTy.adt ⟨"alloc", 7⟩ ["string"] "Text" []).Named := by
    refine ⟨?_, ?_, ?_⟩ <;> simp [PathPart]
  obtain ⟨h1, h2⟩ := C78_dictionary_partial checkedEnv releaseEnv
    (.adt ⟨"alloc", 7⟩ ["string"] "Text" []) ht hi otherTy ⟨(by intro h; cases h), (by intro h; cases h)⟩
    otherTy_lawful exOther (by decide) exOther_distinct demoHasher
  rcases h1 with h1 | ⟨m, hm⟩
  · cases h1
  · exact ⟨m, hm, h2 m hm⟩

/-- Building a map or a set of four or more keys of an impostor type is undefined. -/
theorem C78_impostor_undefined [Target] (env : Env) (t : RTy) (hi : t.Impostor) (ty : KeyTy K)
    (hty : ty.Describes t) (bh : Hasher) :
    (∀ payload : List (K × V), 4 ≤ payload.length →
      FrozenMap.newNamed env t ty payload bh = .ub) ∧
    ∀ payload : List K, 4 ≤ payload.length → FrozenSet.newNamed env t ty payload bh = .ub := by
  have hk : ty.kind = .other := by
    unfold KeyTy.Describes at hty
    cases hk : ty.kind with
    | u32 f g => rw [hk] at hty; exact absurd hty (impostor_ne hi).2
    | string f g => rw [hk] at hty; exact absurd hty (impostor_ne hi).1
    | other => rfl
  have hne : ¬ t.text = RTy.u32.text := fun h => (impostor_ne hi).2 (text_u32 h)
  constructor
  · intro payload h4
    unfold FrozenMap.newNamed
    rw [if_neg (by omega), if_neg hne, if_pos (impostor_text hi), hk]
  · intro payload h4
    unfold FrozenSet.newNamed
    rw [if_neg (by omega), if_neg hne, if_pos (impostor_text hi), hk]

example := C78_impostor_undefined (V := Nat) checkedEnv (.adt ⟨"alloc", 7⟩ ["string"] "String" []) ⟨_, rfl, by decide, rfl⟩ otherTy
  ⟨(by intro h; cases h), (by unfold RTy.string stdAlloc; intro h; injection h with h; revert h; decide)⟩ demoHasher

/-- The full claim fails: a caller's crate called `alloc` can have a type `string::String` of its own;
four such keys, with a lawful `Eq` and `Hash`, are taken for the standard library's strings. -/
theorem C78_counterexample : ∃ (t : RTy) (ty : KeyTy Int) (payload : List (Int × Nat)),
    t.Named ∧ t ≠ RTy.string ∧ ty.Describes t ∧ LawfulKey ty ∧ DistinctKeys ty.eq payload ∧
    FrozenMap.newNamed checkedEnv t ty payload demoHasher = .ub := by
  have hi : (RTy.adt ⟨"alloc", 7⟩ ["string"] "String" []).Impostor := ⟨_, rfl, by decide, rfl⟩
  have hd : otherTy.Describes (RTy.adt ⟨"alloc", 7⟩ ["string"] "String" []) :=
    ⟨(impostor_ne hi).2, (impostor_ne hi).1⟩
  refine ⟨_, otherTy, exOther, ?_, (impostor_ne hi).1, hd, otherTy_lawful, exOther_distinct,
    (C78_impostor_undefined checkedEnv _ hi otherTy hd demoHasher).1 _ (by decide)⟩
  refine ⟨?_, ?_, ?_⟩ <;> simp [PathPart]

end FC
