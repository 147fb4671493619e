import Verif.Lemmas.SetConsistent
import Verif.Props.MapConstruct
import Verif.Props.MapMutate
import Verif.Props.SpecializedMaps

/-
C02, C03, C10, C17 for sets: a set is built exactly when the map with `()` values is, so the
construction results carry over.
-/

set_option autoImplicit false

namespace FC
variable {T Q : Type}

theorem FrozenSet.new_ok_iff [Target] {env : Env} {ty : KeyTy T} {p : List T} {bh : Hasher} :
    (∃ s, FrozenSet.new env ty p bh = .ok s) ↔ ∃ m, FrozenMap.new env ty (unitPayload p) bh = .ok m := by
  rw [← FrozenSet.new_toMap]
  cases FrozenSet.new env ty p bh <;> simp [Res.map]

theorem FrozenSet.new_ub_iff [Target] {env : Env} {ty : KeyTy T} {p : List T} {bh : Hasher} :
    FrozenSet.new env ty p bh = .ub ↔ FrozenMap.new env ty (unitPayload p) bh = .ub := by
  rw [← FrozenSet.new_toMap]
  cases FrozenSet.new env ty p bh <;> simp [Res.map]

theorem FrozenSet.new_panic_iff [Target] {env : Env} {ty : KeyTy T} {p : List T} {bh : Hasher} :
    FrozenSet.new env ty p bh = .panic ↔ FrozenMap.new env ty (unitPayload p) bh = .panic := by
  rw [← FrozenSet.new_toMap]
  cases FrozenSet.new env ty p bh <;> simp [Res.map]

/-! ### C02: `u32` and general elements -/

theorem C02_u32_set_construction_total [Target] (env : Env) (ty : KeyTy T) (hty : LawfulKey ty)
    (f : T → Int) (g : Int → T) (hk : ty.kind = .u32 f g) (payload : List T)
    (hcap : payload.length < 2 ^ 31) (bh : Hasher) :
    ∃ s, FrozenSet.new env ty payload bh = .ok s :=
  FrozenSet.new_ok_iff.2 (C02_u32_construction_total env ty hty f g hk _
    (by rw [unitPayload_length]; exact hcap) bh)

theorem C02_other_set_construction_total [Target] (env : Env) (ty : KeyTy T) (hk : ty.kind = .other)
    (payload : List T) (hcap : payload.length < 2 ^ 31) (bh : Hasher) :
    ∃ s, FrozenSet.new env ty payload bh = .ok s :=
  FrozenSet.new_ok_iff.2 (C02_other_construction_total env ty hk _
    (by rw [unitPayload_length]; exact hcap) bh)

example := C02_other_set_construction_total checkedEnv brokenTy rfl [1, 2, 2, 3, 9] (by decide) demoHasher

example : ∃ s, FrozenSet.new checkedEnv u32Ty [10, 500, 7, 9000, 3, 3] demoHasher = .ok s :=
  C02_u32_set_construction_total checkedEnv u32Ty u32Ty_lawful _ _ rfl _ (by decide) _

/-! ### C03: strings -/

/-- C03 is false for sets too, again whatever the hasher, the machine and the build profile. -/
theorem C03_set_counterexample [Target] (env : Env) (bh : Hasher) (payload : List RString) :
    (payload.map (·.1) = [[65, 65, 65], [65, 65, 66], [65, 66, 65], [66, 65, 65], [65, 65, 65, 66]] →
      FrozenSet.new env stringTy payload bh = .panic) ∧
    (payload.map (·.1) =
        [[88, 88, 65], [88, 88, 66], [88, 88, 67], [88, 88, 68], [88, 88, 88], [88, 88, 88, 69]] →
      (∀ s, FrozenSet.new env stringTy payload bh ≠ .ok s) ∧
      (([[65], [66], [67], [68], [88], [69]].map bh.hashOneBytes).Nodup →
        FrozenSet.new env stringTy payload bh = .ub)) := by
  have hp : (unitPayload payload).map (·.1.1) = payload.map (·.1) := by
    simp [unitPayload, Function.comp_def]
  obtain ⟨h1, h2⟩ := C03_counterexample env bh (unitPayload payload)
  rw [hp] at h1 h2
  refine ⟨fun h => FrozenSet.new_panic_iff.2 (h1 h), fun h => ⟨fun s hs => ?_, fun hd => ?_⟩⟩
  · obtain ⟨m, hm⟩ := FrozenSet.new_ok_iff.1 ⟨s, hs⟩
    exact (h2 h).1 m hm
  · exact FrozenSet.new_ub_iff.2 ((h2 h).2 hd)

example : FrozenSet.new releaseEnv stringTy (exCrash.map (·.1)) demoHasher = .panic :=
  (C03_set_counterexample releaseEnv demoHasher _).1 rfl
example : FrozenSet.new checkedEnv stringTy (exRight.map (·.1)) demoHasher = .ub :=
  ((C03_set_counterexample checkedEnv demoHasher _).2 rfl).2 (by decide +kernel)

/-- Exactly which lists of strings can be made into a set. Missing from C03: that every list can. -/
theorem C03_string_set_construction_partial [Target] (env : Env) (ty : KeyTy T) (hty : LawfulKey ty)
    (f : T → Bytes) (g : Bytes → T) (hk : ty.kind = .string f g) (payload : List T)
    (hcap : payload.length < 2 ^ 31) (bh : Hasher) :
    ((∃ s, FrozenSet.new env ty payload bh = .ok s) ↔ Constructible bh (payload.map f)) ∧
      (FrozenSet.new env ty payload bh = .ub ↔
        ¬ Constructible bh (payload.map f) ∧ ∃ i, RightOKAt bh (payload.map f) i 1) ∧
      (FrozenSet.new env ty payload bh = .panic ↔
        ¬ Constructible bh (payload.map f) ∧ ∀ i, ¬ RightOKAt bh (payload.map f) i 1) := by
  rw [FrozenSet.new_ok_iff, FrozenSet.new_ub_iff, FrozenSet.new_panic_iff]
  have h := C03_string_construction_partial env ty hty f g hk (unitPayload payload)
    (by rw [unitPayload_length]; exact hcap) bh
  have e : (unitPayload payload).map (fun e => f e.1) = payload.map f := by
    simp [unitPayload]
  rw [e] at h
  exact h

example := C03_string_set_construction_partial checkedEnv stringTy stringTy_lawful _ _ rfl (exRight.map (·.1))
  (by decide) demoHasher

/-- Six strings of different lengths (at most three alike) can be made into a set. -/
example : ∃ s, FrozenSet.new checkedEnv stringTy (exLen.map (·.1)) demoHasher = .ok s :=
  FrozenSet.new_ok_iff.2 (Res.of_isOk (by decide +kernel))

/-! ### C10: any `Hash` and `Eq` -/

/-- Sets of general elements: whatever `Hash` and `Eq` do, also if they change after construction,
`contains` and `get` neither panic nor leave the arrays, and a result is a stored element that the
`Eq` used for the probe accepted. -/
theorem C10_frozen_set_safe [Target] (env : Env) (ty : KeyTy T) (hk : ty.kind = .other) (payload : List T)
    (bh : Hasher) (s : FrozenSet T) (hs : FrozenSet.new env ty payload bh = .ok s) (env' : Env)
    (ty' : KeyTy T) (x : T) :
    ∃ o, s.get env' ty' x = .ok o ∧ s.contains env' ty' x = .ok o.isSome ∧
      ∀ y, o = some y → y ∈ payload ∧ ty'.eq x y = true := by
  have hm := FrozenSet.new_ok hs
  obtain ⟨o, h1, h2, h3, h4, h5⟩ := FrozenMap.safe_lookups env ty hk _ bh _ hm env' ty' x
  have hget : s.get env' ty' x = .ok (o.map (·.1)) := by
    rw [FrozenSet.get_toMap, h1]; rfl
  refine ⟨_, hget, ?_, ?_⟩
  · have hc : s.contains env' ty' x = (s.get env' ty' x).map Option.isSome := by
      unfold FrozenSet.new at hs
      split at hs
      · simp only [Res.ok.injEq] at hs
        subst hs
        rfl
      · rw [hk] at hs
        simp only [FrozenSet.newCommonSet] at hs
        split at hs <;>
          (simp only [Res.bind_eq_ok, Res.pure_eq, Res.ok.injEq] at hs
           obtain ⟨c, _, rfl⟩ := hs
           rfl)
    rw [hc, hget]
    cases o <;> rfl
  · intro y hy
    cases o with
    | none => simp at hy
    | some r =>
      obtain ⟨k, r⟩ := r
      simp only [Option.map_some, Option.some.injEq] at hy
      subst hy
      obtain ⟨h6, h7⟩ := h5 _ _ rfl
      refine ⟨?_, h7⟩
      obtain ⟨y, hy, hk'⟩ := List.mem_map.1
        ((FrozenMap.new_perm_other hk hm).mem_iff.1 (List.mem_of_getElem? h6))
      cases hk'
      exact hy

/-- A set built with one `Eq` and probed with another, non-transitive one. -/
example (x : Int) : ∃ o, (FrozenSet.scanning (ScanningSet.fromVec [1, 5])).get checkedEnv brokenTy x
    = .ok o ∧ ∀ y, o = some y → brokenTy.eq x y = true := by
  obtain ⟨o, h1, _, h3⟩ := C10_frozen_set_safe checkedEnv otherTy rfl [1, 5] demoHasher _ rfl
    checkedEnv brokenTy x
  exact ⟨o, h1, fun y hy => (h3 y hy).2⟩

/-! ### C17: capacity of the remaining sets -/

theorem C17_length_set_partial [Target] (env : Env) (S : IdxTy) (cap : Nat) (hS : S.capacity = some cap)
    (borrow : T → Q) (eq : Q → Q → Bool) (lenT : T → Nat) (lenQ : Q → Nat)
    (hrefl : ∀ q, eq q q = true) (hlen : ∀ k q, eq q (borrow k) = true → lenQ q = lenT k)
    (payload : List T) :
    (payload.length ≤ cap → ∃ s, LengthSet.fromVec env S lenT payload = .ok s ∧
      ∀ x ∈ payload, s.contains borrow eq lenQ (borrow x) = .ok true) ∧
    (env.oc = true ∧ cap < payload.length ∨ S.max < payload.length → LengthSet.fromVec env S lenT payload = .panic) := by
  obtain ⟨h1, h2⟩ := C17_length_map_partial env S cap hS borrow eq lenT lenQ hrefl hlen
    (unitPayload payload)
  rw [unitPayload_length] at h1 h2
  constructor
  · intro h
    obtain ⟨m, hm, hf⟩ := h1 h
    refine ⟨⟨m⟩, by unfold LengthSet.fromVec; rw [hm]; rfl, fun x hx => ?_⟩
    obtain ⟨r, hr⟩ := hf (x, ()) (List.mem_map.2 ⟨x, hx, rfl⟩)
    obtain ⟨⟨o, k1, k2, _, _, _⟩, _⟩ := C30_length_map env S borrow eq lenT lenQ hlen _ m hm
      (by rw [unitPayload_length]; have := (IdxTy.capacity_some hS).2.2; omega) (borrow x)
    rw [hr] at k2
    unfold LengthSet.contains LengthSet.get keyOf
    rw [k1]
    cases o with
    | none => simp at k2
    | some p => rfl
  · intro h
    unfold LengthSet.fromVec
    rw [h2 h]; rfl

theorem C17_left_slice_set_partial [Target] (env : Env) (S : IdxTy) (cap : Nat)
    (hS : S.capacity = some cap) (payload : List Bytes) (a b : Nat) (hab : a ≤ b)
    (hlong : ∀ x ∈ payload, b ≤ x.length) (bh : Hasher) :
    (payload.length ≤ cap → ∃ s, LeftSliceSet.fromVecWithHasher env S payload a b bh = .ok s ∧
      ∀ x ∈ payload, s.contains x = .ok true) ∧
    (env.oc = true ∧ cap < payload.length ∨ S.max < payload.length → LeftSliceSet.fromVecWithHasher env S payload a b bh = .panic) := by
  have hlong' : ∀ e ∈ unitPayload payload, b ≤ e.1.length := by
    intro e he
    obtain ⟨x, hx, rfl⟩ := List.mem_map.1 he
    exact hlong x hx
  constructor
  · intro h
    obtain ⟨m, hm, _, hans⟩ := C28_lookup env S cap hS (unitPayload payload)
      (by rw [unitPayload_length]; exact h) a b hab hlong' bh
    refine ⟨⟨m⟩, by unfold LeftSliceSet.fromVecWithHasher; rw [hm]; rfl, fun x hx => ?_⟩
    obtain ⟨o, k1, _, _, _, k5⟩ := hans x
    unfold LeftSliceSet.contains LeftSliceSet.get keyOf
    rw [k1]
    cases o with
    | none =>
      have := k5 (x, ()) (List.mem_map.2 ⟨x, hx, rfl⟩)
      simp at this
    | some p => rfl
  · intro h
    unfold LeftSliceSet.fromVecWithHasher
    rw [(C17_left_slice_map_partial env S cap hS (unitPayload payload) a b hab hlong' bh).2
      (by rw [unitPayload_length]; exact h)]
    rfl

example := C17_left_slice_set_partial checkedEnv IdxTy.u8 255 (by decide) (exBytes.map (·.1)) 1 2 (by decide)
  (by decide +kernel) demoHasher

example : ∃ s, LengthSet.fromVec checkedEnv IdxTy.u8 List.length ([[1], [1, 2], [7]] : List Bytes)
    = .ok s :=
  let ⟨s, h, _⟩ := (C17_length_set_partial checkedEnv IdxTy.u8 255 rfl id beq List.length List.length
    (by simp [beq]) (by simp [beq]) [[1], [1, 2], [7]]).1 (by decide)
  ⟨s, h⟩

end FC
