import Verif.Examples
import Verif.Lemmas.Average
import Verif.Props.TotalCost

/-
C84: a lookup of an absent key costs about one comparison on average.
-/

set_option autoImplicit false

namespace FC
variable {K V Q : Type}

/-! ### C84 -/

/-- General hash maps, whether or not keys are repeated. -/
theorem C84_common_map [Target] (env : Env) (S : IdxTy) (P : Probe K Q) (enc : K → List HCall)
    (payload : List (K × V)) (bh : Hasher) (m : CommonMap K V)
    (hm : CommonMap.fromVecWithHasher env S enc payload bh = .ok m)
    (h32 : payload.length < 2 ^ 32) (N : Nat) :
    CheapMisses payload.length N (m.getKeyValueCounted P) (fun q => bh (P.enc q))
      (fun q => ∀ e ∈ payload, P.eq q (P.borrow e.1) = false) := by
  unfold CommonMap.fromVecWithHasher at hm
  simp only [Res.bind_eq_ok, Res.pure_eq, Res.ok.injEq] at hm
  obtain ⟨r, hr, t, ht, rfl⟩ := hm
  exact cheapMisses_of (by simp) hr (fun q hq =>
    new_miss ht h32 (code := fun k => bh (enc k)) (fun _ _ => rfl) hq _)

example := C84_common_map checkedEnv IdxTy.u8 otherTy.probe otherTy.enc exOther demoHasher _ exCommon_ok
  (by decide) (2 ^ 64)

/-- Integer maps: absent integers. -/
theorem C84_integer_map [Target] (env : Env) (S : IdxTy) (payload : List (Int × V))
    (m : IntegerMap V) (hm : IntegerMap.fromVec env S payload = .ok m)
    (h32 : payload.length < 2 ^ 32) (N : Nat) :
    CheapMisses payload.length N m.getKeyValueCounted asU64 (fun q => ∀ e ∈ payload, q ≠ e.1) := by
  unfold IntegerMap.fromVec at hm
  simp only [Res.bind_eq_ok, Res.pure_eq, Res.ok.injEq] at hm
  obtain ⟨r, hr, t, ht, rfl⟩ := hm
  exact cheapMisses_of (by simp) hr (fun q hq =>
    new_miss (eq := IntegerMap.ieq) (borrow := id) ht h32 (code := asU64)
      (fun _ _ => rfl) (fun e he => decide_eq_false (hq e he)) _)

example := C84_integer_map checkedEnv IdxTy.u8 exOther _ exInteger_ok (by decide) (2 ^ 64)

/-- Length maps: absent probes of different lengths. -/
theorem C84_length_map [Target] (env : Env) (S : IdxTy) (borrow : K → Q) (eq : Q → Q → Bool)
    (lenK : K → Nat) (lenQ : Q → Nat) (payload : List (K × V))
    (m : LengthMap K V) (hm : LengthMap.fromVec env S lenK payload = .ok m)
    (h32 : payload.length < 2 ^ 32) (N : Nat) :
    CheapMisses payload.length N (m.getKeyValueCounted borrow eq lenQ) lenQ
      (fun q => ∀ e ∈ payload, eq q (borrow e.1) = false) := by
  unfold LengthMap.fromVec at hm
  simp only [Res.bind_eq_ok, Res.pure_eq, Res.ok.injEq] at hm
  obtain ⟨r, hr, t, ht, rfl⟩ := hm
  exact cheapMisses_of (by simp) hr (fun q hq =>
    new_miss ht h32 (code := lenK) (fun _ _ => rfl) hq _)

example := C84_length_map checkedEnv IdxTy.u8 id (fun a b : Bytes => decide (a = b)) List.length List.length
  exBytes _ exLengths_ok (by decide) 1000

/-- Left slice maps. -/
theorem C84_left_slice_map [Target] (env : Env) (S : IdxTy) (payload : List (Bytes × V))
    (a b : Nat) (hab : payload = [] → a ≤ b) (bh : Hasher) (m : LeftSliceMap V)
    (hm : LeftSliceMap.fromVecWithHasher env S payload a b bh = .ok m)
    (h32 : payload.length < 2 ^ 32) (N : Nat) :
    CheapMisses payload.length N m.getKeyValueCounted
      (fun q => if b ≤ q.length then bh [.write ((q.drop a).take (b - a))] else 0)
      (fun q => ∀ e ∈ payload, q ≠ e.1) := by
  obtain ⟨r, hr, _⟩ := C18_bounds
    (payload.map (fun e => bh [.write ((e.1.drop a).take (b - a))]))
  exact cheapMisses_of (by simp) hr
    (C72_left_slice_map env S payload a b hab bh m hm h32 r hr).2

example := C84_left_slice_map checkedEnv IdxTy.u8 exBytes 1 2 (by decide) demoHasher _
  exLeftSlice_ok (by decide) (2 ^ 64)

/-- `FrozenMap` with four entries or more whose keys are filed by a code (the others compare at most
three keys, `C72_frozen_map_range` and `C72_frozen_map_small`). -/
theorem C84_frozen_map [Target] (env : Env) (ty : KeyTy K) (hty : LawfulKey ty)
    (payload : List (K × V)) (bh : Hasher) (m : FrozenMap K V)
    (hm : FrozenMap.new env ty payload bh = .ok m) (h32 : payload.length < 2 ^ 32)
    (h4 : 4 ≤ payload.length) (code : K → Nat)
    (hf : filedBy env.oc ty bh (payload.map (·.1)) = some code) (N : Nat) :
    CheapMisses payload.length N (m.getKeyValueCounted env ty) code
      (fun q => ¬Present ty.eq payload q) := by
  obtain ⟨r, hr, _⟩ := C18_bounds (payload.map (fun e => code e.1))
  exact cheapMisses_of (by simp) hr
    (C72_frozen_map env ty hty payload bh m hm h32 h4 code hf r hr).2

example := C84_frozen_map checkedEnv stringTy stringTy_lawful exLeft demoHasher _ exMapLeft_ok
  (by decide) (by decide) _ rfl (2 ^ 64)

/-! A hasher that adds 7 to the integer: the probes 6, …, 69 are absent and have different codes. -/

example : ∃ (m : FrozenMap Int Nat) (counts : List Nat),
    FrozenMap.new checkedEnv otherTy exOther demoHasher = .ok m ∧
    List.Forall₂ (fun q c => m.getKeyValueCounted checkedEnv otherTy q = .ok (none, c))
      ((List.range 64).map (fun i : Nat => (i : Int) + 6)) counts ∧ counts.sum ≤ 77 + 5 := by
  obtain ⟨m, hm⟩ := exOther_ok
  obtain ⟨counts, h1, _, h2⟩ := C84_frozen_map checkedEnv otherTy otherTy_lawful exOther
    demoHasher m hm (by decide) (by decide) _ rfl 77
    ((List.range 64).map (fun i : Nat => (i : Int) + 6))
    (by unfold Present; decide +kernel) (by decide +kernel)
  exact ⟨m, counts, hm, h1, h2 (by decide)⟩

end FC
