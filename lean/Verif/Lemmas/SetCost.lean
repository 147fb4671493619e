import Verif.Model.SetCost
import Verif.Spec.Average
import Verif.Spec.TotalCost
import Verif.Lemmas.Sets
import Verif.Lemmas.Cost

/-
The costs of a set's lookups are those of the map inside.
-/

set_option autoImplicit false

namespace FC
variable [Target]
variable {T Q : Type}

omit [Target] in
theorem keyOfCounted_ok {o : Option (T × Ref Unit)} {n : Nat} :
    keyOfCounted (.ok (o, n)) = .ok (o.map (·.1), n) := rfl

omit [Target] in
theorem keyOfCounted_fst (r : Res (Option (T × Ref Unit) × Nat)) :
    (keyOfCounted r).map Prod.fst = keyOf (r.map Prod.fst) := by
  unfold keyOfCounted keyOf
  cases r <;> rfl

omit [Target] in
theorem unitPayload_codes (p : List T) (f : T → Nat) :
    (unitPayload p).map (fun e => f e.1) = p.map f := by
  simp [unitPayload, Function.comp_def]

omit [Target] in
theorem unitPayload_distinct {p : List T} {eq : T → T → Bool} (h : Distinct eq p) :
    DistinctKeys eq (unitPayload p) := by
  unfold DistinctKeys unitPayload
  rw [List.pairwise_map]
  exact h

omit [Target] in
theorem unitPayload_forall {p : List T} {C : T → Prop} (h : ∀ x ∈ p, C x) :
    ∀ e ∈ unitPayload p, C e.1 := by
  intro e he
  obtain ⟨x, hx, rfl⟩ := List.mem_map.1 he
  exact h x hx

omit [Target] in
theorem FindsAll.toSet {l : T → Res (Option (T × Ref Unit) × Nat)} {l' : T → Res (Option T × Nat)}
    (hl : ∀ x, l' x = keyOfCounted (l x)) {p : List T} {n : Nat}
    (h : FindsAll l (unitPayload p) n) : SetFindsAll l' p n := by
  obtain ⟨counts, hc, hf⟩ := h
  refine ⟨counts, hc, ?_⟩
  unfold unitPayload at hf
  rw [List.forall₂_map_left_iff] at hf
  refine hf.imp (fun x c h => ?_)
  obtain ⟨i, h⟩ := h
  rw [hl, h]
  rfl

omit [Target] in
theorem CheapMisses.toSet {l : Q → Res (Option (T × Ref Unit) × Nat)}
    {l' : Q → Res (Option T × Nat)} (hl : ∀ x, l' x = keyOfCounted (l x)) {n N : Nat}
    {code : Q → Nat} {absent absent' : Q → Prop} (ha : ∀ q, absent' q → absent q)
    (h : CheapMisses n N l code absent) : CheapMisses n N l' code absent' := by
  intro probes hp hnd
  obtain ⟨counts, hf, h1, h2⟩ := h probes (fun q hq => ⟨ha q (hp q hq).1, (hp q hq).2⟩) hnd
  refine ⟨counts, hf.imp (fun q c h => ?_), h1, h2⟩
  rw [hl, h]
  rfl

omit [Target] in
theorem counted_toSet {r : Res (Option (T × Ref Unit) × Nat)} {r' : Res (Option (T × Ref Unit))}
    {b : Nat} (h : ∃ o n, r = .ok (o, n) ∧ r' = .ok o ∧ n ≤ b) :
    ∃ o n, keyOfCounted r = .ok (o, n) ∧ keyOf r' = .ok o ∧ n ≤ b := by
  obtain ⟨o, n, rfl, rfl, hn⟩ := h
  exact ⟨o.map (·.1), n, rfl, rfl, hn⟩

omit [Target] in
theorem keyOfCounted_map_ofInt (ty : KeyTy T) (r : Res (Option (Int × Ref Unit) × Nat)) :
    (keyOfCounted r).map (Prod.map ty.ofIntT id) = keyOfCounted (r.map (Prod.map ty.ofIntKV id)) := by
  unfold keyOfCounted KeyTy.ofIntT KeyTy.ofIntKV
  cases ty.kind <;> cases r <;> simp [Res.map]
  all_goals (rename_i o; rcases o with ⟨_ | _, _⟩ <;> simp)

omit [Target] in
theorem keyOfCounted_map_ofB (ty : KeyTy T) (r : Res (Option (Bytes × Ref Unit) × Nat)) :
    (keyOfCounted r).map (Prod.map ty.ofBT id) = keyOfCounted (r.map (Prod.map ty.ofBKV id)) := by
  unfold keyOfCounted KeyTy.ofBT KeyTy.ofBKV
  cases ty.kind <;> cases r <;> simp [Res.map]
  all_goals (rename_i o; rcases o with ⟨_ | _, _⟩ <;> simp)

theorem FrozenSet.getCounted_toMap (env : Env) (ty : KeyTy T) (s : FrozenSet T) (x : T) :
    s.getCounted env ty x = keyOfCounted (s.toMap.getKeyValueCounted env ty x) := by
  cases s <;> first
    | rfl
    | exact keyOfCounted_map_ofInt ty _
    | exact keyOfCounted_map_ofB ty _

end FC
