import Verif.Examples
import Verif.Lemmas.Rebuild
import Verif.Props.History
import Verif.Props.MapIter
import Verif.Props.MapConstruct
import Verif.Props.StringVerdict
import Verif.Props.SetIter
import Verif.Props.SetConstruct
import Verif.Props.Sets

/-
C85: a map or set built again from what iterating it yields.
-/

set_option autoImplicit false

namespace FC
variable {K V T : Type}

/-! ### C85 -/

/-- After any history `ops` on a map, take what iterating it yields, in any order. A map can be built
from that with the same hasher. -/
theorem C85_can_be_rebuilt [Target] (env env₁ env₂ : Env) (ty : KeyTy K) (hty : LawfulKey ty)
    (payload : List (K × V)) (hcap : payload.length < 2 ^ 31) (hd : DistinctKeys ty.eq payload)
    (bh : Hasher) (m₀ : FrozenMap K V) (hm : FrozenMap.new env₁ ty payload bh = .ok m₀)
    (ops : List (MapOp V K)) (outs : List (Out K V)) (m : FrozenMap K V)
    (hrun : (frozenApi env ty).run m₀ ops = .ok (outs, m)) (es es' : List (K × V))
    (hes : ∀ n, (calls MapIter.next n (m.iter ty)).1 = firstCalls es n) (hp : es.Perm es') :
    ∃ m', FrozenMap.new env₂ ty es' bh = .ok m' := by
  have hb := new_built env₁ hty (by omega) hm
  have hr := (frozen_scanMap env hty).run hty.eq (hb.good (Or.inr hd)) hb.perm hd ops
  have he : es = m.entries ty := firstCalls_inj (fun n => (hes n).symm.trans (C13_iter true _ n).1)
  subst he
  have hk : (es'.map (·.1)).Perm (payload.map (·.1)) := by
    cases hs : Dict.run ty.eq id payload ops with
    | ub => rw [hs] at hr; exact hr.elim
    | panic => rw [hs] at hr; rw [hrun] at hr; cases hr
    | ok s =>
      rw [hs] at hr
      obtain ⟨_, m1, h1, _, _, h2, h3⟩ := hr
      rw [hrun] at h1
      cases h1
      rw [← h3]
      exact (hp.symm.trans h2).map _
  have hcap' : es'.length < 2 ^ 31 := by
    have := hk.length_eq
    simp only [List.length_map] at this
    omega
  cases hkind : ty.kind with
  | other => exact C02_other_construction_total env₂ ty hkind es' hcap' bh
  | u32 f g => exact C02_u32_construction_total env₂ ty hty f g hkind es' hcap' bh
  | string f g =>
    have h1 := (C03_string_construction_partial env₁ ty hty f g hkind payload hcap bh).1.1 ⟨m₀, hm⟩
    refine (C03_string_construction_partial env₂ ty hty f g hkind es' hcap' bh).1.2 ?_
    have hq : (es'.map (fun e => f e.1)).Perm (payload.map (fun e => f e.1)) := by
      have := hk.map f
      rwa [List.map_map, List.map_map] at this
    exact (Constructible.perm_iff hq).2 h1

/-- A map of strings after two writes. -/
def exRewritten : List (Out RString Nat) × FrozenMap RString Nat :=
  ((frozenApi checkedEnv stringTy).run exMapLeft
    [.getMut (exLeft.head (by decide)).1 70, .len, .getManyMut [((exLeft.getLast (by decide)).1, 80)]]).get
    (by decide +kernel)
theorem exRewritten_ok : (frozenApi checkedEnv stringTy).run exMapLeft
    [.getMut (exLeft.head (by decide)).1 70, .len, .getManyMut [((exLeft.getLast (by decide)).1, 80)]]
    = .ok exRewritten := Res.built _

example := C85_can_be_rebuilt checkedEnv checkedEnv releaseEnv stringTy stringTy_lawful exLeft (by decide)
  exLeft_distinct demoHasher exMapLeft exMapLeft_ok _ _ _ exRewritten_ok
  (exRewritten.2.entries stringTy) _ (fun n => (C13_iter true _ n).1) (List.reverse_perm _).symm

/-- The writes are there. -/
example : (exRewritten.2.entries stringTy).map (·.2) ≠ exLeft.map (·.2) := by decide +kernel

/-- Whatever hasher is used, the map built from it cannot be told apart from the original, and the
two are equal. -/
theorem C85_rebuilt_map [Target] (env env₁ env₂ : Env) (ty : KeyTy K) (hty : LawfulKey ty)
    (payload : List (K × V)) (hcap : payload.length < 2 ^ 32) (hd : DistinctKeys ty.eq payload)
    (bh bh' : Hasher) (m₀ : FrozenMap K V) (hm : FrozenMap.new env₁ ty payload bh = .ok m₀)
    (ops : List (MapOp V K)) (outs : List (Out K V)) (m : FrozenMap K V)
    (hrun : (frozenApi env ty).run m₀ ops = .ok (outs, m)) (es es' : List (K × V))
    (hes : ∀ n, (calls MapIter.next n (m.iter ty)).1 = firstCalls es n) (hp : es.Perm es')
    (m' : FrozenMap K V) (hm' : FrozenMap.new env₂ ty es' bh' = .ok m') :
    Indistinguishable (frozenApi env ty) (frozenApi env ty) m m' ∧
    ∀ veq : V → V → Bool, (∀ v, veq v v = true) →
      m.eq env ty veq m' = .ok true ∧ m'.eq env ty veq m = .ok true := by
  have hb := new_built env₁ hty hcap hm
  have hr := (frozen_scanMap env hty).run hty.eq (hb.good (Or.inr hd)) hb.perm hd ops
  have he : es = m.entries ty := firstCalls_inj (fun n => (hes n).symm.trans (C13_iter true _ n).1)
  subst he
  cases hs : Dict.run ty.eq id payload ops with
  | ub => rw [hs] at hr; exact hr.elim
  | panic => rw [hs] at hr; rw [hrun] at hr; cases hr
  | ok s =>
    rw [hs] at hr
    obtain ⟨_, m1, h1, _, hg, h2, h3⟩ := hr
    rw [hrun] at h1
    cases h1
    have hds : DistinctKeys ty.eq s.2 := by
      have h4 := hd.keys
      rw [← h3] at h4
      rwa [List.pairwise_map] at h4
    have hde : DistinctKeys ty.eq es' := hds.perm hty.eq (h2.symm.trans hp)
    have hcap' : es'.length < 2 ^ 32 := by
      have h4 := (hp.symm.trans h2).length_eq
      have h5 := congrArg List.length h3
      simp only [List.length_map] at h5
      omega
    have hb' := new_built env₂ hty hcap' hm'
    have hg' := hb'.good (Or.inr hde)
    refine ⟨.of_refines ((frozen_scanMap env hty).refines hty.eq hg hp hde)
      ((frozen_scanMap env hty).refines hty.eq hg' hb'.perm hde), fun veq hv => ?_⟩
    have hsame : ∀ k, SameAnswer veq (lookup ty.eq es' k) (lookup ty.eq es' k) := by
      intro k
      cases lookup ty.eq es' k <;> simp [SameAnswer, hv]
    constructor
    · obtain ⟨b, hb1, hb2⟩ := (frozen_scanMap env hty).eqRefines hty.eq veq hg hg' hp hb'.perm hde hde
        [] [] _ _ _ _ rfl rfl rfl rfl
      exact hb1.trans (congrArg Res.ok (hb2.2 hsame))
    · obtain ⟨b, hb1, hb2⟩ := (frozen_scanMap env hty).eqRefines hty.eq veq hg' hg hb'.perm hp hde hde
        [] [] _ _ _ _ rfl rfl rfl rfl
      exact hb1.trans (congrArg Res.ok (hb2.2 hsame))

example := C85_rebuilt_map checkedEnv checkedEnv releaseEnv stringTy stringTy_lawful exLeft (by decide)
  exLeft_distinct demoHasher demoHasher exMapLeft exMapLeft_ok _ _ _ exRewritten_ok
  (exRewritten.2.entries stringTy) _ (fun n => (C13_iter true _ n).1) (List.reverse_perm _).symm _
  (Res.built (r := FrozenMap.new releaseEnv stringTy (exRewritten.2.entries stringTy).reverse demoHasher)
    (by decide +kernel))

/-- Sets: what iterating a set yields, in any order, can be built again with the same hasher, and with
whatever hasher it is built, the new set equals the old and has the same elements. -/
theorem C85_rebuilt_set [Target] (env env₁ env₂ : Env) (ty : KeyTy T) (hty : LawfulKey ty)
    (payload : List T) (hcap : payload.length < 2 ^ 32) (hd : Distinct ty.eq payload)
    (bh bh' : Hasher) (s : FrozenSet T) (hs : FrozenSet.new env₁ ty payload bh = .ok s)
    (es es' : List T) (hes : ∀ n, (calls SetIter.next n (s.iter ty)).1 = firstCalls es n)
    (hp : es.Perm es') :
    (payload.length < 2 ^ 31 → ∃ s', FrozenSet.new env₂ ty es' bh = .ok s') ∧
    ∀ s', FrozenSet.new env₂ ty es' bh' = .ok s' →
      s.eq env ty s' = .ok true ∧ s'.eq env ty s = .ok true ∧ s'.len = s.len ∧
      (∀ x, s'.contains env ty x = s.contains env ty x ∧ s'.get env ty x = s.get env ty x) ∧
      ∃ es'' : List T, es''.Perm es ∧
        ∀ n, (calls SetIter.next n (s'.iter ty)).1 = firstCalls es'' n := by
  obtain ⟨es₀, hp₀, hes₀⟩ := C11_set_iteration env₁ ty hty payload bh s hs
  have he : es = es₀ := firstCalls_inj (fun n => (hes n).symm.trans (hes₀ n))
  subst he
  have hpp : es'.Perm payload := hp.symm.trans hp₀
  have hcap' : es'.length < 2 ^ 32 := by rw [hpp.length_eq]; exact hcap
  have hsymm : ∀ {a b : T}, ty.eq a b = false → ty.eq b a = false := fun {a b} h => by
    rw [hty.eq.symm_eq]; exact h
  have hd' : Distinct ty.eq es' := (hpp.pairwise_iff hsymm).2 hd
  constructor
  · intro hcap
    have hcap' : es'.length < 2 ^ 31 := by rw [hpp.length_eq]; exact hcap
    cases hkind : ty.kind with
    | other => exact C02_other_set_construction_total env₂ ty hkind es' hcap' bh
    | u32 f g => exact C02_u32_set_construction_total env₂ ty hty f g hkind es' hcap' bh
    | string f g =>
      have h1 := (C03_string_set_construction_partial env₁ ty hty f g hkind payload hcap bh).1.1 ⟨s, hs⟩
      exact (C03_string_set_construction_partial env₂ ty hty f g hkind es' hcap' bh).1.2
        ((Constructible.perm_iff (hpp.map f)).2 h1)
  · intro s' hs'
    have hiff : ∀ x, Has ty.eq es' x ↔ Has ty.eq payload x := has_perm hpp
    refine ⟨?_, ?_, ?_, fun x => ⟨?_, ?_⟩, ?_⟩
    · obtain ⟨r, h1, h2⟩ := C37_frozen_set_eq env ty hty payload es' (by omega) (by omega) hd hd' env₁ env₂
        bh bh' s s' hs hs'
      rw [h1, h2.2 (fun x => (hiff x).symm)]
    · obtain ⟨r, h1, h2⟩ := C37_frozen_set_eq env ty hty es' payload (by omega) (by omega) hd' hd env₂ env₁
        bh' bh s' s hs' hs
      rw [h1, h2.2 hiff]
    · rw [(C31_len ty hty es' env₂ bh' s' hs').1, (C31_len ty hty payload env₁ bh s hs).1, hpp.length_eq]
    · obtain ⟨b, h1, h2⟩ := C31_contains env ty hty payload (by omega) hd env₁ bh s hs x
      obtain ⟨b', h1', h2'⟩ := C31_contains env ty hty es' (by omega) hd' env₂ bh' s' hs' x
      rw [h1, h1', Bool.eq_iff_iff.2 (h2'.trans ((hiff x).trans h2.symm))]
    · obtain ⟨o, h1, h2, h3⟩ := C31_get env ty hty payload (by omega) hd env₁ bh s hs x
      obtain ⟨o', h1', h2', h3'⟩ := C31_get env ty hty es' (by omega) hd' env₂ bh' s' hs' x
      rw [h1, h1']
      have hh : o'.isSome = true ↔ o.isSome = true := h2'.trans ((hiff x).trans h2.symm)
      cases o with
      | none =>
        cases o' with
        | none => rfl
        | some y => simp at hh
      | some y =>
        cases o' with
        | none => simp at hh
        | some y' =>
          obtain ⟨hy, hxy⟩ := h3 y rfl
          obtain ⟨hy', hxy'⟩ := h3' y' rfl
          by_cases hne : y' = y
          · rw [hne]
          · haveI : Std.Symm (fun a b => ty.eq a b = false) := ⟨fun _ _ h => hsymm h⟩
            have h4 := List.Pairwise.forall hd (hpp.mem_iff.1 hy') hy hne
            rw [hty.eq.trans _ _ _ (hty.eq.symm _ _ hxy') hxy] at h4
            cases h4
    · obtain ⟨es'', h1, h2⟩ := C11_set_iteration env₂ ty hty es' bh' s' hs'
      exact ⟨es'', h1.trans hp.symm, h2⟩

example := C85_rebuilt_set releaseEnv checkedEnv releaseEnv u32Ty u32Ty_lawful exSetKeys (by decide)
  (by unfold Distinct; decide +kernel) demoHasher (fun _ => 0) exFrozenSet exFrozenSet_ok
  ((exFrozenSet.toMap.entries u32Ty).map (·.1)) _
  (fun n => by rw [FrozenSet.iter_toMap, SetIter.calls_eq]) (List.reverse_perm _).symm

end FC
