import Verif.Examples
import Verif.Lemmas.FacadeCost
import Verif.Lemmas.FrozenMap
import Verif.Props.Cost
import Verif.Props.TotalCost

/-
C20 for `FrozenMap`: how many stored keys one lookup compares.
-/

set_option autoImplicit false

namespace FC
variable {K V : Type}

/-! ### C20 -/

/-- `FrozenMap` with four entries or more whose keys are filed by a code, repeated keys or not: whatever
key is asked for, at most one stored key more than the collisions the analysis of the codes reports is
compared with it. -/
theorem C20_frozen_map [Target] (env : Env) (ty : KeyTy K) (hty : LawfulKey ty)
    (payload : List (K × V)) (bh : Hasher) (m : FrozenMap K V)
    (hm : FrozenMap.new env ty payload bh = .ok m) (h32 : payload.length < 2 ^ 32)
    (h4 : 4 ≤ payload.length) (code : K → Nat)
    (hf : filedBy env.oc ty bh (payload.map (·.1)) = some code) (r : HashAnalysis)
    (hr : analyzeHashCodes (payload.map (fun e => code e.1)) = .ok r) (q : K) :
    ∃ o n, m.getKeyValueCounted env ty q = .ok (o, n) ∧ m.getKeyValue env ty q = .ok o ∧
      n ≤ 1 + r.numHashCollisions := by
  suffices h : ∃ o n, m.getKeyValueCounted env ty q = .ok (o, n) ∧ n ≤ 1 + r.numHashCollisions by
    obtain ⟨o, n, h1, h2⟩ := h
    refine ⟨o, n, h1, ?_, h2⟩
    rw [← C72_same_answers, h1]
    rfl
  have hcommon : ∀ {S : IdxTy} {m' : CommonMap K V},
      CommonMap.fromVecWithHasher env S ty.enc payload bh = .ok m' →
      code = (fun k => bh (ty.enc k)) →
      ∃ o n, m'.getKeyValueCounted ty.probe q = .ok (o, n) ∧ n ≤ 1 + r.numHashCollisions := by
    intro S m' hm' hcode
    subst hcode
    obtain ⟨o, n, h1, _, h2⟩ := C20_common_map env S ty.probe ty.enc payload bh m' hm' h32 r hr q
    exact ⟨o, n, h1, h2⟩
  have hne : payload ≠ [] := by rintro rfl; simp at h4
  unfold FrozenMap.new at hm
  rw [if_neg (by omega)] at hm
  unfold filedBy at hf
  cases hk : ty.kind with
  | other =>
    simp only [hk, FrozenMap.newCommonMap] at hm
    simp only [hk, Option.some.injEq] at hf
    split at hm <;>
    · simp only [Res.bind_eq_ok, Res.pure_eq, Res.ok.injEq] at hm
      obtain ⟨m', hm', rfl⟩ := hm
      exact hcommon hm' hf.symm
  | u32 f g =>
    simp only [hk, FrozenMap.newU32Map, Res.bind_eq_ok] at hm
    obtain ⟨v, hv, hm⟩ := hm
    have hkeys : (payload.map (fun e => (f e.1, e.2))).map (·.1) = (payload.map (·.1)).map f := by
      simp
    rw [hkeys] at hv
    cases v with
    | range =>
      simp only [hk] at hf
      rw [if_pos hv] at hf
      cases hf
    | normal =>
      simp only [hk, hv, Res.ok.injEq, reduceCtorEq, if_false, Option.some.injEq] at hf
      subst hf
      have hcodes : (payload.map (fun e => (f e.1, e.2))).map (fun e => asU64 e.1)
          = payload.map (fun e => asU64 (f e.1)) := by simp
      simp only at hm
      split at hm <;>
      · simp only [Res.bind_eq_ok, Res.pure_eq, Res.ok.injEq] at hm
        obtain ⟨m', hm', rfl⟩ := hm
        obtain ⟨o, n, h1, _, h2⟩ := C20_integer_map env _ _ m' hm' (by simpa using h32) r
          (by rw [hcodes]; exact hr) (ty.toInt q)
        exact counted_map _ ⟨o, n, h1, h2⟩
  | string f g =>
    have hl := hty.kind
    rw [hk] at hl
    obtain ⟨h1, h2, h3⟩ := hl
    have hkeys : (payload.map (fun e => (f e.1, e.2))).map (·.1) = (payload.map (·.1)).map f := by
      simp
    have hback : (payload.map (fun e => (f e.1, e.2))).map (fun e => (g e.1, e.2)) = payload := by
      rw [List.map_map]
      have : ((fun e : Bytes × V => (g e.1, e.2)) ∘ fun e : K × V => (f e.1, e.2)) = id := by
        funext e; simp [h1]
      rw [this, List.map_id]
    have hne' : (payload.map (·.1)).map f ≠ [] := by simpa using hne
    have hlt : ∀ k ∈ (payload.map (·.1)).map f, k.length < usz := by
      intro k hk
      obtain ⟨k', _, rfl⟩ := List.mem_map.1 hk
      have := h2 k'
      omega
    simp only [hk, FrozenMap.newStringMap, hback, hkeys, List.length_map, Res.bind_eq_ok] at hm
    obtain ⟨v, hv, hm⟩ := hm
    simp only [hk, hv] at hf
    have hleft : ∀ {S : IdxTy} {i l : Nat} {m' : LeftSliceMap V}, v = .left i l →
        LeftSliceMap.fromVecWithHasher env S (payload.map (fun e => (f e.1, e.2))) i (i + l) bh
          = .ok m' →
        ∃ o n, (m'.getKeyValueCounted (ty.toB q)).map (Prod.map ty.ofBKV id) = .ok (o, n) ∧
          n ≤ 1 + r.numHashCollisions := by
      intro S i l m' hvl hm'
      subst hvl
      simp only [Option.some.injEq] at hf
      subst hf
      have hin := (left_verdict_in_bounds hne' hlt hv).2.2
      have hin' : ∀ e ∈ payload, i + l ≤ (f e.1).length := fun e he =>
        hin _ (List.mem_map.2 ⟨e.1, List.mem_map.2 ⟨e, he, rfl⟩, rfl⟩)
      have hcodes : (payload.map (fun e => (f e.1, e.2))).map
            (fun e => bh [.write ((e.1.drop i).take (i + l - i))])
          = payload.map (fun e => if i + l ≤ (f e.1).length
              then bh [.write (((f e.1).drop i).take l)] else 0) := by
        rw [List.map_map]
        refine List.map_congr_left (fun e he => ?_)
        rw [if_pos (hin' e he)]
        simp
      exact counted_map _ (left_counted_le (by omega) hm' (by simpa using h32)
        (by rw [hcodes]; exact hr) (ty.toB q))
    have hright : ∀ {S : IdxTy} {i l : Nat} {m' : RightSliceMap V}, v = .right i l →
        RightSliceMap.fromVecWithHasher env S (payload.map (fun e => (f e.1, e.2))) i (i + l) bh
          = .ok m' → False := by
      intro S i l m' hvr hm'
      subst hvr
      obtain ⟨rfl, hin⟩ := right_verdict_in_bounds hne' hlt hv
      obtain ⟨k, hk'⟩ := List.exists_mem_of_ne_nil _ hne'
      have hb : i + 1 < usz := lt_of_le_of_lt (hin k hk') (hlt k hk')
      exact RightSliceMap.fromVec_never_ok env (by omega) hb (by simpa using hne) bh _ hm'
    split at hm
    · rename_i h255
      cases v with
      | normal =>
        simp only [Res.bind_eq_ok, Res.pure_eq, Res.ok.injEq] at hm
        obtain ⟨m', hm', rfl⟩ := hm
        exact hcommon hm' (Option.some.inj hf).symm
      | left i l =>
        simp only [Res.bind_eq_ok, Res.pure_eq, Res.ok.injEq] at hm
        obtain ⟨m', hm', rfl⟩ := hm
        exact hleft rfl hm'
      | right i l =>
        simp only [Res.bind_eq_ok, Res.pure_eq, Res.ok.injEq] at hm
        obtain ⟨m', hm', rfl⟩ := hm
        exact (hright rfl hm').elim
      | length =>
        simp only [Res.bind_eq_ok, Res.pure_eq, Res.ok.injEq] at hm
        obtain ⟨m', hm', rfl⟩ := hm
        simp only [List.length_map, if_pos h255, Option.some.injEq] at hf
        subst hf
        have hcodes : (payload.map (fun e => (f e.1, e.2))).map (fun e => e.1.length)
            = payload.map (fun e => (f e.1).length) := by simp
        obtain ⟨o, n, a1, _, a2⟩ := C20_length_map env IdxTy.u8 id beq List.length List.length
          _ m' hm' (by simpa using h32) r (by rw [hcodes]; exact hr) (ty.toB q)
        exact counted_map _ ⟨o, n, a1, a2⟩
    · rename_i h255
      cases v with
      | normal =>
        simp only [Res.bind_eq_ok, Res.pure_eq, Res.ok.injEq] at hm
        obtain ⟨m', hm', rfl⟩ := hm
        exact hcommon hm' (Option.some.inj hf).symm
      | length =>
        simp only [Res.bind_eq_ok, Res.pure_eq, Res.ok.injEq] at hm
        obtain ⟨m', hm', rfl⟩ := hm
        simp only [List.length_map, if_neg h255, Option.some.injEq] at hf
        exact hcommon hm' hf.symm
      | left i l =>
        simp only [Res.bind_eq_ok, Res.pure_eq, Res.ok.injEq] at hm
        obtain ⟨m', hm', rfl⟩ := hm
        exact hleft rfl hm'
      | right i l =>
        simp only [Res.bind_eq_ok, Res.pure_eq, Res.ok.injEq] at hm
        obtain ⟨m', hm', rfl⟩ := hm
        exact (hright rfl hm').elim

example (q : _) := C20_frozen_map checkedEnv stringTy stringTy_lawful exLeft demoHasher _ exMapLeft_ok
  (by decide) (by decide) _ rfl _ (Res.built (by decide +kernel)) q

end FC
