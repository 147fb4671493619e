import Verif.Spec.Macro
import Verif.Examples
import Verif.Lemmas.Lookup
import Verif.Lemmas.Slice
import Verif.Model.Macro
import Verif.Props.SpecializedMaps
import Verif.Props.Integers

/-
C42, C43: the `frozen_map!` macro.
-/

set_option autoImplicit false

namespace FC
variable {K V : Type}

/-! ### C43 -/

/-- `u32` keys. -/
def u32MacroTy : MacroTy UInt32 where
  eq a b := decide (a = b)
  enc k := [.writeInt 32 k.toNat]
  kind := .int IntTy.u32 (fun k => k.toNat)

/-- `&str` keys. -/
def strMacroTy [Target] : MacroTy RString where
  eq a b := decide (a = b)
  enc s := [.writeStr s.1]
  kind := .str (fun s => s.1)

/-- C43 is false: for three contiguous integers the annotation writes three generic arguments, but
`IntegerRangeMap` has two. -/
theorem C43_counterexample :
    ∃ e, macroExpand true demoHasher u32MacroTy [1, 2, 3] = .ok e ∧ e.name = .integerRange ∧
      ¬ TypeChecks e := by
  refine ⟨⟨.integerRange, IdxTy.u8, some 3, none⟩, by decide +kernel, rfl, ?_⟩
  intro h
  have := (h.1 3 rfl).2
  simp [declaredGenerics] at this

/-- Every other expansion is fine. Missing from C43: range maps, where it is false. -/
theorem C43_arity_partial [Target] (oc : Bool) (bhx : Hasher) (ty : MacroTy K) (keys : List K) (e : Emission)
    (h : macroExpand oc bhx ty keys = .ok e) : TypeChecks e ↔ e.name ≠ .integerRange := by
  unfold macroExpand at h
  split at h
  · simp only [Res.pure_eq, Res.ok.injEq] at h
    subst h
    simp [TypeChecks, takesRange]
  · split at h <;> simp only [Res.bind_eq_ok, Res.pure_eq, Res.ok.injEq] at h
    · obtain ⟨v, _, h⟩ := h
      cases v <;> (simp only [Res.ok.injEq] at h; subst h; simp [TypeChecks, takesRange, declaredGenerics])
    · obtain ⟨v, _, h⟩ := h
      cases v <;> (simp only [Res.ok.injEq] at h; subst h; simp [TypeChecks, takesRange, declaredGenerics])
    · subst h; simp [TypeChecks, takesRange, declaredGenerics]

example := C43_arity_partial true demoHasher strMacroTy (exLeft.map (·.1)) _ (Res.built (by decide +kernel))

/-- Exactly which inputs are affected: three or more integer literals judged a range. -/
theorem C43_affected_iff_partial [Target] (oc : Bool) (bhx : Hasher) (ty : MacroTy K) (keys : List K)
    (e : Emission) (h : macroExpand oc bhx ty keys = .ok e) :
    ¬ TypeChecks e ↔ 3 ≤ keys.length ∧ ∃ t f, ty.kind = .int t f ∧
      analyzeIntKeys t oc (keys.map f) = .ok .range := by
  rw [C43_arity_partial oc bhx ty keys e h, not_not]
  unfold macroExpand at h
  by_cases hlen : keys.length < 3
  · rw [if_pos hlen] at h
    simp only [Res.pure_eq, Res.ok.injEq] at h
    subst h
    simp
    omega
  · rw [if_neg hlen] at h
    have hlen' : 3 ≤ keys.length := by omega
    split at h <;> simp only [Res.bind_eq_ok, Res.pure_eq, Res.ok.injEq] at h
    · rename_i t f hk
      obtain ⟨v, hv, h⟩ := h
      have hv' : analyzeIntKeys t oc (keys.map f) = .ok v := by
        unfold processIntKeys at hv
        split at hv
        · exact hv
        · cases hv
      cases v with
      | range =>
        simp only [Res.ok.injEq] at h
        subst h
        simp only [true_iff]
        exact ⟨hlen', t, f, hk, hv'⟩
      | normal =>
        simp only [Res.ok.injEq] at h
        subst h
        simp only [reduceCtorEq, false_iff, not_and, not_exists]
        intro _ t' f' hk' hv2
        rw [hk] at hk'
        cases hk'
        rw [hv'] at hv2
        cases hv2
    · rename_i f hk
      obtain ⟨v, _, h⟩ := h
      have : ∀ (t : IntTy) (f' : K → Int), ty.kind ≠ .int t f' := by
        intro t f' h'; rw [hk] at h'; cases h'
      cases v <;> (simp only [Res.ok.injEq] at h; subst h; simp [this])
    · rename_i hk
      have : ∀ (t : IntTy) (f' : K → Int), ty.kind ≠ .int t f' := by
        intro t f' h'; rw [hk] at h'; cases h'
      subst h
      simp [this]

example := C43_affected_iff_partial true demoHasher u32MacroTy [1, 2, 3] _ (Res.built (by decide +kernel))

/-! ### C42 -/

/-- C42 is false: six strings told apart only by their last byte expand to a `RightSliceMap` whose
construction is undefined behaviour at run time. -/
theorem C42_counterexample :
    ∃ e, macroExpand true demoHasher strMacroTy (exRight.map (·.1)) = .ok e ∧ TypeChecks e ∧
      ∀ (env : Env) (bh : Hasher) (vals : List Nat), vals.length = 6 →
        ∀ m, runEmission env strMacroTy e ((exRight.map (·.1)).zip vals) bh ≠ .ok m := by
  refine ⟨⟨.right, IdxTy.u8, some 4, some (0, 1)⟩, by decide +kernel, ?_, ?_⟩
  · constructor
    · intro n hn
      simp only [Option.some.injEq] at hn
      subst hn
      simp [declaredGenerics]
    · rfl
  · intro env bh vals hv m hm
    unfold runEmission at hm
    simp only [Res.bind_eq_ok, Res.pure_eq, Res.ok.injEq] at hm
    obtain ⟨rm, hrm, _⟩ := hm
    refine RightSliceMap.fromVec_never_ok env (by decide) (by decide) ?_ bh rm hrm
    intro h
    have := congrArg List.length h
    simp [hv, exRight] at this

/-- No right-slice expansion works, for any keys. -/
theorem C42_right_never_works_partial [Target] (ty : MacroTy K) (hty : LawfulMacroTy ty) (oc : Bool)
    (bhx : Hasher) (payload : List (K × V)) (e : Emission)
    (h : macroExpand oc bhx ty (payload.map (·.1)) = .ok e) (hright : e.name = .right) (env : Env)
    (bh : Hasher) : runEmission env ty e payload bh = .ub := by
  unfold macroExpand at h
  rw [List.length_map] at h
  by_cases hlen : payload.length < 3
  · rw [if_pos hlen] at h
    simp only [Res.pure_eq, Res.ok.injEq] at h
    subst h
    cases hright
  · rw [if_neg hlen] at h
    have hne : payload ≠ [] := by rintro rfl; simp at hlen
    split at h <;> simp only [Res.bind_eq_ok, Res.pure_eq, Res.ok.injEq] at h
    · obtain ⟨v, _, h⟩ := h
      cases v <;> (simp only [Res.ok.injEq] at h; subst h; cases hright)
    · rename_i f hk
      have hkind := hty.kind
      rw [hk] at hkind
      simp only at hkind
      have htb : ty.toB = f := by funext k; simp [MacroTy.toB, hk]
      obtain ⟨v, hv, h⟩ := h
      have hout := analyzeSliceKeys_outcome (oc := oc) (bh := bhx)
        (keys := (payload.map (·.1)).map f) (by simpa using hne) (by
          intro k hk'
          simp only [List.map_map, List.mem_map] at hk'
          obtain ⟨p, _, rfl⟩ := hk'
          exact lt_trans (hkind.1 p.1) (by have := usz_ge; omega))
      rw [hv] at hout
      cases v <;> (simp only [Res.ok.injEq] at h; subst h)
      case right i l =>
        unfold runEmission
        simp only [htb]
        rw [RightSliceMap.fromVec_ub env (a := i) (b := i + l)]
        · rfl
        · cases hout; omega
        · simpa using hne
        · intro e he
          obtain ⟨p, hp, rfl⟩ := List.mem_map.1 he
          cases hout
          rename_i hR _
          exact hR.1 _ (by simp only [List.map_map, List.mem_map]; exact ⟨p, hp, rfl⟩)
      all_goals cases hright
    · subst h; cases hright

theorem AnswersProbe.toGet {K' : Type} {eq : K → K → Bool} {f : K → K'} {payload : List (K × V)}
    {k : K} {matching : K' → Bool} (hm : ∀ k', matching (f k') = eq k k')
    {kv : Res (Option (K' × Ref V))} {g gm : Res (Option (Ref V))} {c : Res Bool}
    (h : AnswersProbe matching (payload.map (fun p => (f p.1, p.2))) kv g gm c) :
    AnswersGet eq payload k g := by
  obtain ⟨o, _, h2, _, _, h5⟩ := h
  refine ⟨_, h2, ?_⟩
  cases o with
  | none =>
    rintro ⟨e, he, hk⟩
    have := h5 (f e.1, e.2) (List.mem_map.2 ⟨e, he, rfl⟩)
    simp only [hm, hk] at this
    cases this
  | some r =>
    obtain ⟨k', r⟩ := r
    obtain ⟨hmem, hmt⟩ := h5
    obtain ⟨e, he, heq⟩ := List.mem_map.1 hmem
    simp only [Prod.mk.injEq] at heq
    refine ⟨e, he, ?_, heq.2⟩
    rw [← hm, heq.1]
    exact hmt

theorem payloadSize_fits [Target] {n : Nat} (h : n < 2 ^ 31) :
    ∃ cap, (payloadSize n).capacity = some cap ∧ n ≤ cap := by
  unfold payloadSize
  split
  · exact ⟨255, by simp, by omega⟩
  · split
    · exact ⟨65535, if_pos (Nat.lt_of_lt_of_le (by decide) usz_ge), by omega⟩
    · exact ⟨2 ^ 31 - 1, by simp, by omega⟩

/-- Every expansion except a right-slice map (and a range map of repeated integers): the index type
is large enough, a slice range lies inside every key, and the emitted code, with any hasher, builds
a map that finds exactly the listed keys. Missing from C42: right-slice maps, where it is false. -/
theorem C42_finds_listed_keys_partial [Target] (ty : MacroTy K) (hty : LawfulMacroTy ty) (oc : Bool)
    (bhx : Hasher) (payload : List (K × V)) (hcap : payload.length < 2 ^ 31) (e : Emission)
    (h : macroExpand oc bhx ty (payload.map (·.1)) = .ok e) (hright : e.name ≠ .right)
    (hrange : e.name = .integerRange → DistinctKeys ty.eq payload ∧
      (oc = true ∨ ∀ t f, ty.kind = .int t f → FitsType t (payload.map (fun p => f p.1))))
    (env : Env) (bh : Hasher) :
    (∃ cap, e.idx.capacity = some cap ∧ (payload.length ≤ cap ∨ e.name = .scanning)) ∧
    (∀ a b, e.range = some (a, b) → a ≤ b ∧ ∀ p ∈ payload, b ≤ (ty.toB p.1).length) ∧
    ∃ m, runEmission env ty e payload bh = .ok m ∧
      ∀ k, AnswersGet ty.eq payload k (m.get env ty k) := by
  have hidp : payload = payload.map (fun p => (id p.1, p.2)) := by simp
  obtain ⟨cap, hS, hc⟩ := payloadSize_fits hcap
  have hcommon : ∃ m, CommonMap.fromVecWithHasher env (payloadSize payload.length) ty.enc payload bh
      = .ok m ∧ ∀ k, AnswersGet ty.eq payload k ((MacroMap.common m).get env ty k) := by
    obtain ⟨m, hm, _⟩ := CommonMap.fromVec_ok env hS ty.enc hc bh
    refine ⟨m, hm, fun k => ?_⟩
    obtain ⟨h1, _⟩ := C30_common_map env (payloadSize payload.length)
      (⟨id, ty.eq, ty.enc⟩ : Probe K K) ty.enc (fun k q hq => hty.hash q k hq) payload bh m hm
      (by omega) k
    rw [hidp] at h1
    exact h1.toGet (eq := ty.eq) (fun _ => rfl)
  unfold macroExpand at h
  rw [List.length_map] at h
  by_cases hlen : payload.length < 3
  · rw [if_pos hlen] at h
    simp only [Res.pure_eq, Res.ok.injEq] at h
    subst h
    refine ⟨⟨255, by simp, Or.inr rfl⟩, by simp, _, rfl, fun k => ?_⟩
    obtain ⟨h1, _⟩ := C30_scanning_map (⟨id, ty.eq, ty.enc⟩ : Probe K K) payload k
    rw [hidp] at h1
    have := h1.toGet (eq := ty.eq) (k := k) (fun _ => rfl)
    rw [← hidp] at this
    exact this
  · rw [if_neg hlen] at h
    have hne : payload ≠ [] := by rintro rfl; simp at hlen
    split at h <;> simp only [Res.bind_eq_ok, Res.pure_eq, Res.ok.injEq] at h
    · rename_i t f hk
      have hkind := hty.kind
      rw [hk] at hkind
      simp only at hkind
      have hti : ty.toInt = f := by funext k; simp [MacroTy.toInt, hk]
      have htt : ty.intTy = t := by simp [MacroTy.intTy, hk]
      obtain ⟨v, hv, h⟩ := h
      have hv' : analyzeIntKeys t oc ((payload.map (·.1)).map f) = .ok v := by
        unfold processIntKeys at hv
        split at hv
        · exact hv
        · cases hv
      have hlenm : (payload.map (fun p => (f p.1, p.2))).length ≤ cap := by simpa using hc
      cases v with
      | normal =>
        simp only [Res.ok.injEq] at h
        subst h
        refine ⟨⟨cap, hS, Or.inl hc⟩, by simp, ?_⟩
        obtain ⟨m, hm, _⟩ := IntegerMap.fromVec_ok env hS hlenm
        refine ⟨.integer m, ?_, fun k => ?_⟩
        · unfold runEmission
          simp only [hti]
          rw [hm]; rfl
        · obtain ⟨h1, _⟩ := C30_integer_map env _ _ m hm
            (by rw [List.length_map]; omega) (f k)
          show AnswersGet ty.eq payload k (m.get (ty.toInt k))
          rw [hti]
          exact h1.toGet (fun k' => by rw [hkind.2.2])
      | range =>
        simp only [Res.ok.injEq] at h
        subst h
        refine ⟨⟨cap, hS, Or.inl hc⟩, by simp, ?_⟩
        obtain ⟨hd, hfit⟩ := hrange rfl
        have hnd : ((payload.map (fun p => (f p.1, p.2))).map (·.1)).Nodup := by
          rw [List.map_map]
          refine List.pairwise_map.2 (hd.imp ?_)
          intro a b hab
          rw [hkind.2.2] at hab
          simpa using hab
        have hne' : payload.map (fun p => (f p.1, p.2)) ≠ [] := by simpa using hne
        have hr : ∀ e ∈ payload.map (fun p => (f p.1, p.2)), t.InRange e.1 := by
          intro e he
          obtain ⟨p, _, rfl⟩ := List.mem_map.1 he
          exact hkind.2.1 _
        have hkeys : (payload.map (fun p => (f p.1, p.2))).map (·.1) = (payload.map (·.1)).map f := by
          simp
        have hr' : ∀ k ∈ (payload.map (·.1)).map f, t.InRange k := by
          intro k hk'
          obtain ⟨x, _, rfl⟩ := List.mem_map.1 hk'
          exact hkind.2.1 _
        have hfit : FitsType t ((payload.map (·.1)).map f) := by
          rcases hfit with rfl | hfit
          · by_contra hnf
            rw [(C22_overflow_iff_partial t _ hr').2 hnf] at hv'
            cases hv'
          · have := hfit t f hk
            rw [List.map_map]
            exact this
        obtain ⟨v, hv2, hv3, _⟩ := C21_range_iff t oc _ hr' (hkeys ▸ hnd) hfit
        rw [hv'] at hv2
        cases hv2
        obtain ⟨m, hm, _, hans⟩ := C23_lookup t hkind.1 env.oc _ hne' hr hnd
          (by rw [hkeys]; exact (hv3.1 rfl).2)
          (by
            intro a ha b hb
            exact hfit.2 a.1 (hkeys ▸ List.mem_map.2 ⟨a, ha, rfl⟩) b.1
              (hkeys ▸ List.mem_map.2 ⟨b, hb, rfl⟩))
          (by rw [List.length_map]; have := usz_ge; omega)
        refine ⟨.integerRange t m, ?_, fun k => ?_⟩
        · unfold runEmission
          simp only [hti, htt]
          rw [hm]; rfl
        · show AnswersGet ty.eq payload k (m.get env.oc t (ty.toInt k))
          rw [hti]
          exact (hans env.oc (f k)).toGet (fun k' => by rw [hkind.2.2])
    · rename_i f hk
      have hkind := hty.kind
      rw [hk] at hkind
      simp only at hkind
      have htb : ty.toB = f := by funext k; simp [MacroTy.toB, hk]
      obtain ⟨v, hv, h⟩ := h
      have hlenm : (payload.map (fun p => (f p.1, p.2))).length ≤ cap := by simpa using hc
      cases v with
      | normal =>
        simp only [Res.ok.injEq] at h
        subst h
        obtain ⟨m, hm, hans⟩ := hcommon
        exact ⟨⟨cap, hS, Or.inl hc⟩, by simp, .common m, by unfold runEmission; simp only; rw [hm]; rfl,
          hans⟩
      | length =>
        simp only [Res.ok.injEq] at h
        subst h
        refine ⟨⟨cap, hS, Or.inl hc⟩, by simp, ?_⟩
        obtain ⟨m, hm, _⟩ := LengthMap.fromVec_ok env hS List.length hlenm
        refine ⟨.length m, ?_, fun k => ?_⟩
        · unfold runEmission
          simp only [htb]
          rw [hm]; rfl
        · obtain ⟨h1, _⟩ := C30_length_map env _ id beq List.length List.length
            (fun a b hab => by rw [of_decide_eq_true hab]; rfl) _ m hm
            (by rw [List.length_map]; omega) (f k)
          show AnswersGet ty.eq payload k (m.get id beq List.length (ty.toB k))
          rw [htb]
          exact h1.toGet (fun k' => by rw [hkind.2]; rfl)
      | left i l =>
        simp only [Res.ok.injEq] at h
        subst h
        have hb := left_verdict_in_bounds (by simpa using hne)
          (by
            intro k hk'
            simp only [List.map_map, List.mem_map] at hk'
            obtain ⟨p, _, rfl⟩ := hk'
            exact lt_trans (hkind.1 p.1) (by have := usz_ge; omega)) hv
        have hlong : ∀ e ∈ payload.map (fun p => (f p.1, p.2)), i + l ≤ e.1.length := by
          intro e he
          obtain ⟨p, hp, rfl⟩ := List.mem_map.1 he
          exact hb.2.2 _ (by simp only [List.map_map, List.mem_map]; exact ⟨p, hp, rfl⟩)
        refine ⟨⟨cap, hS, Or.inl hc⟩, ?_, ?_⟩
        · intro a b hab
          simp only [Option.some.injEq, Prod.mk.injEq] at hab
          obtain ⟨rfl, rfl⟩ := hab
          refine ⟨by omega, fun p hp => ?_⟩
          rw [htb]
          exact hlong (f p.1, p.2) (List.mem_map.2 ⟨p, hp, rfl⟩)
        · obtain ⟨m, hm, _, hans⟩ := C28_lookup env _ cap hS _ hlenm i (i + l) (by omega) hlong bh
          refine ⟨.left m, ?_, fun k => ?_⟩
          · unfold runEmission
            simp only [htb]
            rw [hm]; rfl
          · show AnswersGet ty.eq payload k (m.get (ty.toB k))
            rw [htb]
            exact (hans (f k)).toGet (fun k' => by rw [hkind.2])
      | right i l =>
        simp only [Res.ok.injEq] at h
        subst h
        exact absurd rfl hright
    · subst h
      obtain ⟨m, hm, hans⟩ := hcommon
      exact ⟨⟨cap, hS, Or.inl hc⟩, by simp, .common m, by unfold runEmission; simp only; rw [hm]; rfl,
        hans⟩

theorem u32MacroTy_lawful [Target] : LawfulMacroTy u32MacroTy where
  eq := u32Ty_lawful.eq
  hash a b h := by rw [of_decide_eq_true h]
  kind := ⟨by decide, u32Ty_lawful.kind.2.1, u32Ty_lawful.kind.2.2⟩

theorem strMacroTy_lawful [Target] : LawfulMacroTy strMacroTy where
  eq := stringTy_lawful.eq
  hash a b h := by rw [of_decide_eq_true h]
  kind := ⟨fun k => k.2, fun a b => by simp [strMacroTy, Subtype.ext_iff]⟩

/-- The hypotheses are met by left-slice, length, integer and range maps; a whole-theorem instance
for the first and the last. -/
def exName (r : Res Emission) : Option MapName := match r with | .ok e => some e.name | _ => none

example : exName (macroExpand true demoHasher strMacroTy (exLeft.map (·.1))) = some .left ∧
    exName (macroExpand true demoHasher strMacroTy (exLen.map (·.1))) = some .length ∧
    exName (macroExpand true demoHasher u32MacroTy (exU32.map (·.1))) = some .integer ∧
    exName (macroExpand true demoHasher u32MacroTy (exRange.map (·.1))) = some .integerRange ∧
    exName (macroExpand true demoHasher u32MacroTy (exScan.map (·.1))) = some .scanning := by
  decide +kernel

example (bh : Hasher) : ∃ e m, macroExpand true demoHasher strMacroTy (exLeft.map (·.1)) = .ok e ∧
    runEmission checkedEnv strMacroTy e exLeft bh = .ok m := by
  obtain ⟨e, he⟩ := Res.of_isOk
    (r := macroExpand true demoHasher strMacroTy (exLeft.map (·.1))) (by decide +kernel)
  have hn : exName (macroExpand true demoHasher strMacroTy (exLeft.map (·.1))) = some .left := by
    decide +kernel
  rw [he] at hn
  have hn : e.name = .left := by simpa [exName] using hn
  obtain ⟨_, _, m, hm, _⟩ := C42_finds_listed_keys_partial strMacroTy strMacroTy_lawful true
    demoHasher exLeft (by decide) e he (by simp [hn]) (by simp [hn]) checkedEnv bh
  exact ⟨e, m, he, hm⟩

example : ∃ e m, macroExpand true demoHasher u32MacroTy (exRange.map (·.1)) = .ok e ∧
    runEmission checkedEnv u32MacroTy e exRange demoHasher = .ok m := by
  obtain ⟨e, he⟩ := Res.of_isOk
    (r := macroExpand true demoHasher u32MacroTy (exRange.map (·.1))) (by decide +kernel)
  have hn : exName (macroExpand true demoHasher u32MacroTy (exRange.map (·.1)))
      = some .integerRange := by decide +kernel
  rw [he] at hn
  have hn : e.name = .integerRange := by simpa [exName] using hn
  obtain ⟨_, _, m, hm, _⟩ := C42_finds_listed_keys_partial u32MacroTy u32MacroTy_lawful true
    demoHasher exRange (by decide) e he (by simp [hn]) (fun _ => ⟨exRange_distinct, Or.inl rfl⟩)
    checkedEnv demoHasher
  exact ⟨e, m, he, hm⟩

/-- Six strings told apart only by their last byte. -/
example := C42_right_never_works_partial strMacroTy strMacroTy_lawful true demoHasher exRight
  ⟨.right, IdxTy.u8, some 4, some (0, 1)⟩ (by decide +kernel) rfl checkedEnv demoHasher

end FC
