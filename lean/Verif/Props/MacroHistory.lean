import Verif.Spec.MacroHistory
import Verif.Props.MacroTokens
import Verif.Props.History

/-
C97: a map written with `frozen_map!` acts as the dictionary written down, under every history.
-/

set_option autoImplicit false

namespace FC
variable {Tok Ty Ex K V : Type}

/-! ### C97 -/

/-- Every expansion except a right-slice map, entries with distinct keys: the emitted code builds a
map, and under every history it gives what the dictionary of the entries gives. Missing from C97:
right-slice maps, where it is false (C42). -/
theorem C97_acts_as_written_partial [Target] (ty : MacroTy K) (hty : LawfulMacroTy ty) (oc : Bool)
    (bhx : Hasher) (payload : List (K × V)) (hcap : payload.length < 2 ^ 31)
    (hd : DistinctKeys ty.eq payload) (e : Emission)
    (h : macroExpand oc bhx ty (payload.map (·.1)) = .ok e) (hright : e.name ≠ .right)
    (hrange : e.name = .integerRange →
      oc = true ∨ ∀ t f, ty.kind = .int t f → FitsType t (payload.map (fun p => f p.1)))
    (env : Env) (bh : Hasher) :
    ∃ m, runEmission env ty e payload bh = .ok m ∧ m.ActsAs env ty payload := by
  obtain ⟨_, _, m, hm, _⟩ := C42_finds_listed_keys_partial ty hty oc bhx payload hcap e h hright
    (fun hr => ⟨hd, hrange hr⟩) env bh
  refine ⟨m, hm, ?_⟩
  have hcommon : ∀ S m', CommonMap.fromVecWithHasher env S ty.enc payload bh = .ok m' →
      Refines (commonApi ⟨id, ty.eq, ty.enc⟩) ty.eq id m' payload := fun S m' hm' =>
    C49_common_map env S (⟨id, ty.eq, ty.enc⟩ : Probe K K) hty.eq ty.enc
      (fun k q hq => hty.hash q k hq) payload hd bh m' hm' (by omega)
  unfold macroExpand at h
  rw [List.length_map] at h
  by_cases hlen : payload.length < 3
  · rw [if_pos hlen] at h
    simp only [Res.pure_eq, Res.ok.injEq] at h
    subst h
    simp only [runEmission, Res.pure_eq, Res.ok.injEq] at hm
    subst hm
    exact C49_scanning_map (⟨id, ty.eq, ty.enc⟩ : Probe K K) hty.eq payload hd
  · rw [if_neg hlen] at h
    have hne : payload ≠ [] := by rintro rfl; simp at hlen
    have hnd : ∀ {β : Type} [DecidableEq β] (f : K → β), (∀ a b, ty.eq a b = decide (f a = f b)) →
        ((payload.map (fun p => (f p.1, p.2))).map (·.1)).Nodup := by
      intro β _ f hf
      rw [List.map_map]
      refine List.pairwise_map.2 (hd.imp ?_)
      intro a b hab
      rw [hf] at hab
      simpa using hab
    split at h <;> simp only [Res.bind_eq_ok, Res.pure_eq, Res.ok.injEq] at h
    · rename_i t f hk
      have hkind := hty.kind
      rw [hk] at hkind
      simp only at hkind
      have hti : ty.toInt = f := by funext k; simp [MacroTy.toInt, hk]
      have htt : ty.intTy = t := by simp [MacroTy.intTy, hk]
      obtain ⟨v, _, h⟩ := h
      cases v with
      | normal =>
        simp only [Res.ok.injEq] at h
        subst h
        simp only [runEmission, Res.bind_eq_ok, Res.pure_eq, Res.ok.injEq] at hm
        obtain ⟨m', hm', rfl⟩ := hm
        exact C49_integer_map env _ _ (by rw [hti]; exact hnd f hkind.2.2) m' hm'
          (by rw [List.length_map]; omega)
      | range =>
        simp only [Res.ok.injEq] at h
        subst h
        simp only [runEmission, Res.bind_eq_ok, Res.pure_eq, Res.ok.injEq] at hm
        obtain ⟨m', hm', rfl⟩ := hm
        refine C49_range_map env.oc env.oc ty.intTy (by rw [htt]; exact hkind.1) _ (by simpa using hne)
          ?_ (by rw [hti]; exact hnd f hkind.2.2) m' hm'
        intro e he
        obtain ⟨p, _, rfl⟩ := List.mem_map.1 he
        rw [htt, hti]
        exact hkind.2.1 _
    · rename_i f hk
      have hkind := hty.kind
      rw [hk] at hkind
      simp only at hkind
      have htb : ty.toB = f := by funext k; simp [MacroTy.toB, hk]
      have hndb : ((payload.map (fun p => (ty.toB p.1, p.2))).map (·.1)).Nodup := by
        rw [htb]; exact hnd f hkind.2
      have h32 : (payload.map (fun p => (ty.toB p.1, p.2))).length < 2 ^ 32 := by
        rw [List.length_map]; omega
      obtain ⟨v, _, h⟩ := h
      cases v with
      | normal =>
        simp only [Res.ok.injEq] at h
        subst h
        simp only [runEmission, Res.bind_eq_ok, Res.pure_eq, Res.ok.injEq] at hm
        obtain ⟨m', hm', rfl⟩ := hm
        exact hcommon _ m' hm'
      | length =>
        simp only [Res.ok.injEq] at h
        subst h
        simp only [runEmission, Res.bind_eq_ok, Res.pure_eq, Res.ok.injEq] at hm
        obtain ⟨m', hm', rfl⟩ := hm
        exact C49_length_map env _ id _ lawfulEq_decide List.length List.length
          (fun k q hq => by rw [of_decide_eq_true hq]; rfl) _ (distinct_decide hndb) m' hm' h32
      | left i l =>
        simp only [Res.ok.injEq] at h
        subst h
        simp only [runEmission, Res.bind_eq_ok, Res.pure_eq, Res.ok.injEq] at hm
        obtain ⟨m', hm', rfl⟩ := hm
        exact C49_left_slice_map env _ _ hndb _ _ (fun hnil => absurd (List.map_eq_nil_iff.1 hnil) hne)
          bh m' hm' h32
      | right i l =>
        simp only [Res.ok.injEq] at h
        subst h
        exact absurd rfl hright
    · subst h
      simp only [runEmission, Res.bind_eq_ok, Res.pure_eq, Res.ok.injEq] at hm
      obtain ⟨m', hm', rfl⟩ := hm
      exact hcommon _ m' hm'

/-- From tokens to histories. Take any call as written with distinct keys, key expressions that
evaluate to their literal values (where the macro looks at them), and suppose the macro expands it to
code that compiles, other than a right-slice map. Running the code evaluates every expression once, in
the order written, and the map it builds acts under every history as the dictionary written. -/
theorem C97_from_tokens_partial [Target] (S : Syn Tok Ty Ex) (hS : S.Lawful) (comma colon : Tok)
    (hcomma : S.isComma comma = true) (hcolon : S.isColon colon = true) (trailing : Bool)
    (tyToks : List Tok) (ty : Ty) (hty : S.WritesType tyToks ty) (es : List (WrittenEntry Tok Ex))
    (hes : ∀ e ∈ es, S.WritesExpr e.keyToks e.key ∧ S.WritesExpr e.valueToks e.value)
    (hcap : es.length < 2 ^ 31)
    (mty : MacroTy K) (hlaw : LawfulMacroTy mty) (fk : Ex → K) (fv : Ex → V)
    (hkind : es.length < 3 ∨ match classify (S.tyName ty), mty.kind with
      | .int t, .int t' f => t = t' ∧ ∀ e ∈ es, S.litInt e.key = some (f (fk e.key))
      | .str, .str f => ∀ e ∈ es, S.litStr e.key = some (f (fk e.key))
      | .common, .other => True
      | _, _ => False)
    (hd : DistinctKeys mty.eq (es.map (fun e => (fk e.key, fv e.value))))
    (oc : Bool) (bhx : Hasher) (c : MacroCode Ex)
    (hc : expandTokens S oc bhx (writtenCall comma colon trailing tyToks es) = .ok (some c))
    (hcompiles : TypeChecks c.emission) (hright : c.emission.name ≠ .right)
    (env : Env) (bh : Hasher) :
    ∃ m, c.run env mty (logged fk) (logged fv) bh []
        = .ok (m, es.flatMap (fun e => [e.key, e.value])) ∧
      m.ActsAs env mty (es.map (fun e => (fk e.key, fv e.value))) := by
  obtain ⟨hent, hexp⟩ := expandTokens_emission S hS comma colon hcomma hcolon trailing tyToks ty hty es
    hes mty fk fv hkind oc bhx c hc
  have hnr := (C43_arity_partial oc bhx mty _ _ hexp).1 hcompiles
  obtain ⟨m, hm, hact⟩ := C97_acts_as_written_partial mty hlaw oc bhx
    (es.map (fun e => (fk e.key, fv e.value))) (by simpa using hcap) hd c.emission hexp hright
    (fun h => absurd h hnr) env bh
  refine ⟨m, ?_, hact⟩
  unfold MacroCode.run
  rw [Call.bind_apply, hent, mapList_logged]
  simp only [Res.ok_bind, List.map_map, Function.comp_def, Call.lift, hm, Res.map_ok,
    List.nil_append]
  simp [List.flatMap_map]

/-- It is false of right-slice maps: six distinct strings for which the emitted code compiles and no
run of it builds a map. -/
theorem C97_counterexample :
    DistinctKeys strMacroTy.eq exRight ∧
    ∃ e, macroExpand true demoHasher strMacroTy (exRight.map (·.1)) = .ok e ∧ TypeChecks e ∧
      ∀ (env : Env) (bh : Hasher), ¬ ∃ m, runEmission env strMacroTy e exRight bh = .ok m ∧
        m.ActsAs env strMacroTy exRight := by
  refine ⟨by unfold DistinctKeys; decide +kernel, ?_⟩
  obtain ⟨e, he, ht, h⟩ := C42_counterexample
  refine ⟨e, he, ht, fun env bh => ?_⟩
  rintro ⟨m, hm, _⟩
  refine h env bh (exRight.map (·.2)) (by decide +kernel) m ?_
  exact hm

/-! ### Non-vacuity -/

/-- Strings told apart by a slice at the start. -/
example (env : Env) (bh : Hasher) : ∃ e m,
    macroExpand true demoHasher strMacroTy (exLeft.map (·.1)) = .ok e ∧ e.name = .left ∧
    runEmission env strMacroTy e exLeft bh = .ok m ∧ m.ActsAs env strMacroTy exLeft := by
  obtain ⟨e, he⟩ := Res.of_isOk (r := macroExpand true demoHasher strMacroTy (exLeft.map (·.1)))
    (by decide +kernel)
  have hn : (macroExpand true demoHasher strMacroTy (exLeft.map (·.1))).map Emission.name = .ok .left := by
    decide +kernel
  rw [he] at hn
  have hn : e.name = .left := by simpa using hn
  have hd : DistinctKeys strMacroTy.eq exLeft := by unfold DistinctKeys; decide +kernel
  obtain ⟨m, hm, hact⟩ := C97_acts_as_written_partial strMacroTy strMacroTy_lawful true demoHasher exLeft
    (by decide +kernel) hd e he (by rw [hn]; decide) (by rw [hn]; intro h; cases h) env bh
  exact ⟨e, m, he, hn, hm, hact⟩

/-- `frozen_map!(u32, 1: -10, 5: -50, 9: -90,)`, and a history on what it builds. -/
example (env : Env) (bh : Hasher) :
    ∃ (c : MacroCode DemoEx) (m : MacroMap UInt32 Int),
      expandTokens demoSyn true demoHasher (writtenCall .comma .colon true [.name "u32"]
        [demoEntry 1 10, demoEntry 5 50, demoEntry 9 90]) = .ok (some c) ∧
      c.run env u32MacroTy (logged demoKey) (logged demoValue) bh []
        = .ok (m, [.int 1, .int (-10), .int 5, .int (-50), .int 9, .int (-90)]) ∧
      m.ActsAs env u32MacroTy [(1, -10), (5, -50), (9, -90)] := by
  have hx : expandTokens demoSyn true demoHasher (writtenCall .comma .colon true [.name "u32"]
      [demoEntry 1 10, demoEntry 5 50, demoEntry 9 90])
      = .ok (some ⟨⟨.integer, IdxTy.u8, some 3, none⟩, false,
          [(.int 1, .int (-10)), (.int 5, .int (-50)), (.int 9, .int (-90))]⟩) := by rfl
  obtain ⟨m, hm, hact⟩ := C97_from_tokens_partial demoSyn demoSyn_lawful .comma .colon rfl rfl true
    [.name "u32"] "u32" (fun c rest hc => rfl) [demoEntry 1 10, demoEntry 5 50, demoEntry 9 90]
    (by intro e he; simp at he; rcases he with rfl | rfl | rfl <;> exact demoEntry_written _ _)
    (by decide) u32MacroTy u32MacroTy_lawful demoKey demoValue
    (Or.inr ⟨rfl, by intro e he; simp at he; rcases he with rfl | rfl | rfl <;> rfl⟩)
    (by unfold DistinctKeys; decide +kernel) true demoHasher _ hx
    ⟨by intro n hn; cases hn; decide, rfl⟩ (by decide) env bh
  exact ⟨_, m, hx, hm, hact⟩

/-- What a history on that dictionary gives: a hit, a write, the written value, and the length. -/
example : (Dict.run (fun a b => decide (a = b)) id
    [((1 : Int), (-10 : Int)), (5, -50), (9, -90)]
    [.get 5, .getMut 5 7, .get 5, .get 6, .len]).map (·.1)
    = .ok [.value (some (-50)), .value (some (-50)), .value (some 7), .value none, .number 3] := by
  decide +kernel

end FC
