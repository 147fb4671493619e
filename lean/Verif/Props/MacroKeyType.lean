import Verif.Props.MacroTokens

/-
C76: the type of the keys of the map `frozen_map!` produces.
-/

set_option autoImplicit false

namespace FC
variable {Tok Ty Ex T : Type}

/-! ### C76 -/

/-- With three or more entries the keys have the type that was written; `String` if that was
`&str`. -/
theorem C76_three_or_more_partial [Target] (S : Syn Tok Ty Ex) (C : KeyTyping Ty Ex T) (oc : Bool)
    (bhx : Hasher) (ts : List Tok) (ty : Ty) (es : List (Ex × Ex))
    (hp : S.parseMap ts = some (ty, es)) (h3 : 3 ≤ es.length) (code : MacroCode Ex)
    (hc : expandTokens S oc bhx ts = .ok (some code)) :
    ∃ note, keyNote S ts = some note ∧ ∀ t, C.Compiles note code t ↔
      if S.tyName ty = "& str" then t = C.string
      else t = C.denotes ty ∧ ∀ e ∈ es, C.canBe e.1 t := by
  have hlt : ¬ es.length < 3 := by omega
  have hne : es ≠ [] := by rintro rfl; simp at h3
  obtain ⟨hint, hstr⟩ := C60_key_classes (S.tyName ty)
  unfold keyNote
  unfold expandTokens at hc
  rw [hp] at hc ⊢
  simp only [if_neg hlt] at hc ⊢
  cases hcl : classify (S.tyName ty) with
  | int t =>
    have hns : S.tyName ty ≠ "& str" := by
      intro h; rw [hstr.2 h] at hcl; cases hcl
    rw [hcl] at hc
    simp only [Res.bind_eq_ok, Res.pure_eq, Res.ok.injEq, Option.some.injEq] at hc
    obtain ⟨_, _, _, _, rfl⟩ := hc
    refine ⟨_, rfl, fun t => ?_⟩
    simp only [KeyTyping.Compiles, if_neg hns, Bool.false_eq_true, if_false]
    exact and_comm
  | str =>
    have hs : S.tyName ty = "& str" := hstr.1 hcl
    rw [hcl] at hc
    simp only [Res.bind_eq_ok, Res.pure_eq, Res.ok.injEq, Option.some.injEq] at hc
    obtain ⟨_, _, _, _, rfl⟩ := hc
    refine ⟨_, rfl, fun t => ?_⟩
    simp only [KeyTyping.Compiles, if_pos hs, if_true]
    exact ⟨fun h => h.2, fun h => ⟨fun _ _ => h, h⟩⟩
  | common =>
    have hns : S.tyName ty ≠ "& str" := by
      intro h; rw [hstr.2 h] at hcl; cases hcl
    rw [hcl] at hc
    simp only [Res.bind_eq_ok, Res.pure_eq, Res.ok.injEq, Option.some.injEq] at hc
    obtain ⟨_, _, rfl⟩ := hc
    refine ⟨_, rfl, fun t => ?_⟩
    simp only [KeyTyping.Compiles, if_neg hns, Bool.false_eq_true, if_false]
    exact and_comm

/-- With fewer than three entries the type that was written plays no part: the keys can have every
type that the key expressions can have, and the code is the same whatever type is written. -/
theorem C76_fewer_than_three_ignores_the_type [Target] (S : Syn Tok Ty Ex) (C : KeyTyping Ty Ex T)
    (oc : Bool) (bhx : Hasher) (ts ts' : List Tok) (ty ty' : Ty) (es : List (Ex × Ex))
    (hp : S.parseMap ts = some (ty, es)) (hp' : S.parseMap ts' = some (ty', es))
    (h3 : es.length < 3) :
    ∃ code note, expandTokens S oc bhx ts = .ok (some code) ∧ keyNote S ts = some note ∧
      expandTokens S oc bhx ts' = .ok (some code) ∧ keyNote S ts' = some note ∧
      ∀ t, C.Compiles note code t ↔ ∀ e ∈ es, C.canBe e.1 t := by
  refine ⟨⟨⟨.scanning, IdxTy.u8, none, none⟩, false, es⟩, .absent, ?_, ?_, ?_, ?_, fun t => ?_⟩
  · unfold expandTokens; rw [hp]; simp only [if_pos h3]
  · unfold keyNote; rw [hp]; simp only [if_pos h3]
  · unfold expandTokens; rw [hp']; simp only [if_pos h3]
  · unfold keyNote; rw [hp']; simp only [if_pos h3]
  · simp [KeyTyping.Compiles]

/-! ### Non-vacuity, and the counterexample -/

/-- Types by name; an integer literal can have any integer type whose values include it, and a string
literal is a `& str`. -/
def demoTyping : KeyTyping String DemoEx String where
  denotes s := s
  string := "String"
  canBe
    | .int n, t => ∃ i, classify t = .int i ∧ i.InRange n
    | .str _, t => t = "& str"
    | _, _ => False

/-- `frozen_map!(u8, 300: -1, 2: -2)` compiles although 300 is no `u8`, its keys cannot be of type
`u8`, and `i32` is what they can be. `frozen_map!(& str, "a": 1)` has keys of type `& str`, and they
cannot be `String`s, as they are with three entries. -/
theorem C76_counterexample :
    (∃ code note,
      expandTokens demoSyn true demoHasher [.name "u8", .comma, .num 300, .colon, .minus, .num 1,
        .comma, .num 2, .colon, .minus, .num 2] = .ok (some code) ∧
      keyNote demoSyn [.name "u8", .comma, .num 300, .colon, .minus, .num 1,
        .comma, .num 2, .colon, .minus, .num 2] = some note ∧
      demoTyping.Compiles note code "i32" ∧
      ¬ demoTyping.Compiles note code (demoTyping.denotes "u8")) ∧
    (∃ code note,
      expandTokens demoSyn true demoHasher [.name "& str", .comma, .str [97], .colon, .num 1]
        = .ok (some code) ∧
      keyNote demoSyn [.name "& str", .comma, .str [97], .colon, .num 1] = some note ∧
      demoTyping.Compiles note code "& str" ∧
      ¬ demoTyping.Compiles note code demoTyping.string) := by
  constructor
  · obtain ⟨code, note, h1, h2, -, -, h⟩ := C76_fewer_than_three_ignores_the_type demoSyn demoTyping
      true demoHasher [.name "u8", .comma, .num 300, .colon, .minus, .num 1,
        .comma, .num 2, .colon, .minus, .num 2] [.name "u8", .comma, .num 300, .colon, .minus, .num 1,
        .comma, .num 2, .colon, .minus, .num 2] "u8" "u8"
      [(.int 300, .int (-1)), (.int 2, .int (-2))] (by decide) (by decide) (by decide)
    refine ⟨code, note, h1, h2, (h _).2 ?_, fun hc => ?_⟩
    · intro e he
      simp only [List.mem_cons, List.not_mem_nil, or_false] at he
      rcases he with rfl | rfl <;> exact ⟨⟨32, true⟩, rfl, by decide⟩
    · obtain ⟨i, hi, hr⟩ := (h _).1 hc (.int 300, .int (-1)) (by simp)
      have h8 : classify "u8" = .int ⟨8, false⟩ := rfl
      rw [show demoTyping.denotes "u8" = "u8" from rfl, h8] at hi
      cases hi
      exact absurd hr (by decide)
  · obtain ⟨code, note, h1, h2, -, -, h⟩ := C76_fewer_than_three_ignores_the_type demoSyn demoTyping
      true demoHasher [.name "& str", .comma, .str [97], .colon, .num 1]
      [.name "& str", .comma, .str [97], .colon, .num 1] "& str" "& str" [(.str [97], .int 1)]
      (by decide) (by decide) (by decide)
    refine ⟨code, note, h1, h2, (h _).2 ?_, fun hc => ?_⟩
    · intro e he
      simp only [List.mem_cons, List.not_mem_nil, or_false] at he
      subst he
      rfl
    · have hs : "String" = "& str" := (h _).1 hc (.str [97], .int 1) (by simp)
      exact absurd hs (by decide)

/-- `frozen_map!(u32, 1: -10, 5: -50, 9: -90,)`: the keys are `u32`s and nothing else. -/
example : ∃ code note,
    expandTokens demoSyn true demoHasher (writtenCall .comma .colon true [.name "u32"]
      [demoEntry 1 10, demoEntry 5 50, demoEntry 9 90]) = .ok (some code) ∧
    keyNote demoSyn (writtenCall .comma .colon true [.name "u32"]
      [demoEntry 1 10, demoEntry 5 50, demoEntry 9 90]) = some note ∧
    ∀ t, demoTyping.Compiles note code t ↔ t = "u32" := by
  have hx : expandTokens demoSyn true demoHasher (writtenCall .comma .colon true [.name "u32"]
      [demoEntry 1 10, demoEntry 5 50, demoEntry 9 90])
      = .ok (some ⟨⟨.integer, IdxTy.u8, some 3, none⟩, false,
          [(.int 1, .int (-10)), (.int 5, .int (-50)), (.int 9, .int (-90))]⟩) := by rfl
  obtain ⟨note, hn, h⟩ := C76_three_or_more_partial demoSyn demoTyping true demoHasher _ "u32"
    [(.int 1, .int (-10)), (.int 5, .int (-50)), (.int 9, .int (-90))]
    (C60_reads_what_is_written demoSyn demoSyn_lawful .comma .colon rfl rfl true [.name "u32"] "u32"
      (fun c rest hc => rfl) [demoEntry 1 10, demoEntry 5 50, demoEntry 9 90]
      (by intro e he; simp at he; rcases he with rfl | rfl | rfl <;> exact demoEntry_written _ _))
    (by decide) _ hx
  refine ⟨_, note, hx, hn, fun t => (h t).trans ?_⟩
  rw [if_neg (by decide)]
  refine ⟨fun h => h.1, fun ht => ⟨ht, ?_⟩⟩
  subst ht
  intro e he
  simp only [List.mem_cons, List.not_mem_nil, or_false] at he
  rcases he with rfl | rfl | rfl <;> exact ⟨⟨32, false⟩, rfl, by decide⟩

/-- `frozen_map!(u8, 300: 1)` and `frozen_map!(& str, 300: 1)` do the same. -/
example := C76_fewer_than_three_ignores_the_type demoSyn demoTyping true demoHasher
  [.name "u8", .comma, .num 300, .colon, .num 1] [.name "& str", .comma, .num 300, .colon, .num 1]
  "u8" "& str" [(.int 300, .int 1)] (by decide) (by decide) (by decide)

end FC
