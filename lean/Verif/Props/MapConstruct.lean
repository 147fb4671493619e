import Verif.Examples
import Verif.Lemmas.Lookup
import Verif.Lemmas.HardStrings

/-
C02, C03: construction of FrozenMap. C26, C27: the string analysis.
-/

set_option autoImplicit false

namespace FC
variable {K V : Type}

/-! ### C26: string analysis verdicts are justified -/

/-- `Length` is returned exactly when there are at most 255 keys and no length is shared by more
than three of them. -/
theorem C26_length_iff [Target] (oc : Bool) (bh : Hasher) (keys : List Bytes) (hne : keys ≠ [])
    (hlt : ∀ k ∈ keys, k.length < usz) :
    analyzeSliceKeys oc bh keys = .ok .length ↔ LengthsSpread keys := by
  have ho := analyzeSliceKeys_outcome (oc := oc) (bh := bh) hne hlt
  constructor
  · intro h
    rw [h] at ho
    cases ho
    assumption
  · intro h
    generalize analyzeSliceKeys oc bh keys = res at ho
    cases ho <;> first | rfl | contradiction

example := C26_length_iff true demoHasher (exLen.map (·.1.1)) (by decide) (by decide +kernel)

/-- A left verdict: the range lies inside every key, has between 1 and 16 bytes, at most `n / 20`
keys have a sub-slice hash already seen, and no shorter sub-slice nor an earlier one of the same
length would do. -/
theorem C26_left_justified [Target] (oc : Bool) (bh : Hasher) (keys : List Bytes) (hne : keys ≠ [])
    (hlt : ∀ k ∈ keys, k.length < usz) (i l : Nat)
    (h : analyzeSliceKeys oc bh keys = .ok (.left i l)) :
    1 ≤ l ∧ l ≤ 16 ∧ (∀ k ∈ keys, i + l ≤ k.length) ∧
      repeats (keys.map (fun k => bh.hashOneBytes ((k.drop i).take l))) ≤ keys.length / 20 ∧
      (∀ j, j < i → ¬ LeftOKAt bh keys j l) ∧
      (∀ j l', 1 ≤ l' → l' < l → ¬ LeftOKAt bh keys j l') := by
  have ho := analyzeSliceKeys_outcome (oc := oc) (bh := bh) hne hlt
  rw [h] at ho
  cases ho with
  | sameLeft _ _ _ _ h1 h2 _ h3 h4 h5 => exact ⟨h1, h2, h3.1, h3.2, h4, h5⟩
  | left1 _ _ _ h3 h4 => exact ⟨by omega, by omega, h3.1, h3.2, h4, by intros; omega⟩
  | left2 _ _ _ h1 _ h3 h4 =>
    refine ⟨by omega, by omega, h3.1, h3.2, h4, ?_⟩
    intro j l' hl1 hl2
    have : l' = 1 := by omega
    subst this
    exact h1 j

example := C26_left_justified true demoHasher (exLeft.map (·.1.1)) (by decide) (by decide +kernel) 1 1
  (by decide +kernel)

/-- A `Normal` verdict: lengths do not work, and no one-byte left sub-slice does unless it is a
whole key. For keys of one length no proper sub-slice of up to 16 bytes does. -/
theorem C26_normal_justified [Target] (oc : Bool) (bh : Hasher) (keys : List Bytes) (hne : keys ≠ [])
    (hlt : ∀ k ∈ keys, k.length < usz) (h : analyzeSliceKeys oc bh keys = .ok .normal) :
    ¬ LengthsSpread keys ∧
      (∀ j, (∃ k ∈ keys, k.length ≠ 1) → ¬ LeftOKAt bh keys j 1) ∧
      (SameLength keys → ∀ j l, 1 ≤ l → l ≤ 16 → (∀ k ∈ keys, l < k.length) →
        ¬ LeftOKAt bh keys j l) := by
  have ho := analyzeSliceKeys_outcome (oc := oc) (bh := bh) hne hlt
  rw [h] at ho
  cases ho with
  | sameNormal h1 h2 h3 =>
    refine ⟨h1, ?_, ?_⟩
    · rintro j ⟨k, hk, hne⟩
      exact h3 j 1 le_rfl (by omega) ⟨k, hk, by omega⟩
    · intro _ j l hl1 hl2 hk
      obtain ⟨k, hkm⟩ := List.exists_mem_of_ne_nil _ hne
      exact h3 j l hl1 hl2 ⟨k, hkm, by have := hk k hkm; omega⟩
  | short h1 h2 h3 _ _ => exact ⟨h1, fun j _ => h3 j, fun hs => absurd hs h2⟩

example := C26_normal_justified true demoHasher [[1, 1], [1, 2], [2, 1], [2, 2]] (by decide) (by decide +kernel)
  (by decide +kernel)

/-- A right verdict is only ever given for one byte, for keys of different lengths, when no left
byte works; the byte counted from the end lies inside every key. -/
theorem C26_right_justified [Target] (oc : Bool) (bh : Hasher) (keys : List Bytes) (hne : keys ≠ [])
    (hlt : ∀ k ∈ keys, k.length < usz) (i l : Nat)
    (h : analyzeSliceKeys oc bh keys = .ok (.right i l)) :
    l = 1 ∧ ¬ SameLength keys ∧ RightOKAt bh keys i 1 ∧ (∀ j, j < i → ¬ RightOKAt bh keys j 1) ∧
      ∀ j, ¬ LeftOKAt bh keys j 1 := by
  have ho := analyzeSliceKeys_outcome (oc := oc) (bh := bh) hne hlt
  rw [h] at ho
  cases ho with
  | right1 _ _ h2 h3 h4 h5 => exact ⟨rfl, h2, h4, h5, h3⟩

example := C26_right_justified true demoHasher (exRight.map (·.1.1)) (by decide) (by decide +kernel) 0 1
  (by decide +kernel)

/-- Each verdict occurs. -/
example : analyzeSliceKeys true demoHasher (exLen.map (·.1.1)) = .ok .length := by decide +kernel
example : analyzeSliceKeys true demoHasher (exLeft.map (·.1.1)) = .ok (.left 1 1) := by
  decide +kernel
example : analyzeSliceKeys true demoHasher (exRight.map (·.1.1)) = .ok (.right 0 1) := by
  decide +kernel
example : analyzeSliceKeys true demoHasher [[1, 1], [1, 2], [2, 1], [2, 2]] = .ok .normal := by
  decide +kernel
example : ∀ k ∈ exRight.map (·.1.1), k.length < usz := by decide +kernel

/-! ### C27: string analysis never panics -/

/-- When exactly the analysis panics. Missing from C27: that this never happens. -/
theorem C27_no_panic_partial [Target] (oc : Bool) (bh : Hasher) (keys : List Bytes) (hne : keys ≠ [])
    (hlt : ∀ k ∈ keys, k.length < usz) :
    (∃ v, analyzeSliceKeys oc bh keys = .ok v) ↔
      ¬ (¬ LengthsSpread keys ∧ ¬ SameLength keys ∧ (∀ k ∈ keys, 2 ≤ k.length) ∧
        (∀ j, ¬ LeftOKAt bh keys j 1) ∧ (∀ j, ¬ RightOKAt bh keys j 1) ∧
        (∀ j, ¬ LeftOKAt bh keys j 2)) := by
  have ho := analyzeSliceKeys_outcome (oc := oc) (bh := bh) hne hlt
  generalize analyzeSliceKeys oc bh keys = res at ho
  constructor
  · rintro ⟨v, rfl⟩ ⟨a, b, c, d, e, f⟩
    cases ho with
    | length h => exact a h
    | sameLeft _ _ _ h => exact b h
    | sameNormal _ h => exact b h
    | left1 i _ _ h => exact d i h
    | right1 i _ _ _ h => exact e i h
    | short _ _ _ _ h =>
      obtain ⟨k, hk, hl⟩ := h
      have := c k hk
      omega
    | left2 i _ _ _ _ h => exact f i h
  · intro h
    cases ho with
    | crash a b c d e f => exact absurd ⟨a, b, c, d, e, f⟩ h
    | _ => exact ⟨_, rfl⟩

/-- C27 is false, whatever the hasher, on every machine and in both build profiles: AAA, AAB, ABA, BAA
and AAAB have different lengths, and no single byte and no two left bytes tell them apart, so the
analysis slices with a negative length and panics. -/
theorem C27_counterexample [Target] (oc : Bool) (bh : Hasher) :
    analyzeSliceKeys oc bh [[65, 65, 65], [65, 65, 66], [65, 66, 65], [66, 65, 65], [65, 65, 65, 66]]
      = .panic := by
  have hlt : ∀ k ∈ crashKeys, k.length < usz := by
    have h : ∀ k ∈ crashKeys, k.length < 2 ^ 16 := by decide
    have := usz_ge
    intro k hk
    have := h k hk
    omega
  show analyzeSliceKeys oc bh crashKeys = .panic
  have ho := analyzeSliceKeys_outcome (oc := oc) (bh := bh) (keys := crashKeys) (by decide) hlt
  generalize analyzeSliceKeys oc bh crashKeys = res at ho
  cases ho with
  | crash => rfl
  | length h => exact absurd h crashKeys_spread
  | sameLeft _ _ _ h => exact absurd h crashKeys_same
  | sameNormal _ h => exact absurd h crashKeys_same
  | left1 i _ _ h => exact absurd h (crashKeys_left bh 1 (.inl rfl) i)
  | right1 i _ _ _ h => exact absurd h (crashKeys_right bh i)
  | short _ _ _ _ h => exact absurd h (by decide)
  | left2 i _ _ _ _ h => exact absurd h (crashKeys_left bh 2 (.inr rfl) i)

example := C27_no_panic_partial true demoHasher (exCrash.map (·.1.1)) (by decide) (by decide +kernel)

/-- The empty key list gets a verdict too. -/
theorem C27_empty [Target] (oc : Bool) (bh : Hasher) : analyzeSliceKeys oc bh [] = .ok .length := by
  cases oc <;> rfl

/-- A class of inputs on which the analysis does return. -/
example : ∃ v, analyzeSliceKeys true demoHasher (exRight.map (·.1.1)) = .ok v :=
  ⟨.right 0 1, by decide +kernel⟩

/-! ### C02: construction for `u32` and general keys -/

/-- `u32` keys, repeated or not, below 2^31 entries: construction returns. -/
theorem C02_u32_construction_total [Target] (env : Env) (ty : KeyTy K) (hty : LawfulKey ty) (f : K → Int)
    (g : Int → K) (hk : ty.kind = .u32 f g) (payload : List (K × V))
    (hcap : payload.length < 2 ^ 31) (bh : Hasher) :
    ∃ m, FrozenMap.new env ty payload bh = .ok m := by
  unfold FrozenMap.new
  split
  · exact ⟨_, rfl⟩
  · rename_i hlen
    rw [hk]
    obtain ⟨m, hm, _⟩ := newU32_total env hty hk (payload := payload)
      (by rintro rfl; simp at hlen) hcap
    exact ⟨m, hm⟩

/-- Keys that are neither `u32` nor `String`: construction returns, whatever `Eq` and `Hash` do. -/
theorem C02_other_construction_total [Target] (env : Env) (ty : KeyTy K) (hk : ty.kind = .other)
    (payload : List (K × V)) (hcap : payload.length < 2 ^ 31) (bh : Hasher) :
    ∃ m, FrozenMap.new env ty payload bh = .ok m := by
  unfold FrozenMap.new
  split
  · exact ⟨_, rfl⟩
  · rw [hk]
    obtain ⟨m, hm, _⟩ := newCommon_total env ty (payload := payload) hcap bh
    exact ⟨m, hm⟩

/-- Repeated and distinct `u32` keys, and general keys. -/
example : ∃ m, FrozenMap.new checkedEnv u32Ty exDup demoHasher = .ok m :=
  C02_u32_construction_total _ _ u32Ty_lawful _ _ rfl _ (by decide) _
example : ∃ m, FrozenMap.new releaseEnv otherTy exOther demoHasher = .ok m :=
  C02_other_construction_total _ _ rfl _ (by decide) _

/-! ### C03: construction for `String` keys -/

/-- Construction from `String` keys returns exactly for the `Constructible` payloads; otherwise it
is undefined behaviour when some byte counted from the end works, and a panic when none does.
Missing from C03: that every payload is `Constructible`. -/
theorem C03_string_construction_partial [Target] (env : Env) (ty : KeyTy K) (hty : LawfulKey ty)
    (f : K → Bytes) (g : Bytes → K) (hk : ty.kind = .string f g) (payload : List (K × V))
    (hcap : payload.length < 2 ^ 31) (bh : Hasher) :
    ((∃ m, FrozenMap.new env ty payload bh = .ok m) ↔
        Constructible bh (payload.map (fun e => f e.1))) ∧
      (FrozenMap.new env ty payload bh = .ub ↔
        ¬ Constructible bh (payload.map (fun e => f e.1)) ∧
          ∃ i, RightOKAt bh (payload.map (fun e => f e.1)) i 1) ∧
      (FrozenMap.new env ty payload bh = .panic ↔
        ¬ Constructible bh (payload.map (fun e => f e.1)) ∧
          ∀ i, ¬ RightOKAt bh (payload.map (fun e => f e.1)) i 1) := by
  unfold FrozenMap.new
  by_cases hlen : payload.length < 4
  · have hc : Constructible bh (payload.map (fun e => f e.1)) := Or.inl (by simpa using hlen)
    rw [if_pos hlen]
    simp [hc]
  · rw [if_neg hlen, hk]
    have hne : payload ≠ [] := by rintro rfl; simp at hlen
    have hl := hty.kind
    rw [hk] at hl
    obtain ⟨_, h2, _⟩ := hl
    have hlt : ∀ k ∈ payload.map (fun e => f e.1), k.length < usz := by
      intro k hk
      obtain ⟨e, _, rfl⟩ := List.mem_map.1 hk
      have := h2 e.1
      omega
    have ho := analyzeSliceKeys_outcome (oc := env.oc) (bh := bh)
      (keys := payload.map (fun e => f e.1)) (by simpa using hne) hlt
    have hlen' : ¬ (payload.map (fun e => f e.1)).length < 4 := by simpa using hlen
    simp only
    rcases newString_outcome env hty hk hne hcap bh with ⟨hv, hr⟩ | ⟨⟨i, l, hv⟩, hr⟩ | ⟨⟨v, hv, hnr⟩, m, hr, _⟩
    · rw [hv] at ho
      cases ho with
      | crash a b c d e f' =>
        have hc : ¬ Constructible bh (payload.map (fun e => f e.1)) := by
          rintro (h | h | h | ⟨i, h⟩ | ⟨_, ⟨k, hk, h⟩ | ⟨i, h⟩⟩)
          · exact hlen' h
          · exact a h
          · exact b h
          · exact d i h
          · have := c k hk; omega
          · exact f' i h
        refine ⟨?_, ?_, ?_⟩
        · rw [hr]; simp [hc]
        · rw [hr]; simp [hc, e]
        · rw [hr]; simp [hc, e]
    · rw [hv] at ho
      cases ho with
      | right1 _ a b c d e =>
        have hc : ¬ Constructible bh (payload.map (fun e => f e.1)) := by
          rintro (h | h | h | ⟨i, h⟩ | ⟨h, _⟩)
          · exact hlen' h
          · exact a h
          · exact b h
          · exact c i h
          · exact h i d
        refine ⟨?_, ?_, ?_⟩
        · rw [hr]; simp [hc]
        · rw [hr]; simp [hc]; exact ⟨i, d⟩
        · rw [hr]; simp [hc]; exact ⟨i, d⟩
    · have hc : Constructible bh (payload.map (fun e => f e.1)) := by
        rw [hv] at ho
        cases ho with
        | length h => exact Or.inr (Or.inl h)
        | sameLeft _ _ _ h => exact Or.inr (Or.inr (Or.inl h))
        | sameNormal _ h => exact Or.inr (Or.inr (Or.inl h))
        | left1 i _ _ h => exact Or.inr (Or.inr (Or.inr (Or.inl ⟨i, h⟩)))
        | right1 i => exact absurd rfl (hnr i 1)
        | short _ _ _ h h' => exact Or.inr (Or.inr (Or.inr (Or.inr ⟨h, Or.inl h'⟩)))
        | left2 i _ _ _ h h' => exact Or.inr (Or.inr (Or.inr (Or.inr ⟨h, Or.inr ⟨i, h'⟩⟩)))
      refine ⟨?_, ?_, ?_⟩
      · rw [hr]; simp [hc]
      · rw [hr]; simp [hc]
      · rw [hr]; simp [hc]

/-- C03 is false, whatever the hasher, the values, the machine and the build profile. The strings AAA,
AAB, ABA, BAA, AAAB make construction panic. The strings XXA, XXB, XXC, XXD, XXX, XXXE never become a
map: construction makes an out-of-bounds access if the hasher gives their last bytes different codes,
and panics if they collide. -/
theorem C03_counterexample [Target] (env : Env) (bh : Hasher) (payload : List (RString × V)) :
    (payload.map (·.1.1) = [[65, 65, 65], [65, 65, 66], [65, 66, 65], [66, 65, 65], [65, 65, 65, 66]] →
      FrozenMap.new env stringTy payload bh = .panic) ∧
    (payload.map (·.1.1) =
        [[88, 88, 65], [88, 88, 66], [88, 88, 67], [88, 88, 68], [88, 88, 88], [88, 88, 88, 69]] →
      (∀ m, FrozenMap.new env stringTy payload bh ≠ .ok m) ∧
      (([[65], [66], [67], [68], [88], [69]].map bh.hashOneBytes).Nodup →
        FrozenMap.new env stringTy payload bh = .ub)) := by
  constructor
  · intro h
    change payload.map (fun e => e.1.1) = crashKeys at h
    have hl : payload.length = 5 := by simpa [crashKeys] using congrArg List.length h
    obtain ⟨_, _, h3⟩ := C03_string_construction_partial env stringTy stringTy_lawful _ _ rfl payload
      (by omega) bh
    refine h3.2 ?_
    rw [h]
    exact ⟨crashKeys_not_constructible bh, crashKeys_right bh⟩
  · intro h
    change payload.map (fun e => e.1.1) = rightKeys at h
    have hl : payload.length = 6 := by simpa [rightKeys] using congrArg List.length h
    obtain ⟨h1, h2, _⟩ := C03_string_construction_partial env stringTy stringTy_lawful _ _ rfl payload
      (by omega) bh
    constructor
    · intro m hm
      have := h1.1 ⟨m, hm⟩
      rw [h] at this
      exact rightKeys_not_constructible bh this
    · intro hd
      refine h2.2 ?_
      rw [h]
      exact ⟨rightKeys_not_constructible bh, 0, rightKeys_right hd⟩

example : FrozenMap.new releaseEnv stringTy exCrash demoHasher = .panic :=
  (C03_counterexample releaseEnv demoHasher exCrash).1 rfl
example : FrozenMap.new checkedEnv stringTy exRight demoHasher = .ub :=
  ((C03_counterexample checkedEnv demoHasher exRight).2 rfl).2 (by decide +kernel)

/-- Constructible payloads exist: strings of different lengths. -/
example : ∃ m, FrozenMap.new checkedEnv stringTy exLen demoHasher = .ok m :=
  (C03_string_construction_partial _ _ stringTy_lawful _ _ rfl _ (by decide) _).1.2
    (Or.inr (Or.inl ⟨by decide, by
      intro L
      have h : ∀ l : List Nat, l.Nodup → l.count L ≤ 1 := fun l h => List.nodup_iff_count_le_one.1 h L
      have := h ((exLen.map (fun e => e.1.1)).map List.length) (by decide)
      omega⟩))

end FC
