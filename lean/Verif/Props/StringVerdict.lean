import Verif.Examples
import Verif.Lemmas.StringVerdict
import Verif.Props.MapConstruct
import Verif.Props.SetConstruct

/-
C61: the string analysis is the documented search, whatever the order of the keys.
-/

set_option autoImplicit false

namespace FC
variable {K V : Type}

/-- The analysis of any keys gives what the rules of `Outcome` say, and nothing else. -/
theorem C61_verdict_exact [Target] (oc : Bool) (bh : Hasher) (keys : List Bytes)
    (hlt : ∀ k ∈ keys, k.length < usz) (r : Res SliceVerdict) :
    analyzeSliceKeys oc bh keys = r ↔ Outcome bh keys r := by
  have ho : Outcome bh keys (analyzeSliceKeys oc bh keys) := by
    by_cases hne : keys = []
    · subst hne
      rw [C27_empty]
      exact .length ⟨by simp, by simp⟩
    · exact analyzeSliceKeys_outcome hne hlt
  constructor
  · rintro rfl
    exact ho
  · intro h
    exact ho.unique h

/-- Nor do the rules leave a case open, or contradict each other. -/
theorem C61_rules_decide [Target] (bh : Hasher) (keys : List Bytes)
    (hlt : ∀ k ∈ keys, k.length < usz) : ∃! r, Outcome bh keys r :=
  ⟨analyzeSliceKeys true bh keys, (C61_verdict_exact true bh keys hlt _).1 rfl,
    fun r h => ((C61_verdict_exact true bh keys hlt r).2 h).symm⟩

example := C61_rules_decide demoHasher exStrings (by decide +kernel)

/-- The order of the keys and the build profile do not matter. -/
theorem C61_order_irrelevant [Target] (oc oc' : Bool) (bh : Hasher) (keys keys' : List Bytes)
    (hlt : ∀ k ∈ keys, k.length < usz) (hp : keys.Perm keys') :
    analyzeSliceKeys oc bh keys = analyzeSliceKeys oc' bh keys' :=
  (C61_verdict_exact oc bh keys hlt _).2
    (((C61_verdict_exact oc' bh keys' (fun k hk => hlt k (hp.mem_iff.2 hk)) _).1 rfl).perm hp.symm)

example := C61_order_irrelevant true false demoHasher exStrings exStrings.reverse (by decide +kernel) (List.reverse_perm _).symm

/-- So whether a map of strings can be built, panics or goes wrong does not depend on the order of
its entries. -/
theorem C61_construction_order_irrelevant [Target] (env : Env) (ty : KeyTy K) (hty : LawfulKey ty)
    (f : K → Bytes) (g : Bytes → K) (hk : ty.kind = .string f g) (payload payload' : List (K × V))
    (hp : payload.Perm payload') (hcap : payload.length < 2 ^ 31) (bh : Hasher) :
    ((∃ m, FrozenMap.new env ty payload bh = .ok m) ↔
        ∃ m, FrozenMap.new env ty payload' bh = .ok m) ∧
      (FrozenMap.new env ty payload bh = .panic ↔ FrozenMap.new env ty payload' bh = .panic) ∧
      (FrozenMap.new env ty payload bh = .ub ↔ FrozenMap.new env ty payload' bh = .ub) := by
  have hq : (payload.map (fun e => f e.1)).Perm (payload'.map (fun e => f e.1)) := hp.map _
  obtain ⟨a, b, c⟩ := C03_string_construction_partial env ty hty f g hk payload hcap bh
  obtain ⟨a', b', c'⟩ := C03_string_construction_partial env ty hty f g hk payload'
    (hp.length_eq ▸ hcap) bh
  rw [a, b, c, a', b', c']
  simp only [Constructible.perm_iff hq, RightOKAt.perm_iff hq, and_self]

example := C61_construction_order_irrelevant checkedEnv stringTy stringTy_lawful _ _ rfl exLeft exLeft.reverse
  (List.reverse_perm _).symm (by decide) demoHasher

/-- Reversed keys of each kind: same verdict. -/
example : analyzeSliceKeys true demoHasher (exLeft.map (·.1.1)).reverse = .ok (.left 1 1) ∧
    analyzeSliceKeys false demoHasher (exRight.map (·.1.1)).reverse = .ok (.right 0 1) ∧
    analyzeSliceKeys true demoHasher (exCrash.map (·.1.1)).reverse = .panic := by decide +kernel

/-- The hypotheses are met by these keys, in an order of one's choice. -/
example : (∀ k ∈ exLeft.map (·.1.1), k.length < usz) ∧ exCrash.Perm exCrash.reverse ∧
    exCrash.length < 2 ^ 31 ∧ LawfulKey stringTy :=
  ⟨by decide +kernel, (List.reverse_perm _).symm, by decide, stringTy_lawful⟩

/-- The rule for two bytes is used: keys of different lengths told apart by two left bytes only. -/
example : Outcome demoHasher [[1, 1, 0], [1, 2, 0], [2, 1, 0], [2, 2, 0], [3, 3, 3, 0]] (.ok (.left 0 2)) :=
  (C61_verdict_exact true demoHasher _ (by decide +kernel) _).1 (by decide +kernel)

/-! ### C17 for the facade's other key types -/

/-- A map of strings only ever panics because the analysis does: the index type always suffices. -/
theorem C17_facade_string_partial [Target] (env : Env) (ty : KeyTy K) (hty : LawfulKey ty)
    (f : K → Bytes) (g : Bytes → K) (hk : ty.kind = .string f g) (payload : List (K × V))
    (hcap : payload.length < 2 ^ 31) (bh : Hasher)
    (h : FrozenMap.new env ty payload bh = .panic) :
    analyzeSliceKeys env.oc bh (payload.map (fun e => f e.1)) = .panic := by
  unfold FrozenMap.new at h
  by_cases hlen : payload.length < 4
  · rw [if_pos hlen] at h
    cases h
  · rw [if_neg hlen, hk] at h
    have hne : payload ≠ [] := by rintro rfl; simp at hlen
    rcases newString_outcome env hty hk hne hcap bh with ⟨hv, _⟩ | ⟨_, hr⟩ | ⟨_, m, hr, _⟩
    · exact hv
    · simp only [hr] at h
      cases h
    · simp only [hr] at h
      cases h

/-- Nor do maps of `u32` keys hit the limit. -/
theorem C17_facade_u32_partial [Target] (env : Env) (ty : KeyTy K) (hty : LawfulKey ty) (f : K → Int)
    (g : Int → K) (hk : ty.kind = .u32 f g) (payload : List (K × V))
    (hcap : payload.length < 2 ^ 31) (bh : Hasher) :
    FrozenMap.new env ty payload bh ≠ .panic := by
  obtain ⟨m, hm⟩ := C02_u32_construction_total env ty hty f g hk payload hcap bh
  rw [hm]
  simp

example := C17_facade_u32_partial checkedEnv u32Ty u32Ty_lawful _ _ rfl exU32 (by decide) demoHasher

/-- The panicking case exists, and is due to the analysis. -/
example : analyzeSliceKeys true demoHasher (exCrash.map (·.1.1)) = .panic :=
  C17_facade_string_partial checkedEnv stringTy stringTy_lawful _ _ rfl exCrash (by decide) demoHasher
    ((C03_counterexample checkedEnv demoHasher exCrash).1 rfl)

/-- `FrozenSet`: the only panic is that of the string analysis. -/
theorem C17_facade_set_string_partial [Target] (env : Env) (ty : KeyTy K) (hty : LawfulKey ty)
    (f : K → Bytes) (g : Bytes → K) (hk : ty.kind = .string f g) (payload : List K)
    (hcap : payload.length < 2 ^ 31) (bh : Hasher)
    (h : FrozenSet.new env ty payload bh = .panic) :
    analyzeSliceKeys env.oc bh (payload.map f) = .panic := by
  have := C17_facade_string_partial env ty hty f g hk (unitPayload payload)
    (by rw [unitPayload_length]; exact hcap) bh (FrozenSet.new_panic_iff.1 h)
  simpa [unitPayload, Function.comp_def] using this

example :=
  C17_facade_set_string_partial checkedEnv stringTy stringTy_lawful _ _ rfl (exCrash.map (·.1))
    (by decide) demoHasher ((C03_set_counterexample checkedEnv demoHasher (exCrash.map (·.1))).1 rfl)

theorem C17_facade_set_u32_partial [Target] (env : Env) (ty : KeyTy K) (hty : LawfulKey ty)
    (f : K → Int) (g : Int → K) (hk : ty.kind = .u32 f g) (payload : List K)
    (hcap : payload.length < 2 ^ 31) (bh : Hasher) :
    FrozenSet.new env ty payload bh ≠ .panic := by
  obtain ⟨m, hm⟩ := C02_u32_set_construction_total env ty hty f g hk payload hcap bh
  rw [hm]
  simp

example := C17_facade_set_u32_partial checkedEnv u32Ty u32Ty_lawful _ _ rfl exSetKeys (by decide)
  demoHasher

theorem C17_facade_set_partial [Target] (env : Env) (ty : KeyTy K) (payload : List K)
    (hcap : payload.length < 2 ^ 31) (bh : Hasher) (hk : ty.kind = .other) :
    FrozenSet.new env ty payload bh ≠ .panic := by
  obtain ⟨m, hm⟩ := C02_other_set_construction_total env ty hk payload hcap bh
  rw [hm]
  simp

example := C17_facade_set_partial checkedEnv otherTy exElems (by decide) demoHasher rfl

end FC
