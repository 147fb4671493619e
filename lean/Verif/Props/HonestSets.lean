import Verif.Lemmas.HonestSets
import Verif.Lemmas.SetCost
import Verif.Lemmas.SetConsistent
import Verif.Props.CatchSetOps

/-
C95: sets and comparisons whose keys, elements and values panic now and then, and are right whenever they
answer.
-/

set_option autoImplicit false

namespace FC
variable {σ T K V : Type} {p : Prop}

/-! ### C95 -/

/-- Any two sets, the caller's own included: a set predicate that answers is right. -/
theorem C95_predicates {eq : T → T → Bool} (heq : LawfulEq eq) {a b : USet σ T} {l₁ l₂ : List T}
    (ha : a.Honest p eq l₁) (hb : b.Honest p eq l₂) (hd₁ : Distinct eq l₁) (hd₂ : Distinct eq l₂) :
    Behaves False p (a.isSubset b) (fun r => r = true ↔ ∀ x, Has eq l₁ x → Has eq l₂ x) ∧
      Behaves False p (a.isSuperset b) (fun r => r = true ↔ ∀ x, Has eq l₂ x → Has eq l₁ x) ∧
      Behaves False p (a.isDisjoint b) (fun r => r = true ↔ ∀ x, ¬ (Has eq l₁ x ∧ Has eq l₂ x)) ∧
      Behaves False p (a.eq b) (fun r => r = true ↔ ∀ x, Has eq l₁ x ↔ Has eq l₂ x) := by
  have ca := plainSet_consistent hd₁
  have cb := plainSet_consistent hd₂
  refine ⟨?_, ?_, ?_, ?_⟩
  · refine (USet.isSubset_honest ha hb).mono id id fun r hr => ?_
    obtain ⟨r', h1, h2⟩ := C35_is_subset eq heq _ _ ca cb
    obtain rfl := Res.ok.inj (hr.symm.trans h1)
    exact h2
  · refine (USet.isSubset_honest hb ha).mono id id fun r hr => ?_
    obtain ⟨r', h1, h2⟩ := C35_is_subset eq heq _ _ cb ca
    obtain rfl := Res.ok.inj (hr.symm.trans h1)
    exact h2
  · refine (USet.isDisjoint_honest ha hb).mono id id fun r hr => ?_
    obtain ⟨r', h1, h2⟩ := C35_is_disjoint eq _ _ cb heq
    obtain rfl := Res.ok.inj (hr.symm.trans h1)
    exact h2
  · refine (USet.eq_honest ha hb).mono id id fun r hr => ?_
    obtain ⟨r', h1, h2⟩ := C37_eq_iff eq heq _ _ ca cb
    obtain rfl := Res.ok.inj (hr.symm.trans h1)
    exact h2

/-- Two `FrozenSet`s of an element type of the caller's own, asked one thing after another by a caller that
catches the panics. -/
theorem C95_frozen_sets [Target] (env : Env) (u : UserCode σ T T) {code probe : T → Nat}
    {eq : T → T → Bool} (hu : u.Honest p code probe eq id) (payload₁ payload₂ : List T)
    (hd₁ : Distinct eq payload₁) (hd₂ : Distinct eq payload₂)
    (h₁ : payload₁.length < 2 ^ 32) (h₂ : payload₂.length < 2 ^ 32)
    (hb₁ : 2 ^ 31 ≤ payload₁.length → p) (hb₂ : 2 ^ 31 ≤ payload₂.length → p)
    (xs : List (PairAsk T × σ)) :
    Behaves False p (do
        let a ← UMap.setFacade env u payload₁
        let b ← UMap.setFacade env u payload₂
        PairAsk.asks u u a b xs)
      (fun outs => ∃ d₁ d₂ : List T, d₁.Perm payload₁ ∧ d₂.Perm payload₂ ∧
        List.Forall₂ (fun x o => RightIfAny p (x.Right eq d₁ d₂) o) (xs.map (·.1)) outs) := by
  rw [UMap.setFacade_eq, UMap.setFacade_eq]
  refine (UMap.facade_honest env hu.answers (fun _ _ => trivial) (by rwa [unitPayload_length])
    (by rwa [unitPayload_length])).bind fun a ha => ?_
  refine (UMap.facade_honest env hu.answers (fun _ _ => trivial) (by rwa [unitPayload_length])
    (by rwa [unitPayload_length])).bind fun b hb => ?_
  have pa := UMap.elems_perm ha.2
  have pb := UMap.elems_perm hb.2
  exact (PairAsk.asks_honest hu.answers hu.answers ha.1 hb.1 (Distinct.perm hu.lawful pa.symm hd₁)
    (Distinct.perm hu.lawful pb.symm hd₂) xs).mono id False.elim fun outs ho => ⟨_, _, pa, pb, ho⟩

/-- Two `FrozenSet<String>`s with hashers that panic now and then. As in C92 the elements must not make the
crate try the ends of strings. -/
theorem C95_string_sets [Target] (env : Env) (g₁ g₂ : HasherCode σ) {hk₁ hw₁ hk₂ hw₂ : Bytes → Nat}
    (hh₁ : g₁.Honest p hk₁ hw₁) (hh₂ : g₂.Honest p hk₂ hw₂) (payload₁ payload₂ : List Bytes)
    (hd₁ : payload₁.Nodup) (hd₂ : payload₂.Nodup)
    (h₁ : payload₁.length < 2 ^ 32) (h₂ : payload₂.length < 2 ^ 32)
    (hb₁ : 2 ^ 31 ≤ payload₁.length → p) (hb₂ : 2 ^ 31 ≤ payload₂.length → p)
    (hl₁ : ∀ x ∈ payload₁, x.length < usz / 2) (hl₂ : ∀ x ∈ payload₂, x.length < usz / 2)
    (he₁ : ¬ TriesEnds payload₁) (he₂ : ¬ TriesEnds payload₂) (xs : List (PairAsk Bytes × σ)) :
    Behaves False p (do
        let a ← UMap.stringSetFacade env g₁ payload₁
        let b ← UMap.stringSetFacade env g₂ payload₂
        PairAsk.asks (a.1.code env.oc g₁) (b.1.code env.oc g₂) a.2 b.2 xs)
      (fun outs => ∃ d₁ d₂ : List Bytes, d₁.Perm payload₁ ∧ d₂.Perm payload₂ ∧
        List.Forall₂ (fun x o => RightIfAny p (x.Right (fun a b => decide (a = b)) d₁ d₂) o)
          (xs.map (·.1)) outs) := by
  rw [UMap.stringSetFacade_eq, UMap.stringSetFacade_eq]
  refine ((UMap.stringFacade_honest env hh₁ (payload := unitPayload payload₁)
    (by rwa [unitPayload_length]) (by rwa [unitPayload_length])
    (unitPayload_forall (C := fun x : Bytes => x.length < usz) fun x hx => by have := hl₁ x hx; omega)).mono
      (by rw [unitPayload_keys]; exact he₁) (by rw [unitPayload_keys]; exact fun h => h.resolve_right he₁)
      fun _ h => h).bind fun a ha => ?_
  refine ((UMap.stringFacade_honest env hh₂ (payload := unitPayload payload₂)
    (by rwa [unitPayload_length]) (by rwa [unitPayload_length])
    (unitPayload_forall (C := fun x : Bytes => x.length < usz) fun x hx => by have := hl₂ x hx; omega)).mono
      (by rw [unitPayload_keys]; exact he₂) (by rw [unitPayload_keys]; exact fun h => h.resolve_right he₂)
      fun _ h => h).bind fun b hb => ?_
  obtain ⟨P₁, c₁, q₁, u₁, ha, pa⟩ := ha
  obtain ⟨P₂, c₂, q₂, u₂, hb, pb⟩ := hb
  have pa := UMap.elems_perm pa
  have pb := UMap.elems_perm pb
  have dist : ∀ {l : List Bytes}, l.Nodup → Distinct beq l :=
    fun h => h.imp fun hne => by simpa [beq] using hne
  exact (PairAsk.asks_honest u₁ u₂ ha hb (dist (pa.nodup_iff.2 hd₁)) (dist (pb.nodup_iff.2 hd₂)) xs).mono id
    False.elim fun outs ho => ⟨_, _, pa, pb, ho⟩

/-- Two `FrozenMap`s, each used for a while and then compared. `veq` is the values' `==`, which may panic as
well and is otherwise `ve`. -/
theorem C95_map_eq [Target] (env : Env) (u : UserCode σ K K) {code probe : K → Nat}
    {eq : K → K → Bool} (hu : u.Honest p code probe eq id) (veq : V → V → Call σ Bool) (ve : V → V → Bool)
    (hv : ∀ v w, Behaves False p (veq v w) (fun b => b = ve v w)) (payload₁ payload₂ : List (K × V))
    (hd₁ : DistinctKeys eq payload₁) (hd₂ : DistinctKeys eq payload₂)
    (h₁ : payload₁.length < 2 ^ 32) (h₂ : payload₂.length < 2 ^ 32)
    (hb₁ : 2 ^ 31 ≤ payload₁.length → p) (hb₂ : 2 ^ 31 ≤ payload₂.length → p)
    (xs₁ xs₂ : List (Attempt V K × σ)) (left : σ) :
    Behaves False p
      (UMap.caughtEqSession u u veq (UMap.facade env u payload₁) (UMap.facade env u payload₂) xs₁ xs₂ left)
      (fun r => ∃ d₁ d₂ : List (K × V), d₁.Perm payload₁ ∧ d₂.Perm payload₂ ∧
        Dict.CaughtRun eq id p d₁ (xs₁.map (·.1)) r.1.1 r.1.2 ∧
        Dict.CaughtRun eq id p d₂ (xs₂.map (·.1)) r.2.1.1 r.2.1.2 ∧
        RightIfAny p (fun b => b = true ↔ ∀ k, SameAnswer ve (lookup eq r.1.2 k) (lookup eq r.2.1.2 k))
          r.2.2) := by
  unfold UMap.caughtEqSession
  refine (UMap.facade_honest env hu.answers (fun _ _ => trivial) h₁ hb₁).bind fun m₁ hm₁ => ?_
  refine (UMap.facade_honest env hu.answers (fun _ _ => trivial) h₂ hb₂).bind fun m₂ hm₂ => ?_
  have d₁ := DistinctKeys.perm hu.lawful hm₁.2.symm hd₁
  have d₂ := DistinctKeys.perm hu.lawful hm₂.2.symm hd₂
  refine ((UMap.exact hu.answers).caughtRun_ok xs₁ m₁ hm₁.1 d₁).mono id False.elim (fun _ h => h)
    |>.bind fun r₁ hr₁ => ?_
  refine ((UMap.exact hu.answers).caughtRun_ok xs₂ m₂ hm₂.1 d₂).mono id False.elim (fun _ h => h)
    |>.bind fun r₂ hr₂ => ?_
  refine ((Call.caught_behaves (UMap.partialEq_honest hu.answers hv hr₂.1.1 (d₁.of_keys hr₁.1.2)
    (d₂.of_keys hr₂.1.2)) left).mono id False.elim (fun _ h => h)).bind fun b hb => .pure ?_
  exact ⟨_, _, hm₁.2, hm₂.2, hr₁.2, hr₂.2, hb⟩

/-! ### Concrete cases -/

example := C95_predicates honestCode_honest.lawful (shakySet_honest [1, 2, 3]) (shakySet_honest [3, 4])
  (by unfold Distinct; decide) (by unfold Distinct; decide)

/-- Two sets. The first question is not answered and put again. -/
example : PairAsk.asks honestCode honestCode (.scanning [(1, ()), (2, ())])
      (.scanning [(1, ()), (7, ()), (2, ())])
      [(.isSubset, 6), (.isSubset, 6), (.isDisjoint, 6), (.isSuperset, 13), (.first (.get 2), 6),
        (.second .iter, 6), (.eq, 6)] 4
    = .ok ([none, some (.bool true), some (.bool false), some (.bool false), none, some (.items [1, 7, 2]),
        some (.bool false)], 6) := by decide +kernel

example (xs : List (PairAsk Nat × Nat)) := C95_frozen_sets checkedEnv honestCode honestCode_honest
  [1, 2, 3, 4, 5] [4, 5, 6] (by unfold Distinct; decide) (by unfold Distinct; decide) (by decide) (by decide)
  (fun _ => trivial) (fun _ => trivial) xs

example (xs : List (PairAsk Bytes × Nat)) := C95_string_sets checkedEnv honestHasher honestHasher
  honestHasher_honest honestHasher_honest (sameLenKeys.map (·.1)) [[1], [1, 2]] (by decide) (by decide)
  (by decide) (by decide) (fun _ => trivial) (fun _ => trivial) (by decide) (by decide) sameLenKeys_safe
  (fun h => absurd h.1 (by decide)) xs

/-- Values that cannot be compared now and then. -/
def shakyEq (v w : Nat) : Call Nat Bool := fun s => if s % 7 = 3 then .panic else .ok (v == w, s + 1)

theorem shakyEq_honest (v w : Nat) : Behaves False True (shakyEq v w) (fun b => b = (v == w)) := by
  intro s
  by_cases h : s % 7 = 3 <;> simp [shakyEq, h]

example (xs₁ xs₂ : List (Attempt Nat Nat × Nat)) := C95_map_eq checkedEnv honestCode honestCode_honest shakyEq
  (fun v w => v == w) shakyEq_honest exFive [(1, 10), (2, 20)] exFive_distinct
  (by unfold DistinctKeys; decide) (by decide) (by decide) (fun _ => trivial) (fun _ => trivial) xs₁ xs₂ 6

/-- A map is changed so that it equals another; the first attempt panics. -/
def exChange : List (Attempt Nat Nat × Nat) := [(⟨.getMut 1 11, none⟩, 6), (⟨.getMut 1 11, none⟩, 6)]

set_option synthInstance.maxSize 1000 in
example : UMap.caughtEqSession honestCode honestCode shakyEq (pure (.scanning [(1, 10), (2, 20)]))
      (pure (.scanning [(2, 20), (1, 11)])) exChange [] 6 5
    = .ok ((([none, some (.value (some 10))], [(1, 11), (2, 20)]), ([], [(2, 20), (1, 11)]), some true), 12) := by
  decide +kernel

/-- The comparison panics. -/
example : (UMap.caughtEqSession honestCode honestCode shakyEq (pure (.scanning [(1, 10), (2, 20)]))
      (pure (.scanning [(2, 20), (1, 11)])) [] [] 6 4).map (·.1.2.2) = .ok none := by decide +kernel

end FC
