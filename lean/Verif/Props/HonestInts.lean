import Verif.Lemmas.HonestInts
import Verif.Props.HonestCode

/-
C93 for range maps: integers of the caller's own that panic now and then, and are right whenever they
answer.
-/

set_option autoImplicit false

namespace FC
variable {σ K V Q : Type} {p : Prop}

/-- `IntegerRangeMap` with integers of the caller's own. Construction panics too if the keys are no
interval. -/
theorem C93_integer_range_map [Target] (c : RangeCode σ K V Q) {num : K → Int} {numQ : Q → Int}
    (hc : c.Honest p num numQ) {borrow : K → Q} (hbor : ∀ k, numQ (borrow k) = num k)
    (payload : List (K × V)) (hne : payload ≠ []) (hd : (payload.map fun e => num e.1).Nodup)
    (h32 : payload.length < 2 ^ 32) (xs : List (Attempt V Q × σ)) :
    Behaves False (p ∨ ¬ Contiguous (payload.map fun e => num e.1))
      ((RMap.api c).caughtSession (RMap.fromVec c payload) xs)
      (fun r => ∃ d : List (K × V), d.Perm payload ∧
        Dict.CaughtRun (fun a b => decide (numQ a = numQ b)) borrow p d (xs.map (·.1)) r.1 r.2) := by
  unfold CallApi.caughtSession
  refine (RMap.fromVec_honest hc hne hd (lt_of_lt_of_le h32 usz_ge)).bind fun m hm => ?_
  have hdk : DistinctKeys (fun a b => decide (numQ (borrow a) = numQ (borrow b))) m.entries := by
    have := (hm.2.map fun e => num e.1).nodup_iff.2 hd
    exact (List.pairwise_map.1 this).imp fun h => by simpa [hbor] using h
  exact (((RMap.exact hc hbor).caughtRun xs m hm.1 hdk).mono id False.elim (fun _ h => h)).bind
    fun r hr => .pure ⟨_, hm.2, hr⟩

/-- A contiguous payload and integers that never panic: the map is built. -/
theorem C93_integer_range_map_built [Target] (c : RangeCode σ K V Q) {num : K → Int} {numQ : Q → Int}
    (hc : c.Honest False num numQ) (payload : List (K × V)) (hne : payload ≠ [])
    (hd : (payload.map fun e => num e.1).Nodup) (h32 : payload.length < 2 ^ 32)
    (hcont : Contiguous (payload.map fun e => num e.1)) (s : σ) :
    ∃ m s', RMap.fromVec c payload s = .ok (m, s') ∧ m.entries.Perm payload := by
  have := RMap.fromVec_honest hc hne hd (lt_of_lt_of_le h32 usz_ge) s
  cases e : RMap.fromVec c payload s with
  | ok r => rw [e] at this; exact ⟨r.1, r.2, rfl, this.2⟩
  | panic => rw [e] at this; exact absurd hcont (this.resolve_left id)
  | ub => rw [e] at this; exact this.elim

/-- Integers that are right whenever they answer, and panic at every call whose number leaves 5 modulo 7. -/
def honestInts : RangeCode Nat Int Nat Int where
  zero := fun s => if s % 7 = 5 then .panic else .ok (0, s + 1)
  sort l := fun s => if s % 7 = 5 then .panic else .ok (stableSortByKey (·.1) l, s + 1)
  span a b := fun s => if s % 7 = 5 then .panic else .ok (a - b, s + 1)
  spanSize x := fun s => if s % 7 = 5 then .panic else .ok (toUsize x, s + 1)
  ge q k := fun s => if s % 7 = 5 then .panic else .ok (decide (k ≤ q), s + 1)
  le q k := fun s => if s % 7 = 5 then .panic else .ok (decide (q ≤ k), s + 1)
  sub q k := fun s => if s % 7 = 5 then .panic else .ok (q - k, s + 1)
  toUsize x := fun s => if s % 7 = 5 then .panic else .ok (toUsize x, s + 1)
  same a b := fun s => if s % 7 = 5 then .panic else .ok (decide (a = b), s + 1)

theorem toUsize_iff [Target] (x : Int) (n : Nat) : toUsize x = some n ↔ x = n ∧ n < usz := by
  unfold toUsize
  constructor
  · intro h
    split at h
    · have := Option.some.inj h
      omega
    · cases h
  · rintro ⟨rfl, h⟩
    rw [if_pos ⟨by omega, by omega⟩]
    simp

theorem honestInts_honest : honestInts.Honest True id id := by
  refine ⟨?_, ?_, ?_, ?_, ?_, ?_, ?_, ?_, ?_⟩
  · intro s; by_cases h : s % 7 = 5 <;> simp [honestInts, h]
  · intro l s
    by_cases h : s % 7 = 5
    · simp [honestInts, h]
    · simp only [honestInts, h, if_false]
      exact ⟨stableSort_perm _ l, stableSort_sorted _ l⟩
  · intro a b s; by_cases h : s % 7 = 5 <;> simp [honestInts, h]
  · intro x s; by_cases h : s % 7 = 5 <;> simp [honestInts, h, toUsize_iff]
  · intro a b s; by_cases h : s % 7 = 5 <;> simp [honestInts, h]
  · intro a b s; by_cases h : s % 7 = 5 <;> simp [honestInts, h]
  · intro a b s; by_cases h : s % 7 = 5 <;> simp [honestInts, h]
  · intro x s; by_cases h : s % 7 = 5 <;> simp [honestInts, h, toUsize_iff]
  · intro a b s; by_cases h : s % 7 = 5 <;> simp [honestInts, h]

example (xs : List (Attempt Nat Int × Nat)) := C93_integer_range_map honestInts honestInts_honest (borrow := id)
  (fun _ => rfl) [(5, 50), (3, 30), (4, 40)] (by decide) (by decide) (by decide) xs

set_option synthInstance.maxSize 1000 in
/-- The first lookup panics in the integers and is repeated. -/
example : (RMap.api honestInts).caughtSession (RMap.fromVec honestInts [(5, 50), (3, 30), (4, 40)])
      [(⟨.getMut 4 99, none⟩, 6), (⟨.getMut 4 99, none⟩, 6), (⟨.index 7, none⟩, 6), (⟨.get 4, none⟩, 6)] 1
    = .ok (([none, some (.value (some 40)), none, some (.value (some 99))], [(3, 30), (4, 99), (5, 50)]), 10) := by
  decide +kernel

/-- Integers that never panic. -/
def calmInts : RangeCode Nat Int Nat Int where
  zero := pure 0
  sort l := pure (stableSortByKey (·.1) l)
  span a b := pure (a - b)
  spanSize x := pure (toUsize x)
  ge q k := pure (decide (k ≤ q))
  le q k := pure (decide (q ≤ k))
  sub q k := pure (q - k)
  toUsize x := pure (toUsize x)
  same a b := pure (decide (a = b))

theorem calmInts_honest : calmInts.Honest False id id :=
  ⟨.pure trivial, fun l => .pure ⟨stableSort_perm _ l, stableSort_sorted _ l⟩, fun _ _ => .pure rfl,
    fun x => .pure (toUsize_iff x), fun _ _ => .pure rfl, fun _ _ => .pure rfl, fun _ _ => .pure rfl,
    fun x => .pure (toUsize_iff x), fun _ _ => .pure rfl⟩

example := C93_integer_range_map_built calmInts calmInts_honest [(5, 50), (3, 30), (4, 40)] (by decide)
  (by decide) (by decide) (fun a ha b hb x h1 h2 => by
    have ha : a ∈ [5, 3, 4] := ha
    have hb : b ∈ [5, 3, 4] := hb
    show x ∈ [5, 3, 4]
    simp at ha hb ⊢
    omega) 3

end FC
