import Verif.Lemmas.CatchSetOps
import Verif.Lemmas.SetCost
import Verif.Props.SetCode
import Verif.Props.HonestCode

/-
C94: set operations by a caller that catches panics. An iterator is still usable after a panic in `next`,
and a panic costs at most one item.
-/

set_option autoImplicit false

namespace FC
variable {σ T : Type} {p : Prop}

/-- `next` with the panic's traces is the `next` of C59: it returns the same answer and leaves the same
iterator, it panics when that panics, and it has undefined behaviour when that has. -/
theorem C94_same (op : SetOp) (b : UBin σ T) (s : σ) :
    (∀ o b' s', op.nextH b s = .done o b' s' ↔ op.next b s = .ok ((o, b'), s')) ∧
    ((∃ b', op.nextH b s = .panicked b') ↔ op.next b s = .panic) ∧
    (op.nextH b s = .ub ↔ op.next b s = .ub) := by
  rw [← op.nextH_forget b s]
  cases op.nextH b s <;> simp [Landed.forget, and_assoc]

/-! ### Operands that misbehave -/

/-- `union` of any two sets, whatever their `contains` and `len` answer and however the answers change:
when panics of `next` are caught there is no undefined behaviour, a panic comes from an operand's code, and
the items seen before and after panics are items handed out by the operands' iterators, none used twice. -/
theorem C94_union (a b : USet σ T) (ha : a.Safe p) (hb : b.Safe p) (ls : List σ) :
    Behaves False False (SetOp.union.draw (UBin.new a b) ls) (fun r => (none ∈ r.1 → p) ∧
      DrawnFrom a.iter b.iter (fun _ => True) (fun _ => True) (r.1.map Option.join)) :=
  SetOp.union.draw_draws (a := a) (c := b)
    (UBin.unionNext_draws (In1 := fun _ => True) (Out1 := fun _ => True) (In2 := fun _ => True)
      (Out2 := fun _ => True) ha hb
      (fun _ => (Behaves.any _).mono id id (fun b _ => by cases b <;> trivial))
      (fun _ => (Behaves.any _).mono id id (fun b _ => by cases b <;> trivial)))
    ls (UBin.new a b) rfl rfl

/-- `intersection`: moreover an item of the first operand is only seen if the second claimed to contain it,
and the other way round. -/
theorem C94_intersection (a b : USet σ T) (ha : a.Safe p) (hb : b.Safe p)
    (In₁ Out₁ In₂ Out₂ : T → Prop) (ca : a.Claims In₁ Out₁) (cb : b.Claims In₂ Out₂) (ls : List σ) :
    Behaves False False (SetOp.intersection.draw (UBin.new a b) ls) (fun r => (none ∈ r.1 → p) ∧
      DrawnFrom a.iter b.iter In₂ In₁ (r.1.map Option.join)) :=
  SetOp.intersection.draw_draws (UBin.intersectionNext_draws ha hb ca cb) ls (UBin.new a b) rfl rfl

/-- `difference`: only items of the first operand are seen, and only those the second denied. -/
theorem C94_difference (a b : USet σ T) (hb : b.Safe p)
    (In₂ Out₂ : T → Prop) (cb : b.Claims In₂ Out₂) (ls : List σ) :
    Behaves False False (SetOp.difference.draw (UBin.new a b) ls) (fun r => (none ∈ r.1 → p) ∧
      DrawnFrom a.iter b.iter Out₂ (fun _ => False) (r.1.map Option.join)) :=
  SetOp.difference.draw_draws (a := a) (c := b) (fun s _ h2 => UBin.differenceNext_draws hb cb s h2) ls
    (UBin.new a b) rfl rfl

/-- `symmetric_difference`: only items that the other operand denied are seen. -/
theorem C94_symmetric_difference (a b : USet σ T) (ha : a.Safe p) (hb : b.Safe p)
    (In₁ Out₁ In₂ Out₂ : T → Prop) (ca : a.Claims In₁ Out₁) (cb : b.Claims In₂ Out₂) (ls : List σ) :
    Behaves False False (SetOp.symmetricDifference.draw (UBin.new a b) ls) (fun r => (none ∈ r.1 → p) ∧
      DrawnFrom a.iter b.iter Out₂ Out₁ (r.1.map Option.join)) :=
  SetOp.symmetricDifference.draw_draws (UBin.symDiffNext_draws ha hb ca cb) ls (UBin.new a b) rfl rfl

/-- Two `FrozenSet`s of elements of the caller's own type, whatever its `Hash` and `Eq` answer: building both,
starting any set operation and calling `next` any number of times with panics caught has no undefined
behaviour, and the items seen are elements of the two payloads, none more often than given. -/
theorem C94_frozen_sets_any [Target] (env : Env) (u : UserCode σ T T) (hu : u.Safe p)
    (payload₁ payload₂ : List T) (h₁ : 2 ^ 31 ≤ payload₁.length → p) (h₂ : 2 ^ 31 ≤ payload₂.length → p)
    (op : SetOp) (ls : List σ) :
    Behaves False p (do
        let a ← UMap.facade env u (payload₁.map (fun x => (x, ())))
        let b ← UMap.facade env u (payload₂.map (fun x => (x, ())))
        op.draw (UBin.new (a.toSet u) (b.toSet u)) ls)
      (fun r => r.1.length = ls.length ∧ (seen r.1).Subperm (payload₁ ++ payload₂)) := by
  refine (UMap.facade_behaves env hu (by simpa using h₁)).bind (fun a ha =>
    (UMap.facade_behaves env hu (by simpa using h₂)).bind (fun b hb => ?_))
  have sa := UMap.toSet_safe (p := p) hu ha.1
  have sb := UMap.toSet_safe (p := p) hu hb.1
  have pa : ((a.toSet u).iter.items).Perm payload₁ := by
    rw [UMap.toSet_items]; simpa [Function.comp_def] using ha.2.map (fun e : T × Unit => e.1)
  have pb : ((b.toSet u).iter.items).Perm payload₂ := by
    rw [UMap.toSet_items]; simpa [Function.comp_def] using hb.2.map (fun e : T × Unit => e.1)
  have any : ∀ s : USet σ T, s.Claims (fun _ => True) (fun _ => True) := fun s _ =>
    (Behaves.any _).mono id id (fun b _ => by cases b <;> trivial)
  have key : ∀ {P Q : T → Prop} {r : List (Option (Option T)) × UBin σ T},
      (none ∈ r.1 → p) ∧ DrawnFrom (a.toSet u).iter (b.toSet u).iter P Q (r.1.map Option.join) →
      (seen r.1).Subperm (payload₁ ++ payload₂) := by
    rintro P Q r ⟨-, la, lb, ia, ib, _, _, hi⟩
    have : Feed.items (r.1.map Option.join) = seen r.1 := by
      simp [Feed.items, seen, List.filterMap_map]
    rw [this] at hi
    exact perm_of_sublists hi ia ib pa pb
  refine ((Behaves.also ?_ (op.draw_length ls _)).mono id id fun _ h => ⟨h.2, h.1⟩)
  cases op with
  | union => exact (C94_union _ _ sa sb ls).mono id False.elim (fun _ h => key h)
  | intersection =>
    exact (C94_intersection _ _ sa sb _ _ _ _ (any _) (any _) ls).mono id False.elim (fun _ h => key h)
  | difference => exact (C94_difference _ _ sb _ _ (any _) ls).mono id False.elim (fun _ h => key h)
  | symmetricDifference =>
    exact (C94_symmetric_difference _ _ sa sb _ _ _ _ (any _) (any _) ls).mono id False.elim
      (fun _ h => key h)

/-! ### Operands that are right whenever they answer -/

/-- Two sets that are right whenever they answer: the items of the operation's result come in one order,
whatever panics are caught, and each panic loses at most the next of them. Each call has one answer. -/
theorem C94_honest {eq : T → T → Bool} (heq : LawfulEq eq) {a b : USet σ T} {l₁ l₂ : List T}
    (ha : a.Honest p eq l₁) (hb : b.Honest p eq l₂) (h₁ : Distinct eq l₁) (h₂ : Distinct eq l₂)
    (op : SetOp) :
    ∃ R, op.Result eq l₁ l₂ R ∧ ∀ ls : List σ,
      Behaves False False (op.draw (UBin.new a b) ls)
        (fun r => r.1.length = ls.length ∧ ∃ rest, Lossy p R r.1 rest) :=
  ⟨_, op.remaining_result heq h₁ h₂ _ _, fun ls => ((op.draw_honest ha hb ls).also
    (op.draw_length ls _)).mono id id fun _ h => ⟨h.2, h.1⟩⟩

/-- What this amounts to for the caller. The items seen are items of the result, in its order and none
twice. Once `None` was answered, no item is missing but for one per panic at most, and no item follows.
Without panics none is missing. -/
theorem C94_seen {E rest : List T} {os : List (Option (Option T))} (h : Lossy p E os rest) :
    (seen os ++ rest).Sublist E ∧
    E.length ≤ (seen os).length + rest.length + panics os ∧
    (some none ∈ os → rest = []) ∧
    (∀ os₁ os₂, os = os₁ ++ some none :: os₂ → seen os₂ = []) ∧
    (panics os = 0 → seen os ++ rest = E) ∧
    (none ∈ os → p) := by
  have hl := h.length_le
  refine ⟨h.sublist, by omega, h.finished_rest, fun os₁ os₂ e => ?_, fun h0 => ?_, fun hn => ?_⟩
  · obtain ⟨F, -, h2⟩ := h.split e
    cases h2 with
    | finished h2 => exact h2.empty.1
  · exact h.sublist.eq_of_length_le (by simp only [List.length_append]; omega)
  · clear hl
    induction h with
    | nil E => cases hn
    | item _ ih => exact ih (by simpa using hn)
    | finished _ ih => exact ih (by simpa using hn)
    | panicked hp => exact hp
    | lost hp => exact hp

/-- Two `FrozenSet`s of elements of the caller's own type, whose `Hash` and `Eq` are right whenever they
answer: any of the operations, with panics of `next` caught. -/
theorem C94_frozen_sets [Target] (env : Env) (u : UserCode σ T T) {code probe : T → Nat}
    {eq : T → T → Bool} (hu : u.Honest p code probe eq id) (payload₁ payload₂ : List T)
    (hd₁ : Distinct eq payload₁) (hd₂ : Distinct eq payload₂)
    (h₁ : payload₁.length < 2 ^ 32) (h₂ : payload₂.length < 2 ^ 32)
    (hb₁ : 2 ^ 31 ≤ payload₁.length → p) (hb₂ : 2 ^ 31 ≤ payload₂.length → p)
    (op : SetOp) (ls : List σ) :
    Behaves False p (do
        let a ← UMap.facade env u (payload₁.map (fun x => (x, ())))
        let b ← UMap.facade env u (payload₂.map (fun x => (x, ())))
        op.draw (UBin.new (a.toSet u) (b.toSet u)) ls)
      (fun r => r.1.length = ls.length ∧
        ∃ R rest, op.Result eq payload₁ payload₂ R ∧ Lossy p R r.1 rest) := by
  refine (UMap.facade_honest env hu.answers (fun _ _ => trivial) (by simpa using h₁)
    (by simpa using hb₁)).bind fun a ha => ?_
  refine (UMap.facade_honest env hu.answers (fun _ _ => trivial) (by simpa using h₂)
    (by simpa using hb₂)).bind fun b hb => ?_
  have pa : (a.entries.map (·.1)).Perm payload₁ := by
    simpa [Function.comp_def] using ha.2.map (fun e : T × Unit => e.1)
  have pb : (b.entries.map (·.1)).Perm payload₂ := by
    simpa [Function.comp_def] using hb.2.map (fun e : T × Unit => e.1)
  have symm : ∀ {x y : T}, eq x y = false → eq y x = false := by
    intro x y h
    cases e : eq y x with
    | false => rfl
    | true => rw [hu.lawful.symm _ _ e] at h; cases h
  have da : Distinct eq (a.entries.map (·.1)) := (pa.pairwise_iff symm).2 hd₁
  have db : Distinct eq (b.entries.map (·.1)) := (pb.pairwise_iff symm).2 hd₂
  obtain ⟨R, hR, h⟩ := C94_honest hu.lawful (UMap.toSet_honest hu.answers ha.1)
    (UMap.toSet_honest hu.answers hb.1) da db op
  refine (h ls).mono id False.elim fun r hr => ?_
  obtain ⟨hl, rest, hr⟩ := hr
  have has : ∀ {l l' : List T}, l.Perm l' → ∀ x, Has eq l x ↔ Has eq l' x := fun hp x => by
    simp only [Has, hp.mem_iff]
  refine ⟨hl, R, rest, ⟨hR.distinct, fun x => ?_, fun x hx => ?_⟩, hr⟩
  · rw [hR.values x]
    cases op <;> simp only [has pa, has pb]
  · rw [← pa.mem_iff, ← pb.mem_iff]
    exact hR.items x hx

/-- Two `FrozenSet<String>`s with hashers that panic now and then. As in C92 the elements must not make the
crate try the ends of strings. -/
theorem C94_string_sets [Target] (env : Env) (g₁ g₂ : HasherCode σ) {hk₁ hw₁ hk₂ hw₂ : Bytes → Nat}
    (hh₁ : g₁.Honest p hk₁ hw₁) (hh₂ : g₂.Honest p hk₂ hw₂) (payload₁ payload₂ : List Bytes)
    (hd₁ : payload₁.Nodup) (hd₂ : payload₂.Nodup)
    (h₁ : payload₁.length < 2 ^ 32) (h₂ : payload₂.length < 2 ^ 32)
    (hb₁ : 2 ^ 31 ≤ payload₁.length → p) (hb₂ : 2 ^ 31 ≤ payload₂.length → p)
    (hl₁ : ∀ x ∈ payload₁, x.length < usz / 2) (hl₂ : ∀ x ∈ payload₂, x.length < usz / 2)
    (he₁ : ¬ TriesEnds payload₁) (he₂ : ¬ TriesEnds payload₂) (op : SetOp) (ls : List σ) :
    Behaves False p (do
        let a ← UMap.stringSetFacade env g₁ payload₁
        let b ← UMap.stringSetFacade env g₂ payload₂
        op.draw (UBin.new (a.2.toSet (a.1.code env.oc g₁)) (b.2.toSet (b.1.code env.oc g₂))) ls)
      (fun r => r.1.length = ls.length ∧ ∃ R rest,
        op.Result (fun a b => decide (a = b)) payload₁ payload₂ R ∧ Lossy p R r.1 rest) := by
  rw [UMap.stringSetFacade_eq, UMap.stringSetFacade_eq]
  refine ((UMap.stringFacade_honest env hh₁ (payload := unitPayload payload₁)
    (by rwa [unitPayload_length]) (by rwa [unitPayload_length])
    (unitPayload_forall (C := fun x : Bytes => x.length < usz) fun x hx => by have := hl₁ x hx; omega)).mono
      (by rw [unitPayload_keys]; exact he₁) (by rw [unitPayload_keys]; exact fun h => h.resolve_right he₁)
      fun _ h => h).bind fun a ha => ?_
  refine ((UMap.stringFacade_honest env hh₂ (payload := unitPayload payload₂)
    (by rwa [unitPayload_length]) (by rwa [unitPayload_length])
    (unitPayload_forall (C := fun x : Bytes => x.length < usz) fun x hx => by have := hl₂ x hx; omega)).mono
      (by rw [unitPayload_keys]; exact he₂) (by rw [unitPayload_keys]; exact fun h => h.resolve_right he₂)
      fun _ h => h).bind fun b hb => ?_
  obtain ⟨P₁, c₁, q₁, u₁, ha, pa⟩ := ha
  obtain ⟨P₂, c₂, q₂, u₂, hb, pb⟩ := hb
  have pa := UMap.elems_perm pa
  have pb := UMap.elems_perm pb
  have dist : ∀ {l : List Bytes}, l.Nodup → Distinct beq l :=
    fun h => h.imp fun hne => by simpa [beq] using hne
  obtain ⟨R, hR, h⟩ := C94_honest u₁.lawful (UMap.toSet_honest u₁ ha) (UMap.toSet_honest u₂ hb)
    (dist (pa.nodup_iff.2 hd₁)) (dist (pb.nodup_iff.2 hd₂)) op
  refine (h ls).mono id False.elim fun r hr => ?_
  obtain ⟨hl, rest, hr⟩ := hr
  have has : ∀ {l l' : List Bytes}, l.Perm l' → ∀ x, Has beq l x ↔ Has beq l' x := fun hp x => by
    simp only [Has, hp.mem_iff]
  refine ⟨hl, R, rest, ⟨hR.distinct, fun x => ?_, fun x hx => ?_⟩, hr⟩
  · refine (hR.values x).trans ?_
    cases op <;> simp only [has pa, has pb] <;> exact Iff.rfl
  · rw [← pa.mem_iff, ← pb.mem_iff]
    exact hR.items x hx

/-! ### Non-vacuity -/

/-- A set that panics at every third call, and is right otherwise. -/
def shakySet (items : List Nat) : USet Nat Nat where
  iter := items.map some
  contains x := fun s => if s % 3 = 2 then .panic else .ok (decide (x ∈ items), s + 1)
  len := fun s => if s % 3 = 2 then .panic else .ok (items.length, s + 1)

theorem shakySet_safe (items : List Nat) : (shakySet items).Safe True := by
  refine ⟨fun x s => ?_, fun s => ?_⟩ <;> by_cases h : s % 3 = 2 <;> simp [shakySet, h]

theorem shakySet_claims (items : List Nat) : (shakySet items).Claims (· ∈ items) (· ∉ items) := by
  intro x s
  by_cases h : s % 3 = 2 <;> simp [shakySet, h]

theorem shakySet_honest (items : List Nat) : (shakySet items).Honest True (fun a b => a == b) items := by
  refine ⟨rfl, fun x s => ?_, fun s => ?_⟩ <;> by_cases h : s % 3 = 2 <;> simp [shakySet, h, Has]

/-- The difference of {1, 2, 3, 4, 5} and {2}. The third call of the operand panics, at item 3, which is
lost. -/
example : (SetOp.difference.draw (UBin.new (shakySet [1, 2, 3, 4, 5]) (shakySet [2])) [0, 0, 0, 0, 0] 0).map
    (·.1.1) = .ok [some (some 1), none, some (some 4), some (some 5), some none] := by decide +kernel

/-- The union of {1, 2, 3} and {3, 4}. A panic in `len` loses nothing, nor
does one while testing 3 again; one while testing 4 loses 4. -/
example : (SetOp.union.draw (UBin.new (shakySet [1, 2, 3]) (shakySet [3, 4])) [0, 0, 0, 0, 0, 9, 9, 9, 9, 9] 2).map
    (·.1.1) = .ok [none, some (some 1), none, some (some 2), none, some (some 3), none, none, none, some none] := by
  decide +kernel

example := C94_same .union (UBin.new (shakySet [1, 2, 3]) (shakySet [3, 4])) 2
example := C94_union _ _ (shakySet_safe [1, 2, 3]) (shakySet_safe [3, 4]) [0, 0, 0]
example := C94_intersection _ _ (shakySet_safe [1, 2, 3]) (shakySet_safe [3, 4]) _ _ _ _
  (shakySet_claims _) (shakySet_claims _) [0, 0, 0]
example := C94_difference (shakySet [1, 2, 3]) _ (shakySet_safe [3, 4]) _ _ (shakySet_claims _) [0, 0, 0]
example := C94_symmetric_difference _ _ (shakySet_safe [1, 2, 3]) (shakySet_safe [3, 4]) _ _ _ _
  (shakySet_claims _) (shakySet_claims _) [0, 0, 0]
example (op : SetOp) := C94_frozen_sets_any checkedEnv moodyCode moodyCode_safe [1, 2, 3, 4, 5] [4, 5, 6]
  (by decide) (by decide) op [6, 6, 6]
example (op : SetOp) := C94_honest honestCode_honest.lawful (shakySet_honest [1, 2, 3])
  (shakySet_honest [3, 4]) (by unfold Distinct; decide) (by unfold Distinct; decide) op
example := C94_seen (Lossy.item (x := 1) (.lost (x := 3) trivial (.finished (p := True) (.nil []))))
example (op : SetOp) := C94_frozen_sets checkedEnv honestCode honestCode_honest [1, 2, 3, 4, 5] [4, 5, 6]
  (by unfold Distinct; decide) (by unfold Distinct; decide) (by decide) (by decide) (fun _ => trivial)
  (fun _ => trivial) op [6, 6, 6]

example (op : SetOp) (ls : List Nat) := C94_string_sets checkedEnv honestHasher honestHasher
  honestHasher_honest honestHasher_honest (sameLenKeys.map (·.1)) [[1], [1, 2]] (by decide) (by decide)
  (by decide) (by decide) (fun _ => trivial) (fun _ => trivial) (by decide) (by decide) sameLenKeys_safe
  (fun h => absurd h.1 (by decide)) op ls

end FC
