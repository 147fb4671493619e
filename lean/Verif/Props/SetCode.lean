import Verif.Lemmas.SetCode
import Verif.Props.UserCode

/-
C59: set operations over operands and element types that misbehave.
-/

set_option autoImplicit false

namespace FC
variable {σ T : Type} {p : Prop}

/-! ### C59 -/

/-- `union` of any two sets, whatever their `contains` and `len` answer and however the answers
change: no undefined behaviour, a panic only from an operand's code, and after any number of calls
of `next` the items seen are items handed out by the operands' iterators, none used twice. -/
theorem C59_union (a b : USet σ T) (ha : a.Safe p) (hb : b.Safe p) (n : Nat) :
    Behaves False p (ncalls UBin.unionNext n (UBin.new a b))
      (fun r => DrawnFrom a.iter b.iter (fun _ => True) (fun _ => True) r.1) :=
  ncalls_draws (a := a) (b := b)
    (UBin.unionNext_draws (In1 := fun _ => True) (Out1 := fun _ => True) (In2 := fun _ => True)
      (Out2 := fun _ => True) ha hb
      (fun _ => (Behaves.any _).mono id id (fun b _ => by cases b <;> trivial))
      (fun _ => (Behaves.any _).mono id id (fun b _ => by cases b <;> trivial)))
    n (UBin.new a b) rfl rfl

/-- `intersection`: moreover an item of the first operand is only seen if the second claimed to
contain it, and the other way round. -/
theorem C59_intersection (a b : USet σ T) (ha : a.Safe p) (hb : b.Safe p)
    (In₁ Out₁ In₂ Out₂ : T → Prop) (ca : a.Claims In₁ Out₁) (cb : b.Claims In₂ Out₂) (n : Nat) :
    Behaves False p (ncalls UBin.intersectionNext n (UBin.new a b))
      (fun r => DrawnFrom a.iter b.iter In₂ In₁ r.1) :=
  ncalls_draws (UBin.intersectionNext_draws ha hb ca cb) n (UBin.new a b) rfl rfl

/-- `difference`: only items of the first operand are seen, and only those the second denied. -/
theorem C59_difference (a b : USet σ T) (hb : b.Safe p)
    (In₂ Out₂ : T → Prop) (cb : b.Claims In₂ Out₂) (n : Nat) :
    Behaves False p (ncalls UBin.differenceNext n (UBin.new a b))
      (fun r => DrawnFrom a.iter b.iter Out₂ (fun _ => False) r.1) :=
  ncalls_draws (a := a) (b := b) (fun s _ h2 => UBin.differenceNext_draws hb cb s h2) n
    (UBin.new a b) rfl rfl

/-- `symmetric_difference`: only items that the other operand denied are seen. -/
theorem C59_symmetric_difference (a b : USet σ T) (ha : a.Safe p) (hb : b.Safe p)
    (In₁ Out₁ In₂ Out₂ : T → Prop) (ca : a.Claims In₁ Out₁) (cb : b.Claims In₂ Out₂) (n : Nat) :
    Behaves False p (ncalls UBin.symDiffNext n (UBin.new a b))
      (fun r => DrawnFrom a.iter b.iter Out₂ Out₁ r.1) :=
  ncalls_draws (UBin.symDiffNext_draws ha hb ca cb) n (UBin.new a b) rfl rfl

/-- `union`, `symmetric_difference` and `difference` stay exhausted once exhausted if the operands'
iterators do, whatever `contains` and `len` answer. -/
theorem C59_fused (a b : USet σ T) (hfa : a.iter.Fused) (hfb : b.iter.Fused) (n : Nat) :
    Behaves True True (ncalls UBin.unionNext n (UBin.new a b)) (fun r => Feed.Fused r.1) ∧
    Behaves True True (ncalls UBin.symDiffNext n (UBin.new a b)) (fun r => Feed.Fused r.1) ∧
    Behaves True True (ncalls UBin.differenceNext n (UBin.new a b)) (fun r => Feed.Fused r.1) :=
  ⟨ncalls_fused UBin.unionNext_fused UBin.unionNext_done n _ ⟨hfa, hfb⟩,
    ncalls_fused UBin.symDiffNext_fused UBin.symDiffNext_done n _ ⟨hfa, hfb⟩,
    ncalls_fused UBin.differenceNext_fused UBin.differenceNext_done n _ hfa⟩

/-- `intersection` does so too if moreover the lengths reported do not change. -/
theorem C59_fused_intersection (a b : USet σ T) (hfa : a.iter.Fused) (hfb : b.iter.Fused)
    (n₁ n₂ : Nat) (h₁ : a.LenIs n₁) (h₂ : b.LenIs n₂) (n : Nat) :
    Behaves True True (ncalls UBin.intersectionNext n (UBin.new a b))
      (fun r => Feed.Fused r.1) := by
  refine ncalls_fused
    (Inv := fun s => s.s1 = a ∧ s.s2 = b ∧ s.BothFused)
    (Stop := fun s => s.s1 = a ∧ s.s2 = b ∧ if n₁ < n₂ then s.it1.Done else s.it2.Done)
    ?_ ?_ n (UBin.new a b) ⟨rfl, rfl, hfa, hfb⟩
  · rintro s ⟨rfl, rfl, hs⟩
    exact (UBin.intersectionNext_fused s h₁ h₂ hs).mono id id
      (fun r hr => ⟨hr.1, fun h0 => ⟨hr.1.1, hr.1.2.1, hr.2 h0⟩⟩)
  · rintro s ⟨rfl, rfl, hs⟩
    exact (UBin.intersectionNext_done s h₁ h₂ hs).mono id id (fun r hr => hr)

/-- The predicates: no undefined behaviour, a panic only from an operand's code, and `true` only if
the operands' own answers say so. -/
theorem C59_predicates (a b : USet σ T) (ha : a.Safe p) (hb : b.Safe p)
    (In₁ Out₁ In₂ Out₂ : T → Prop) (ca : a.Claims In₁ Out₁) (cb : b.Claims In₂ Out₂) :
    Behaves False p (a.isSubset b) (fun r => r = true → ∀ x ∈ a.iter.upToNone, In₂ x) ∧
    Behaves False p (a.isSuperset b) (fun r => r = true → ∀ x ∈ b.iter.upToNone, In₁ x) ∧
    Behaves False p (a.eq b) (fun r => r = true → ∀ x ∈ a.iter.upToNone, In₂ x) ∧
    Behaves False p (a.isDisjoint b) (fun r => r = true →
      (∀ x ∈ a.iter.upToNone, Out₂ x) ∨ ∀ x ∈ b.iter.upToNone, Out₁ x) := by
  have na : ∀ x, Behaves False p (do return !(← a.contains x))
      (fun b => if b = true then Out₁ x else In₁ x) := fun x =>
    (USet.contains_behaves ha ca x).bind (fun b hb => Behaves.pure (by cases b <;> simpa using hb))
  have nb : ∀ x, Behaves False p (do return !(← b.contains x))
      (fun b => if b = true then Out₂ x else In₂ x) := fun x =>
    (USet.contains_behaves hb cb x).bind (fun b hb => Behaves.pure (by cases b <;> simpa using hb))
  refine ⟨?_, ?_, ?_, ?_⟩
  · refine ha.len.bind (fun l1 _ => hb.len.bind (fun l2 _ => Behaves.ite (fun _ => ?_) (fun _ => ?_)))
    · exact (Feed.all_behaves (USet.contains_behaves hb cb) a.iter).mono id id
        (fun r hr h => by rw [if_pos h] at hr; exact hr)
    · exact Behaves.pure (by rintro ⟨⟩)
  · refine hb.len.bind (fun l1 _ => ha.len.bind (fun l2 _ => Behaves.ite (fun _ => ?_) (fun _ => ?_)))
    · exact (Feed.all_behaves (USet.contains_behaves ha ca) b.iter).mono id id
        (fun r hr h => by rw [if_pos h] at hr; exact hr)
    · exact Behaves.pure (by rintro ⟨⟩)
  · refine ha.len.bind (fun l1 _ => hb.len.bind (fun l2 _ => Behaves.ite (fun _ => ?_) (fun _ => ?_)))
    · exact Behaves.pure (by rintro ⟨⟩)
    · exact (Feed.all_behaves (USet.contains_behaves hb cb) a.iter).mono id id
        (fun r hr h => by rw [if_pos h] at hr; exact hr)
  · refine ha.len.bind (fun l1 _ => ha.len.bind (fun l2 _ => Behaves.ite (fun _ => ?_) (fun _ => ?_)))
    · exact (Feed.all_behaves nb a.iter).mono id id
        (fun r hr h => by rw [if_pos h] at hr; exact Or.inl hr)
    · exact (Feed.all_behaves na b.iter).mono id id
        (fun r hr h => by rw [if_pos h] at hr; exact Or.inr hr)

/-- Two `FrozenSet`s of elements of the caller's own type, whatever its `Hash` and `Eq` answer and
however the answers change: building both, starting any set operation and calling `next` any number
of times has no undefined behaviour, panics only if the caller's code does (`p`, which must also allow
for a payload of 2^31 elements or more), and the items seen are elements of the two payloads, none more often than given. Once nothing is left, nothing comes. -/
theorem C59_frozen_sets [Target] (env : Env) (u : UserCode σ T T) (hu : u.Safe p)
    (payload₁ payload₂ : List T) (h₁ : 2 ^ 31 ≤ payload₁.length → p) (h₂ : 2 ^ 31 ≤ payload₂.length → p)
    (op : SetOp) (n : Nat) :
    Behaves False p (do
        let a ← UMap.facade env u (payload₁.map (fun x => (x, ())))
        let b ← UMap.facade env u (payload₂.map (fun x => (x, ())))
        ncalls op.next n (UBin.new (a.toSet u) (b.toSet u)))
      (fun r => (Feed.items r.1).Subperm (payload₁ ++ payload₂) ∧ Feed.Fused r.1) := by
  refine (UMap.facade_behaves env hu (by simpa using h₁)).bind (fun a ha =>
    (UMap.facade_behaves env hu (by simpa using h₂)).bind (fun b hb => ?_))
  have sa := UMap.toSet_safe (p := p) hu ha.1
  have sb := UMap.toSet_safe (p := p) hu hb.1
  have pa : ((a.toSet u).iter.items).Perm payload₁ := by
    rw [UMap.toSet_items]; simpa [Function.comp_def] using ha.2.map (fun e : T × Unit => e.1)
  have pb : ((b.toSet u).iter.items).Perm payload₂ := by
    rw [UMap.toSet_items]; simpa [Function.comp_def] using hb.2.map (fun e : T × Unit => e.1)
  have any : ∀ s : USet σ T, s.Claims (fun _ => True) (fun _ => True) := fun s _ =>
    (Behaves.any _).mono id id (fun b _ => by cases b <;> trivial)
  have key : ∀ {P Q : T → Prop} {r : List (Option T) × UBin σ T},
      DrawnFrom (a.toSet u).iter (b.toSet u).iter P Q r.1 →
      (Feed.items r.1).Subperm (payload₁ ++ payload₂) := by
    rintro P Q r ⟨la, lb, ia, ib, _, _, hi⟩
    exact perm_of_sublists hi ia ib pa pb
  have hf := C59_fused (a.toSet u) (b.toSet u) (UMap.toSet_fused u a) (UMap.toSet_fused u b) n
  cases op with
  | union => exact ((C59_union _ _ sa sb n).mono id id (fun _ h => key h)).and' hf.1
  | intersection =>
    exact ((C59_intersection _ _ sa sb _ _ _ _ (any _) (any _) n).mono id id (fun _ h => key h)).and'
      (C59_fused_intersection _ _ (UMap.toSet_fused u a) (UMap.toSet_fused u b) a.len b.len
        (Behaves.pure rfl) (Behaves.pure rfl) n)
  | difference =>
    exact ((C59_difference _ _ sb _ _ (any _) n).mono id id (fun _ h => key h)).and' hf.2.2
  | symmetricDifference =>
    exact ((C59_symmetric_difference _ _ sa sb _ _ _ _ (any _) (any _) n).mono id id
      (fun _ h => key h)).and' hf.2.1

/-! ### Non-vacuity -/

/-- A set that counts the calls made to it and lets the count decide every answer. -/
def moodySet (items : List Nat) : USet Nat Nat where
  iter := items.map some
  contains _ := fun s => .ok (s % 3 != 0, s + 1)
  len := fun s => .ok (s % 2, s + 1)

theorem moodySet_safe (items : List Nat) : (moodySet items).Safe False :=
  ⟨fun _ _ => trivial, fun _ => trivial⟩

/-- What the operations show for it, in one session: 1 in the union twice, since each operand handed
it out, and 4 in the intersection, since the first operand claimed to contain it. -/
example :
    (ncalls UBin.unionNext 6 (UBin.new (moodySet [1, 2, 3]) (moodySet [1, 4])) 0).map (·.1.1)
      = .ok [some 1, some 4, some 1, some 2, some 3, none] ∧
    (ncalls UBin.unionNext 6 (UBin.new (moodySet [1, 2, 3]) (moodySet [1, 4])) 1).map (·.1.1)
      = .ok [some 1, some 2, some 3, some 1, some 4, none] ∧
    (ncalls UBin.intersectionNext 3 (UBin.new (moodySet [1, 2, 3]) (moodySet [1, 4])) 1).map (·.1.1)
      = .ok [some 4, none, none] := by
  decide +kernel

/-- Stability is needed for `FusedIterator`, which the code promises unconditionally: with an
operand whose iterator goes on after `None`, so does the union; with lengths that change, the
intersection goes on after `None`. -/
example :
    (ncalls UBin.unionNext 3 (UBin.new
        (⟨[none, some 1], fun _ => pure true, pure 1⟩ : USet Unit Nat)
        ⟨[], fun _ => pure true, pure 0⟩) ()).map (·.1.1) = .ok [none, some 1, none] ∧
    (ncalls UBin.intersectionNext 2 (UBin.new
        (⟨[], fun _ => pure true, fun s => .ok (s, s + 1)⟩ : USet Nat Nat)
        ⟨[some 1], fun _ => pure true, fun s => .ok (1, s)⟩) 0).map (·.1.1) = .ok [none, some 1] := by
  decide +kernel

/-- The frozen-set theorem on five moody elements. -/
example : (do
    let a ← UMap.facade checkedEnv moodyCode ([1, 2, 3, 4, 5].map (fun x => (x, ())))
    let b ← UMap.facade checkedEnv moodyCode ([4, 5, 6].map (fun x => (x, ())))
    let r ← ncalls (SetOp.next .symmetricDifference) 9 (UBin.new (a.toSet moodyCode) (b.toSet moodyCode))
    return r.1 : Call Nat (List (Option Nat))) 0
    = .ok ([some 4, some 5, some 6, none, none, none, none, none, none], 20) := by
  decide +kernel

/-! Each theorem at two moody sets, or at sets with a steady length. -/

theorem moodySet_claims (items : List Nat) : (moodySet items).Claims (fun _ => True) (fun _ => True) :=
  fun _ _ => by simp [moodySet]
theorem moodySet_fused (items : List Nat) : (moodySet items).iter.Fused := ⟨items, 0, by simp [moodySet]⟩

example := C59_union _ _ (moodySet_safe [1, 2, 3]) (moodySet_safe [1, 4]) 6
example := C59_intersection _ _ (moodySet_safe [1, 2, 3]) (moodySet_safe [1, 4]) _ _ _ _
  (moodySet_claims _) (moodySet_claims _) 6
example := C59_difference (moodySet [1, 2, 3]) _ (moodySet_safe [1, 4]) _ _ (moodySet_claims _) 6
example := C59_symmetric_difference _ _ (moodySet_safe [1, 2, 3]) (moodySet_safe [1, 4]) _ _ _ _
  (moodySet_claims _) (moodySet_claims _) 6
example := C59_predicates _ _ (moodySet_safe [1, 2, 3]) (moodySet_safe [1, 4]) _ _ _ _
  (moodySet_claims _) (moodySet_claims _)
example := C59_fused _ _ (moodySet_fused [1, 2, 3]) (moodySet_fused [1, 4]) 6
example := C59_fused_intersection { moodySet [1, 2, 3] with len := pure 7 } { moodySet [1, 4] with len := pure 1 }
  (moodySet_fused [1, 2, 3]) (moodySet_fused [1, 4]) 7 1 (.pure rfl) (.pure rfl) 6
example := C59_frozen_sets checkedEnv moodyCode moodyCode_safe [1, 2, 3, 4, 5] [4, 5, 6] (by decide) (by decide)
  .symmetricDifference 9

end FC
