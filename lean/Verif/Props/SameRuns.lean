import Verif.Lemmas.SameRuns
import Verif.Props.Programs
import Verif.Props.Machine

/-
C99: what a program sees does not depend on the surroundings.
-/

set_option autoImplicit false

namespace FC
variable {K V : Type}

/-- C99. Two runs of a program that lists nothing show the same replies, and panic at the same action,
whatever the machines `t₁` and `t₂`, the builds, the hash codes of keys, the hashers, the orders of the
payloads, and whichever key types the crate has its own maps for. -/
theorem C99_same_replies (t₁ t₂ : Target) (u₁ u₂ : Surround K V) (hu : u₁.SameData u₂)
    (hty₁ : @LawfulKey t₁ K u₁.ty) (hty₂ : @LawfulKey t₂ K u₂.ty)
    (hck : ∀ k, u₁.ty.eq (u₁.ck k) k = true) (hord₁ : ∀ l, (u₁.order l).Perm l)
    (hord₂ : ∀ l, (u₂.order l).Perm l) (prog₁ prog₂ : List (Reply K V) → Cmd K V)
    (hp : ∀ seen, (prog₁ seen).SameBut (prog₂ seen)) (hn : ∀ seen, ¬ (prog₁ seen).Lists)
    (hf₁ : ∀ seen, (prog₁ seen).Fine u₁.ty) (hf₂ : ∀ seen, (prog₂ seen).Fine u₂.ty) (n : Nat) :
    programSees t₁ u₁ prog₁ n = programSees t₂ u₂ prog₂ n := by
  unfold programSees
  rcases same_runs t₁ t₂ u₁ u₂ hu hty₁ hty₂ hck hord₁ hord₂ prog₁ prog₂ hp hn hf₁ hf₂ n
      (seen := []) (h₁ := ⟨[], []⟩) (h₂ := ⟨[], []⟩) (w := ⟨[], []⟩)
      (@Shelf.Like.mk t₁ _ _ _ _ _ .nil .nil) (@Shelf.Like.mk t₂ _ _ _ _ _ .nil .nil) with
    ⟨r₁, r₂⟩ | ⟨seen', h₁, h₂, w, r₁, r₂, _, _⟩
  · rw [r₁, r₂]
  · rw [r₁, r₂]; rfl

/-- C99 for listings. After any number of actions as above, one more action of any kind says the same in
both runs, up to the order of what it lists. -/
theorem C99_then_any_action (t₁ t₂ : Target) (u₁ u₂ : Surround K V) (hu : u₁.SameData u₂)
    (hty₁ : @LawfulKey t₁ K u₁.ty) (hty₂ : @LawfulKey t₂ K u₂.ty)
    (hck : ∀ k, u₁.ty.eq (u₁.ck k) k = true) (hord₁ : ∀ l, (u₁.order l).Perm l)
    (hord₂ : ∀ l, (u₂.order l).Perm l) (prog₁ prog₂ : List (Reply K V) → Cmd K V)
    (hp : ∀ seen, (prog₁ seen).SameBut (prog₂ seen)) (hn : ∀ seen, ¬ (prog₁ seen).Lists)
    (hf₁ : ∀ seen, (prog₁ seen).Fine u₁.ty) (hf₂ : ∀ seen, (prog₂ seen).Fine u₂.ty) (n : Nat)
    (seen₁ seen₂ : List (Reply K V)) (h₁ h₂ : Shelf K V)
    (hr₁ : @Shelf.run K V t₁ u₁ prog₁ n [] ⟨[], []⟩ = .ok (seen₁, h₁))
    (hr₂ : @Shelf.run K V t₂ u₂ prog₂ n [] ⟨[], []⟩ = .ok (seen₂, h₂)) (c : Cmd K V)
    (hc₁ : c.Fine u₁.ty) (hc₂ : c.Fine u₂.ty) :
    (@Shelf.perform K V t₁ u₁ h₁ c = .panic ∧ @Shelf.perform K V t₂ u₂ h₂ c = .panic) ∨
    ∃ r₁ r₂ h₁' h₂', @Shelf.perform K V t₁ u₁ h₁ c = .ok (r₁, h₁') ∧
      @Shelf.perform K V t₂ u₂ h₂ c = .ok (r₂, h₂') ∧ Reply.SaysSame u₁.ty.eq c r₁ r₂ := by
  rcases same_runs t₁ t₂ u₁ u₂ hu hty₁ hty₂ hck hord₁ hord₂ prog₁ prog₂ hp hn hf₁ hf₂ n
      (seen := []) (h₁ := ⟨[], []⟩) (h₂ := ⟨[], []⟩) (w := ⟨[], []⟩)
      (@Shelf.Like.mk t₁ _ _ _ _ _ .nil .nil) (@Shelf.Like.mk t₂ _ _ _ _ _ .nil .nil) with
    ⟨r₁, r₂⟩ | ⟨seen', k₁, k₂, w, r₁, r₂, l₁, l₂⟩
  · rw [hr₁] at r₁; cases r₁
  · rw [hr₁] at r₁; cases r₁
    rw [hr₂] at r₂; cases r₂
    have s₁ := @Shelf.Like.perform t₁ K V u₁ hty₁ hck hord₁ h₁ w l₁ c hc₁
    have s₂ := @Shelf.Like.perform t₂ K V u₂ hty₂ (by rw [← hu.eq, ← hu.ck]; exact hck) hord₂ h₂ w l₂ c hc₂
    rw [← hu.eq, ← hu.ck, ← hu.cv, ← hu.veq] at s₂
    cases hp₁ : @Shelf.perform K V t₁ u₁ h₁ c with
    | ub => rw [hp₁] at s₁; exact s₁.elim
    | panic =>
      rw [hp₁] at s₁
      cases hp₂ : @Shelf.perform K V t₂ u₂ h₂ c with
      | ub => rw [hp₂] at s₂; exact s₂.elim
      | panic => exact Or.inl ⟨rfl, rfl⟩
      | ok y =>
        rw [hp₂] at s₂
        obtain ⟨w₂, d₂, _⟩ := s₂
        exact (d₂.not_panics s₁).elim
    | ok x =>
      rw [hp₁] at s₁
      obtain ⟨w₁, d₁, _⟩ := s₁
      cases hp₂ : @Shelf.perform K V t₂ u₂ h₂ c with
      | ub => rw [hp₂] at s₂; exact s₂.elim
      | panic => rw [hp₂] at s₂; exact (d₁.not_panics s₂).elim
      | ok y =>
        rw [hp₂] at s₂
        obtain ⟨w₂, d₂, _⟩ := s₂
        exact Or.inr ⟨x.1, y.1, x.2, y.2, rfl, rfl, d₁.says_same (@LawfulKey.eq t₁ _ _ hty₁) d₂⟩

/-- C99 with panics caught. Two runs of a program that catches its panics and lists nothing show the same
replies and the same panics, however long they go on. -/
theorem C99_with_panics_caught (t₁ t₂ : Target) (u₁ u₂ : Surround K V) (hu : u₁.SameData u₂)
    (hty₁ : @LawfulKey t₁ K u₁.ty) (hty₂ : @LawfulKey t₂ K u₂.ty)
    (hck : ∀ k, u₁.ty.eq (u₁.ck k) k = true) (hord₁ : ∀ l, (u₁.order l).Perm l)
    (hord₂ : ∀ l, (u₂.order l).Perm l) (prog₁ prog₂ : List (Option (Reply K V)) → Cmd K V)
    (hp : ∀ seen, (prog₁ seen).SameBut (prog₂ seen)) (hn : ∀ seen, ¬ (prog₁ seen).Lists)
    (hf₁ : ∀ seen, (prog₁ seen).Fine u₁.ty) (hf₂ : ∀ seen, (prog₂ seen).Fine u₂.ty) (n : Nat) :
    ∃ seen h₁ h₂, @Shelf.runCaught K V t₁ u₁ prog₁ n [] ⟨[], []⟩ = .ok (seen, h₁) ∧
      @Shelf.runCaught K V t₂ u₂ prog₂ n [] ⟨[], []⟩ = .ok (seen, h₂) := by
  obtain ⟨seen, h₁, h₂, w, r₁, r₂, _, _⟩ :=
    same_runs_caught t₁ t₂ u₁ u₂ hu hty₁ hty₂ hck hord₁ hord₂ prog₁ prog₂ hp hn hf₁ hf₂ n
      (seen := []) (h₁ := ⟨[], []⟩) (h₂ := ⟨[], []⟩) (w := ⟨[], []⟩)
      (@Shelf.Like.mk t₁ _ _ _ _ _ .nil .nil) (@Shelf.Like.mk t₂ _ _ _ _ _ .nil .nil)
  exact ⟨seen, h₁, h₂, r₁, r₂⟩

/-- C99 for programs that list as often as they like and do not let the order of a listing decide what
they do next. Both runs show the same up to the order of listings, and panic at the same action. -/
theorem C99_listing_programs (t₁ t₂ : Target) (u₁ u₂ : Surround K V) (hu : u₁.SameData u₂)
    (hty₁ : @LawfulKey t₁ K u₁.ty) (hty₂ : @LawfulKey t₂ K u₂.ty)
    (hck : ∀ k, u₁.ty.eq (u₁.ck k) k = true) (hord₁ : ∀ l, (u₁.order l).Perm l)
    (hord₂ : ∀ l, (u₂.order l).Perm l) (prog₁ prog₂ : List (Reply K V) → Cmd K V)
    (hp : ∀ seen₁ seen₂, SameSeen u₁.ty.eq prog₁ seen₁ seen₂ → (prog₁ seen₁).SameBut (prog₂ seen₂))
    (hf₁ : ∀ seen, (prog₁ seen).Fine u₁.ty) (hf₂ : ∀ seen, (prog₂ seen).Fine u₂.ty) (n : Nat) :
    (programSees t₁ u₁ prog₁ n = .panic ∧ programSees t₂ u₂ prog₂ n = .panic) ∨
    ∃ seen₁ seen₂, programSees t₁ u₁ prog₁ n = .ok seen₁ ∧ programSees t₂ u₂ prog₂ n = .ok seen₂ ∧
      SameSeen u₁.ty.eq prog₁ seen₁ seen₂ := by
  unfold programSees
  rcases same_runs_listing t₁ t₂ u₁ u₂ hu hty₁ hty₂ hck hord₁ hord₂ prog₁ prog₂ hp hf₁ hf₂ n
      (h₁ := ⟨[], []⟩) (h₂ := ⟨[], []⟩) (w := ⟨[], []⟩) .nil
      (@Shelf.Like.mk t₁ _ _ _ _ _ .nil .nil) (@Shelf.Like.mk t₂ _ _ _ _ _ .nil .nil) with
    ⟨r₁, r₂⟩ | ⟨seen₁, seen₂, h₁, h₂, r₁, r₂, hs⟩
  · rw [r₁, r₂]; exact Or.inl ⟨rfl, rfl⟩
  · rw [r₁, r₂]; exact Or.inr ⟨seen₁, seen₂, rfl, rfl, hs⟩

/-- C99 for programs that list and catch their panics. -/
theorem C99_listing_and_catching (t₁ t₂ : Target) (u₁ u₂ : Surround K V) (hu : u₁.SameData u₂)
    (hty₁ : @LawfulKey t₁ K u₁.ty) (hty₂ : @LawfulKey t₂ K u₂.ty)
    (hck : ∀ k, u₁.ty.eq (u₁.ck k) k = true) (hord₁ : ∀ l, (u₁.order l).Perm l)
    (hord₂ : ∀ l, (u₂.order l).Perm l) (prog₁ prog₂ : List (Option (Reply K V)) → Cmd K V)
    (hp : ∀ seen₁ seen₂, SameSeenCaught u₁.ty.eq prog₁ seen₁ seen₂ →
      (prog₁ seen₁).SameBut (prog₂ seen₂))
    (hf₁ : ∀ seen, (prog₁ seen).Fine u₁.ty) (hf₂ : ∀ seen, (prog₂ seen).Fine u₂.ty) (n : Nat) :
    ∃ seen₁ seen₂ h₁ h₂, @Shelf.runCaught K V t₁ u₁ prog₁ n [] ⟨[], []⟩ = .ok (seen₁, h₁) ∧
      @Shelf.runCaught K V t₂ u₂ prog₂ n [] ⟨[], []⟩ = .ok (seen₂, h₂) ∧
      SameSeenCaught u₁.ty.eq prog₁ seen₁ seen₂ :=
  same_runs_listing_caught t₁ t₂ u₁ u₂ hu hty₁ hty₂ hck hord₁ hord₂ prog₁ prog₂ hp hf₁ hf₂ n
    (w := ⟨[], []⟩) .nil (@Shelf.Like.mk t₁ _ _ _ _ _ .nil .nil) (@Shelf.Like.mk t₂ _ _ _ _ _ .nil .nil)

/-! ### Non-vacuity -/

/-- `u32` as it would be if the crate had no maps for it. -/
def u32AsOther : KeyTy UInt32 := { u32Ty with kind := .other }

/-- Compared with `demoSurround`: overflow wraps, the crate does not know the key type. -/
def demoSurround' : Surround UInt32 Int :=
  ⟨⟨false, reverseUnstable⟩, u32AsOther, id, id, fun a b => decide (a = b), id⟩

/-- Five keys in no row: with hashes, or by value. -/
def exQuiet : List (UInt32 × Int) := [(10, 1), (500, 2), (5, 3), (9000, 4), (1, 6)]

theorem exQuiet_distinct : DistinctKeys u32Ty.eq exQuiet := by unfold DistinctKeys; decide +kernel

/-- A program that lists nothing. -/
def quietProg (bh : Hasher) (p : List (UInt32 × Int)) : List (Reply UInt32 Int) → Cmd UInt32 Int
  | [] => .newMap p bh
  | [_] => .onMap 0 (.get 5)
  | [_, .saw (.value (some v))] => .onMap 0 (.getMut 1 v)
  | [_, _] => .onMap 0 .len
  | [_, _, _] => .onMap 0 (.get 1)
  | _ => .onMap 0 (.index 7)

theorem quietProg_fine {ty : KeyTy UInt32} (hk : ∀ f g, ty.kind ≠ .string f g) (bh : Hasher)
    {p : List (UInt32 × Int)} (hd : DistinctKeys ty.eq p) (hl : p.length < 2 ^ 31)
    (seen : List (Reply UInt32 Int)) : (quietProg bh p seen).Fine ty := by
  unfold quietProg
  split <;> first
    | trivial
    | exact ⟨hd, hl, fun f g h => absurd h (hk f g)⟩

theorem u32AsOther_lawful (t : Target) : @LawfulKey t _ u32AsOther :=
  ⟨u32Ty_lawful.eq, u32Ty_lawful.hash, trivial⟩

theorem exQuiet_distinct' : DistinctKeys u32AsOther.eq exQuiet.reverse :=
  DistinctKeys.perm u32Ty_lawful.eq (List.reverse_perm _).symm exQuiet_distinct

theorem quietProg_same (seen : List (Reply UInt32 Int)) :
    (quietProg demoHasher exQuiet seen).SameBut (quietProg (fun _ => 0) exQuiet.reverse seen) := by
  unfold quietProg
  split
  · exact .newMap _ _ _ _ (List.reverse_perm _).symm
  all_goals exact .other _

theorem quietProg_quiet (bh : Hasher) (p : List (UInt32 × Int)) (seen : List (Reply UInt32 Int)) :
    ¬ (quietProg bh p seen).Lists := by
  unfold quietProg
  split <;> exact id

/-- A 64-bit machine with overflow checks, where the crate knows `u32`, and a 32-bit machine without,
where it does not; another order of the payload and another hasher. -/
example (n : Nat) :
    programSees x64 demoSurround (quietProg demoHasher exQuiet) n
      = programSees x32 demoSurround' (quietProg (fun _ => 0) exQuiet.reverse) n := by
  exact C99_same_replies x64 x32 demoSurround demoSurround' ⟨rfl, rfl, rfl, rfl⟩ u32Ty_lawful
    (u32AsOther_lawful x32) u32Ty_lawful.eq.refl (fun l => l.reverse_perm) (fun l => .refl l) _ _
    quietProg_same (quietProg_quiet _ _)
    (quietProg_fine (by intro f g h; cases h) _ exQuiet_distinct (by decide))
    (quietProg_fine (by intro f g h; cases h) _ exQuiet_distinct' (by decide)) n

/-- What it sees. -/
example : programSees x64 demoSurround (quietProg demoHasher exQuiet) 4
    = .ok [.done, .saw (.value (some 3)), .saw (.value (some 6)), .saw (.value (some 3))] := by
  decide +kernel

/-- A program that indexes with an absent key, catches the panic, and goes on. -/
def quietStubborn (bh : Hasher) (p : List (UInt32 × Int)) :
    List (Option (Reply UInt32 Int)) → Cmd UInt32 Int
  | [] => .newMap p bh
  | [_] => .onMap 0 (.index 7)
  | [_, none] => .onMap 0 (.indexMut 500 20)
  | [_, _, _] => .onMap 0 (.indexMut 8 80)
  | _ => .onMap 0 (.get 500)

theorem quietStubborn_fine {ty : KeyTy UInt32} (hk : ∀ f g, ty.kind ≠ .string f g) (bh : Hasher)
    {p : List (UInt32 × Int)} (hd : DistinctKeys ty.eq p) (hl : p.length < 2 ^ 31)
    (seen : List (Option (Reply UInt32 Int))) : (quietStubborn bh p seen).Fine ty := by
  unfold quietStubborn
  split <;> first
    | trivial
    | exact ⟨hd, hl, fun f g h => absurd h (hk f g)⟩

/-- Both runs see the same, panics included. -/
example (n : Nat) : ∃ seen h₁ h₂,
    @Shelf.runCaught _ _ x64 demoSurround (quietStubborn demoHasher exQuiet) n [] ⟨[], []⟩ = .ok (seen, h₁) ∧
    @Shelf.runCaught _ _ x32 demoSurround' (quietStubborn (fun _ => 0) exQuiet.reverse) n [] ⟨[], []⟩
      = .ok (seen, h₂) := by
  refine C99_with_panics_caught x64 x32 demoSurround demoSurround' ⟨rfl, rfl, rfl, rfl⟩ u32Ty_lawful
    (u32AsOther_lawful x32) u32Ty_lawful.eq.refl (fun l => l.reverse_perm) (fun l => .refl l) _ _
    (fun seen => ?_) (fun seen => ?_)
    (quietStubborn_fine (by intro f g h; cases h) _ exQuiet_distinct (by decide))
    (quietStubborn_fine (by intro f g h; cases h) _ exQuiet_distinct' (by decide)) n
  · unfold quietStubborn
    split
    · exact .newMap _ _ _ _ (List.reverse_perm _).symm
    all_goals exact .other _
  · unfold quietStubborn
    split <;> exact id

/-- What they see: two of the five actions panic. -/
example : (@Shelf.runCaught _ _ x32 demoSurround' (quietStubborn (fun _ => 0) exQuiet.reverse) 5 []
      ⟨[], []⟩).map (·.1)
    = .ok [some .done, none, some (.saw (.value (some 2))), none, some (.saw (.value (some 20)))] := by
  decide +kernel

/-- Listing the map afterwards: both runs list the same pairs. -/
example : ∃ l₁ l₂ : List (UInt32 × Int), l₁.Perm l₂ ∧
    ∃ seen₁ seen₂ h₁ h₂ h₁' h₂',
      @Shelf.run _ _ x64 demoSurround (quietProg demoHasher exQuiet) 4 [] ⟨[], []⟩ = .ok (seen₁, h₁) ∧
      @Shelf.run _ _ x32 demoSurround' (quietProg (fun _ => 0) exQuiet.reverse) 4 [] ⟨[], []⟩
        = .ok (seen₂, h₂) ∧
      @Shelf.perform _ _ x64 demoSurround h₁ (.onMap 0 .iter) = .ok (.saw (.items l₁), h₁') ∧
      @Shelf.perform _ _ x32 demoSurround' h₂ (.onMap 0 .iter) = .ok (.saw (.items l₂), h₂') := by
  obtain ⟨⟨seen₁, h₁⟩, hr₁⟩ := Res.of_isOk
    (r := @Shelf.run _ _ x64 demoSurround (quietProg demoHasher exQuiet) 4 [] ⟨[], []⟩) (by decide +kernel)
  obtain ⟨⟨seen₂, h₂⟩, hr₂⟩ := Res.of_isOk
    (r := @Shelf.run _ _ x32 demoSurround' (quietProg (fun _ => 0) exQuiet.reverse) 4 [] ⟨[], []⟩)
    (by decide +kernel)
  have hone₁ : (@Shelf.run _ _ x64 demoSurround (quietProg demoHasher exQuiet) 4 [] ⟨[], []⟩).map
      (fun r => r.2.maps.length) = .ok 1 := by decide +kernel
  rw [hr₁] at hone₁
  have hone₂ : (@Shelf.run _ _ x32 demoSurround' (quietProg (fun _ => 0) exQuiet.reverse) 4 [] ⟨[], []⟩).map
      (fun r => r.2.maps.length) = .ok 1 := by decide +kernel
  rw [hr₂] at hone₂
  obtain ⟨m₁, hm₁⟩ := List.length_eq_one_iff.1 (by simpa using hone₁)
  obtain ⟨m₂, hm₂⟩ := List.length_eq_one_iff.1 (by simpa using hone₂)
  have h := C99_then_any_action x64 x32 demoSurround demoSurround' ⟨rfl, rfl, rfl, rfl⟩ u32Ty_lawful
    (u32AsOther_lawful x32) u32Ty_lawful.eq.refl (fun l => l.reverse_perm) (fun l => .refl l) _ _
    quietProg_same (quietProg_quiet _ _)
    (quietProg_fine (by intro f g h; cases h) _ exQuiet_distinct (by decide))
    (quietProg_fine (by intro f g h; cases h) _ exQuiet_distinct' (by decide)) 4 _ _ _ _ hr₁ hr₂
    (.onMap 0 .iter) trivial trivial
  simp only [Shelf.perform, hm₁, hm₂] at h
  rcases h with ⟨h, _⟩ | ⟨r₁, r₂, h₁', h₂', e₁, e₂, hs⟩
  · cases h
  · cases e₁
    cases e₂
    refine ⟨_, _, hs, seen₁, seen₂, h₁, h₂, ⟨h₁.maps.set 0 m₁, h₁.sets⟩, ⟨h₂.maps.set 0 m₂, h₂.sets⟩,
      hr₁, hr₂, ?_, ?_⟩
    · simp only [Shelf.perform, hm₁]; rfl
    · simp only [Shelf.perform, hm₂]; rfl

/-- A program that lists the values, writes their sum, and reads it. -/
def tallyProg (bh : Hasher) (p : List (UInt32 × Int)) (seen : List (Reply UInt32 Int)) : Cmd UInt32 Int :=
  if seen.length = 0 then .newMap p bh
  else if seen.length = 1 then .onMap 0 .values
  else if seen.length = 2 then
    match seen.getLast? with
    | some (.saw (.values l)) => .onMap 0 (.getMut 1 l.sum)
    | _ => .onMap 0 .len
  else .onMap 0 (.get 1)

theorem SameSeen.length_eq {eq : K → K → Bool} {prog : List (Reply K V) → Cmd K V}
    {s s' : List (Reply K V)} (h : SameSeen eq prog s s') : s.length = s'.length := by
  induction h with
  | nil => rfl
  | snoc _ _ ih => simp [ih]

theorem tallyProg_fine {ty : KeyTy UInt32} (hk : ∀ f g, ty.kind ≠ .string f g) (bh : Hasher)
    {p : List (UInt32 × Int)} (hd : DistinctKeys ty.eq p) (hl : p.length < 2 ^ 31)
    (seen : List (Reply UInt32 Int)) : (tallyProg bh p seen).Fine ty := by
  unfold tallyProg
  repeat' split
  all_goals first
    | trivial
    | exact ⟨hd, hl, fun f g h => absurd h (hk f g)⟩

/-- The sum does not depend on the order. -/
theorem tallyProg_same {eq : UInt32 → UInt32 → Bool} {bh bh' : Hasher} {p q : List (UInt32 × Int)}
    (hpq : p.Perm q) (s s' : List (Reply UInt32 Int)) (h : SameSeen eq (tallyProg bh p) s s') :
    (tallyProg bh p s).SameBut (tallyProg bh' q s') := by
  have hl := h.length_eq
  unfold tallyProg
  rw [← hl]
  split
  · exact .newMap _ _ _ _ hpq
  split
  · exact .other _
  split
  · rename_i _ _ h2
    cases h with
    | nil => cases h2
    | @snoc s s' r r' h hr =>
      have h1 : s.length = 1 := by simpa using h2
      rw [List.getLast?_concat, List.getLast?_concat]
      have hc : tallyProg bh p s = .onMap 0 .values := by unfold tallyProg; simp [h1]
      rw [hc] at hr
      cases r with
      | saw o =>
        cases r' with
        | saw o' =>
          cases o <;> cases o' <;> simp only [Reply.SaysSame, Out.Agree, reduceCtorEq] at hr <;>
            first
              | exact hr.elim
              | exact .other _
              | (dsimp only; rw [List.Perm.sum_eq hr]; exact .other _)
        | _ => cases hr
      | _ => cases r' <;> first | exact .other _ | cases hr
  · exact .other _

/-- Two runs of it, listing in whatever order. -/
example (n : Nat) :
    (programSees x64 demoSurround (tallyProg demoHasher exQuiet) n = .panic ∧
      programSees x32 demoSurround' (tallyProg (fun _ => 0) exQuiet.reverse) n = .panic) ∨
    ∃ seen₁ seen₂, programSees x64 demoSurround (tallyProg demoHasher exQuiet) n = .ok seen₁ ∧
      programSees x32 demoSurround' (tallyProg (fun _ => 0) exQuiet.reverse) n = .ok seen₂ ∧
      SameSeen u32Ty.eq (tallyProg demoHasher exQuiet) seen₁ seen₂ :=
  C99_listing_programs x64 x32 demoSurround demoSurround' ⟨rfl, rfl, rfl, rfl⟩ u32Ty_lawful
    (u32AsOther_lawful x32) u32Ty_lawful.eq.refl (fun l => l.reverse_perm) (fun l => .refl l) _ _
    (tallyProg_same (List.reverse_perm _).symm)
    (tallyProg_fine (by intro f g h; cases h) _ exQuiet_distinct (by decide))
    (tallyProg_fine (by intro f g h; cases h) _ exQuiet_distinct' (by decide)) n

/-- The two runs do list in different orders, and then write and read the same sum. -/
example :
    programSees x64 demoSurround (tallyProg demoHasher exQuiet) 4
      ≠ programSees x32 demoSurround' (tallyProg (fun _ => 0) exQuiet.reverse) 4 ∧
    (programSees x64 demoSurround (tallyProg demoHasher exQuiet) 4).map (·.getLast?)
      = .ok (some (.saw (.value (some 16)))) ∧
    (programSees x32 demoSurround' (tallyProg (fun _ => 0) exQuiet.reverse) 4).map (·.getLast?)
      = .ok (some (.saw (.value (some 16)))) := by
  decide +kernel

/-- A program that lists the keys and indexes with the number of them; then it lists again. -/
def boldProg (bh : Hasher) (p : List (UInt32 × Int)) (seen : List (Option (Reply UInt32 Int))) :
    Cmd UInt32 Int :=
  if seen.length = 0 then .newMap p bh
  else if seen.length = 1 then .onMap 0 .keys
  else if seen.length = 2 then
    match seen.getLast? with
    | some (some (.saw (.keys l))) => .onMap 0 (.index (UInt32.ofNat (l.length + 2)))
    | _ => .onMap 0 .len
  else .onMap 0 .iter

theorem SameSeenCaught.length_eq {eq : K → K → Bool} {prog : List (Option (Reply K V)) → Cmd K V}
    {s s' : List (Option (Reply K V))} (h : SameSeenCaught eq prog s s') : s.length = s'.length := by
  induction h with
  | nil => rfl
  | snoc _ _ ih => simp [ih]
  | panicked _ ih => simp [ih]

theorem boldProg_fine {ty : KeyTy UInt32} (hk : ∀ f g, ty.kind ≠ .string f g) (bh : Hasher)
    {p : List (UInt32 × Int)} (hd : DistinctKeys ty.eq p) (hl : p.length < 2 ^ 31)
    (seen : List (Option (Reply UInt32 Int))) : (boldProg bh p seen).Fine ty := by
  unfold boldProg
  repeat' split
  all_goals first
    | trivial
    | exact ⟨hd, hl, fun f g h => absurd h (hk f g)⟩

theorem boldProg_same {eq : UInt32 → UInt32 → Bool} {bh bh' : Hasher} {p q : List (UInt32 × Int)}
    (hpq : p.Perm q) (s s' : List (Option (Reply UInt32 Int))) (h : SameSeenCaught eq (boldProg bh p) s s') :
    (boldProg bh p s).SameBut (boldProg bh' q s') := by
  have hl := h.length_eq
  unfold boldProg
  rw [← hl]
  split
  · exact .newMap _ _ _ _ hpq
  split
  · exact .other _
  split
  · rename_i _ _ h2
    cases h with
    | nil => cases h2
    | panicked => rw [List.getLast?_concat, List.getLast?_concat]; exact .other _
    | @snoc s s' r r' h hr =>
      have h1 : s.length = 1 := by simpa using h2
      rw [List.getLast?_concat, List.getLast?_concat]
      have hc : boldProg bh p s = .onMap 0 .keys := by unfold boldProg; simp [h1]
      rw [hc] at hr
      cases r with
      | saw o =>
        cases r' with
        | saw o' =>
          cases o <;> cases o' <;> simp only [Reply.SaysSame, Out.Agree, reduceCtorEq] at hr <;>
            first
              | exact hr.elim
              | exact .other _
              | (dsimp only; rw [List.Perm.length_eq hr]; exact .other _)
        | _ => cases hr
      | _ => cases r' <;> first | exact .other _ | cases hr
  · exact .other _

example (n : Nat) : ∃ seen₁ seen₂ h₁ h₂,
    @Shelf.runCaught _ _ x64 demoSurround (boldProg demoHasher exQuiet) n [] ⟨[], []⟩ = .ok (seen₁, h₁) ∧
    @Shelf.runCaught _ _ x32 demoSurround' (boldProg (fun _ => 0) exQuiet.reverse) n [] ⟨[], []⟩
      = .ok (seen₂, h₂) ∧
    SameSeenCaught u32Ty.eq (boldProg demoHasher exQuiet) seen₁ seen₂ :=
  C99_listing_and_catching x64 x32 demoSurround demoSurround' ⟨rfl, rfl, rfl, rfl⟩ u32Ty_lawful
    (u32AsOther_lawful x32) u32Ty_lawful.eq.refl (fun l => l.reverse_perm) (fun l => .refl l) _ _
    (boldProg_same (List.reverse_perm _).symm)
    (boldProg_fine (by intro f g h; cases h) _ exQuiet_distinct (by decide))
    (boldProg_fine (by intro f g h; cases h) _ exQuiet_distinct' (by decide)) n

/-- The third action panics, and the fourth still lists five pairs. -/
example : (@Shelf.runCaught _ _ x64 demoSurround (boldProg demoHasher exQuiet) 4 [] ⟨[], []⟩).map
      (fun r => (r.1.length, r.1[2]?)) = .ok (4, some none) ∧
    (@Shelf.runCaught _ _ x32 demoSurround' (boldProg (fun _ => 0) exQuiet.reverse) 4 [] ⟨[], []⟩).map
      (fun r => r.1.drop 2)
      = .ok [none, some (.saw (.items [(1, 6), (9000, 4), (5, 3), (500, 2), (10, 1)]))] := by
  decide +kernel

end FC
