import Verif.Lemmas.Equality

/-
Set-operation iterators: what they have left to yield.
-/

set_option autoImplicit false

namespace FC
variable [Target]
variable {T : Type}

/-! ### Iterators described by what they have left -/

/-- `rest` describes `next`: it yields the head and goes on with the tail. -/
def Describes {σ : Type} (next : σ → Res (Option T × σ)) (inv : σ → Prop) (rest : σ → List T) :
    Prop :=
  ∀ s, inv s → ∃ s', next s = .ok ((rest s).head?, s') ∧ rest s' = (rest s).tail ∧ inv s'

omit [Target] in
theorem Describes.drain {σ : Type} {next : σ → Res (Option T × σ)} {inv : σ → Prop}
    {rest : σ → List T} (h : Describes next inv rest) (size : σ → Nat)
    (hdec : ∀ s x s', next s = .ok (some x, s') → size s' < size s) :
    ∀ (l : List T) (s : σ), inv s → rest s = l → FC.drain next size hdec s = .ok l := by
  intro l
  induction l with
  | nil =>
    intro s hs hl
    obtain ⟨s', h1, _, _⟩ := h s hs
    rw [hl] at h1
    unfold FC.drain
    split
    · rename_i h2; rw [h1] at h2; simp at h2
    · rfl
    · rename_i h2; rw [h1] at h2; cases h2
    · rename_i h2; rw [h1] at h2; cases h2
  | cons x l ih =>
    intro s hs hl
    obtain ⟨s', h1, h2, h3⟩ := h s hs
    rw [hl] at h1 h2
    unfold FC.drain
    split
    · rename_i h4
      rw [h1] at h4
      simp only [List.head?_cons, Res.ok.injEq, Prod.mk.injEq, Option.some.injEq] at h4
      obtain ⟨rfl, rfl⟩ := h4
      rw [ih s' h3 h2]
    · rename_i h4; rw [h1] at h4; simp at h4
    · rename_i h4; rw [h1] at h4; cases h4
    · rename_i h4; rw [h1] at h4; cases h4

omit [Target] in
theorem firstCalls_succ {α : Type} (l : List α) (n : Nat) :
    firstCalls l (n + 1) = l.head? :: firstCalls l.tail n := by
  cases l <;> simp [firstCalls, List.range_succ_eq_map, Function.comp_def]

omit [Target] in
theorem Describes.rcalls {σ : Type} {next : σ → Res (Option T × σ)} {inv : σ → Prop}
    {rest : σ → List T} (h : Describes next inv rest) :
    ∀ (n : Nat) (s : σ), inv s →
      ∃ s', FC.rcalls next n s = .ok (firstCalls (rest s) n, s') ∧ rest s' = (rest s).drop n ∧
        inv s' := by
  intro n
  induction n with
  | zero => intro s hs; exact ⟨s, rfl, rfl, hs⟩
  | succ n ih =>
    intro s hs
    obtain ⟨s', h1, h2, h3⟩ := h s hs
    obtain ⟨s'', g1, g2, g3⟩ := ih s' h3
    refine ⟨s'', ?_, by rw [g2, h2]; simp, g3⟩
    unfold FC.rcalls
    rw [h1]
    simp only [Res.ok_bind, g1, Res.pure_eq, h2, firstCalls_succ]

/-! ### The four iterators -/

omit [Target] in
theorem skipTo_eq {contains : T → Res Bool} {c : T → Bool} (h : ∀ x, contains x = .ok (c x))
    (want : Bool) (l : List T) :
    ∃ rest, skipTo want contains l = .ok ((l.filter (fun x => c x == want)).head?, rest) ∧
      rest.filter (fun x => c x == want) = (l.filter (fun x => c x == want)).tail := by
  induction l with
  | nil => exact ⟨[], rfl, rfl⟩
  | cons x xs ih =>
    unfold skipTo
    rw [h x]
    simp only
    by_cases hx : c x = want
    · rw [if_pos hx]
      exact ⟨xs, by simp [hx], by simp [hx]⟩
    · rw [if_neg hx]
      obtain ⟨rest, h1, h2⟩ := ih
      exact ⟨rest, by rw [h1]; simp [hx], by rw [h2]; simp [hx]⟩

/-! What each iterator has left, given what `contains` answers. -/

def unionRest (c1 c2 : T → Bool) (s : BinIter T) : List T :=
  if s.s1.len > s.s2.len then s.it1 ++ s.it2.filter (fun x => c1 x == false)
  else s.it2 ++ s.it1.filter (fun x => c2 x == false)

def symDiffRest (c1 c2 : T → Bool) (s : BinIter T) : List T :=
  s.it1.filter (fun x => c2 x == false) ++ s.it2.filter (fun x => c1 x == false)

def differenceRest (c2 : T → Bool) (s : BinIter T) : List T :=
  s.it1.filter (fun x => c2 x == false)

def intersectionRest (c1 c2 : T → Bool) (s : BinIter T) : List T :=
  if s.s1.len < s.s2.len then s.it1.filter (fun x => c2 x == true)
  else s.it2.filter (fun x => c1 x == true)

/-- The sets an iterator refers to stay the same. -/
def Over (a b : SetI T) (s : BinIter T) : Prop := s.s1 = a ∧ s.s2 = b

omit [Target] in
theorem union_describes {c1 c2 : T → Bool} {a b : SetI T}
    (ha : ∀ x, a.contains x = .ok (c1 x)) (hb : ∀ x, b.contains x = .ok (c2 x)) :
    Describes BinIter.unionNext (Over a b) (unionRest c1 c2) := by
  rintro ⟨s1, it1, s2, it2⟩ ⟨rfl, rfl⟩
  simp only at ha hb
  unfold BinIter.unionNext unionRest
  simp only
  by_cases hl : s1.len > s2.len
  · simp only [if_pos hl]
    cases it1 with
    | cons x xs => exact ⟨⟨s1, xs, s2, it2⟩, rfl, by simp only [if_pos hl]; rfl, rfl, rfl⟩
    | nil =>
      obtain ⟨rest, h1, h2⟩ := skipTo_eq ha false it2
      exact ⟨⟨s1, [], s2, rest⟩, by rw [h1]; rfl, by simp only [if_pos hl]; exact h2, rfl, rfl⟩
  · simp only [if_neg hl]
    cases it2 with
    | cons x xs => exact ⟨⟨s1, it1, s2, xs⟩, rfl, by simp only [if_neg hl]; rfl, rfl, rfl⟩
    | nil =>
      obtain ⟨rest, h1, h2⟩ := skipTo_eq hb false it1
      exact ⟨⟨s1, rest, s2, []⟩, by rw [h1]; rfl, by simp only [if_neg hl]; exact h2, rfl, rfl⟩

omit [Target] in
theorem symDiff_describes {c1 c2 : T → Bool} {a b : SetI T}
    (ha : ∀ x, a.contains x = .ok (c1 x)) (hb : ∀ x, b.contains x = .ok (c2 x)) :
    Describes BinIter.symDiffNext (Over a b) (symDiffRest c1 c2) := by
  rintro ⟨s1, it1, s2, it2⟩ ⟨rfl, rfl⟩
  simp only at ha hb
  unfold BinIter.symDiffNext symDiffRest
  simp only
  obtain ⟨rest, h1, h2⟩ := skipTo_eq hb false it1
  obtain ⟨rest2, h3, h4⟩ := skipTo_eq ha false it2
  rw [h1]
  cases hf : it1.filter (fun x => c2 x == false) with
  | cons x xs =>
    rw [hf] at h2
    exact ⟨⟨s1, rest, s2, it2⟩, rfl, by simp only [h2]; rfl, rfl, rfl⟩
  | nil =>
    rw [hf] at h2
    refine ⟨⟨s1, rest, s2, rest2⟩, by rw [List.head?_nil]; simp only; rw [h3]; simp, ?_, rfl, rfl⟩
    simp only [h2, h4, List.nil_append, List.tail_nil]

omit [Target] in
theorem difference_describes {c2 : T → Bool} {a b : SetI T}
    (hb : ∀ x, b.contains x = .ok (c2 x)) :
    Describes BinIter.differenceNext (Over a b) (differenceRest c2) := by
  rintro ⟨s1, it1, s2, it2⟩ ⟨rfl, rfl⟩
  simp only at hb
  unfold BinIter.differenceNext differenceRest
  simp only
  obtain ⟨rest, h1, h2⟩ := skipTo_eq hb false it1
  rw [h1]
  exact ⟨⟨s1, rest, s2, it2⟩, rfl, h2, rfl, rfl⟩

omit [Target] in
theorem intersection_describes {c1 c2 : T → Bool} {a b : SetI T}
    (ha : ∀ x, a.contains x = .ok (c1 x)) (hb : ∀ x, b.contains x = .ok (c2 x)) :
    Describes BinIter.intersectionNext (Over a b) (intersectionRest c1 c2) := by
  rintro ⟨s1, it1, s2, it2⟩ ⟨rfl, rfl⟩
  simp only at ha hb
  unfold BinIter.intersectionNext intersectionRest
  simp only
  by_cases hl : s1.len < s2.len
  · rw [if_pos hl, if_pos hl]
    obtain ⟨rest, h1, h2⟩ := skipTo_eq hb true it1
    rw [h1]
    exact ⟨⟨s1, rest, s2, it2⟩, rfl, by simp only [if_pos hl]; exact h2, rfl, rfl⟩
  · rw [if_neg hl, if_neg hl]
    obtain ⟨rest, h1, h2⟩ := skipTo_eq ha true it2
    rw [h1]
    exact ⟨⟨s1, it1, s2, rest⟩, rfl, by simp only [if_neg hl]; exact h2, rfl, rfl⟩

/-! ### Consistent sets -/

omit [Target] in
/-- `contains` as a total test. -/
theorem Consistent.total {eq : T → T → Bool} {s : SetI T} (h : Consistent eq s) :
    ∃ c : T → Bool, (∀ x, s.contains x = .ok (c x)) ∧ ∀ x, (c x = true ↔ Has eq s.iter x) := by
  classical
  refine ⟨fun x => decide (Has eq s.iter x), fun x => ?_, fun x => by simp⟩
  obtain ⟨b, h1, h2⟩ := h.contains x
  rw [h1]
  congr 1
  cases b <;> simp_all

omit [Target] in
theorem has_congr {eq : T → T → Bool} (heq : LawfulEq eq) {l : List T} {x y : T}
    (h : eq x y = true) : Has eq l x ↔ Has eq l y := by
  constructor
  · rintro ⟨z, hz, hxz⟩; exact ⟨z, hz, heq.trans _ _ _ (heq.symm _ _ h) hxz⟩
  · rintro ⟨z, hz, hyz⟩; exact ⟨z, hz, heq.trans _ _ _ h hyz⟩

omit [Target] in
theorem has_of_mem {eq : T → T → Bool} (heq : LawfulEq eq) {l : List T} {x : T} (h : x ∈ l) :
    Has eq l x := ⟨x, h, heq.refl x⟩

omit [Target] in
theorem has_filter {eq : T → T → Bool} {l : List T} {p : T → Bool}
    (hp : ∀ x y, eq x y = true → p x = p y) (x : T) :
    Has eq (l.filter p) x ↔ Has eq l x ∧ p x = true := by
  constructor
  · rintro ⟨y, hy, hxy⟩
    rw [List.mem_filter] at hy
    exact ⟨⟨y, hy.1, hxy⟩, by rw [hp _ _ hxy]; exact hy.2⟩
  · rintro ⟨⟨y, hy, hxy⟩, h⟩
    exact ⟨y, List.mem_filter.2 ⟨hy, by rw [← hp _ _ hxy]; exact h⟩, hxy⟩

omit [Target] in
theorem has_append {eq : T → T → Bool} {l l' : List T} (x : T) :
    Has eq (l ++ l') x ↔ Has eq l x ∨ Has eq l' x := by
  simp only [Has, List.mem_append, or_and_right, exists_or]

omit [Target] in
theorem test_congr {eq : T → T → Bool} (heq : LawfulEq eq) {l : List T} {c : T → Bool}
    (hc : ∀ x, (c x = true ↔ Has eq l x)) (x y : T) (h : eq x y = true) : c x = c y := by
  have := has_congr heq (l := l) h
  rw [← hc, ← hc] at this
  cases hx : c x <;> cases hy : c y <;> simp_all

omit [Target] in
/-- Items of one list not in another follow the other without repeats. -/
theorem distinct_append {eq : T → T → Bool} (heq : LawfulEq eq) {l l' : List T} (h : Distinct eq l)
    (h' : Distinct eq l') (hd : ∀ y ∈ l', ¬ Has eq l y) : Distinct eq (l ++ l') := by
  unfold Distinct
  rw [List.pairwise_append]
  refine ⟨h, h', fun a ha b hb => ?_⟩
  cases hab : eq a b with
  | false => rfl
  | true => exact absurd ⟨a, ha, heq.symm _ _ hab⟩ (hd b hb)

omit [Target] in
theorem distinct_filter {eq : T → T → Bool} {l : List T} (h : Distinct eq l) (p : T → Bool) :
    Distinct eq (l.filter p) := List.Pairwise.filter p h

end FC
