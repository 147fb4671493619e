import Verif.Model.Maps

/-
Facts about linear scans and hash-table lookups.
-/

set_option autoImplicit false

namespace FC
variable [Target]
variable {K V Q : Type}

omit [Target] in
theorem scan_none {eq : Q → Q → Bool} {borrow : K → Q} {q : Q} {i : Nat} {l : List (K × V)} :
    scan eq borrow q i l = none ↔ ∀ e ∈ l, eq q (borrow e.1) = false := by
  induction l generalizing i with
  | nil => simp [scan]
  | cons e es ih =>
    unfold scan
    cases h : eq q (borrow e.1) with
    | true => simp [h]
    | false => simp [h, ih]

omit [Target] in
theorem scan_some {eq : Q → Q → Bool} {borrow : K → Q} {q : Q} {i : Nat} {l : List (K × V)}
    {k : K} {r : Ref V} (h : scan eq borrow q i l = some (k, r)) :
    i ≤ r.idx ∧ l[r.idx - i]? = some (k, r.val) ∧ eq q (borrow k) = true ∧
      ∀ (j : Nat) (e : K × V), j < r.idx - i → l[j]? = some e → eq q (borrow e.1) = false := by
  induction l generalizing i with
  | nil => simp [scan] at h
  | cons e es ih =>
    unfold scan at h
    split at h
    · rename_i heq
      simp only [Option.some.injEq, Prod.mk.injEq] at h
      obtain ⟨rfl, rfl⟩ := h
      refine ⟨le_rfl, by simp, heq, ?_⟩
      intro j e hj
      simp at hj
    · rename_i heq
      obtain ⟨h1, h2, h3, h4⟩ := ih h
      have hidx : r.idx - i = (r.idx - (i + 1)) + 1 := by omega
      refine ⟨by omega, by rw [hidx, List.getElem?_cons_succ]; exact h2, h3, ?_⟩
      intro j e' hj hje
      cases j with
      | zero =>
        simp at hje
        subst hje
        simpa using heq
      | succ j =>
        rw [List.getElem?_cons_succ] at hje
        exact h4 j e' (by omega) hje

omit [Target] in
/-- Scanning skips a prefix without matches. -/
theorem scan_append_left {eq : Q → Q → Bool} {borrow : K → Q} {q : Q} {i : Nat}
    {l₁ l₂ : List (K × V)} (h : ∀ e ∈ l₁, eq q (borrow e.1) = false) :
    scan eq borrow q i (l₁ ++ l₂) = scan eq borrow q (i + l₁.length) l₂ := by
  induction l₁ generalizing i with
  | nil => simp
  | cons e es ih =>
    have he := h e List.mem_cons_self
    simp only [List.cons_append, scan, he, Bool.false_eq_true, if_false]
    rw [ih (fun e' h' => h e' (List.mem_cons_of_mem _ h'))]
    have : i + 1 + es.length = i + (e :: es).length := by simp only [List.length_cons]; omega
    rw [this]

omit [Target] in
/-- Scanning ignores a suffix without matches. -/
theorem scan_append_right {eq : Q → Q → Bool} {borrow : K → Q} {q : Q} {i : Nat}
    {l₁ l₂ : List (K × V)} (h : ∀ e ∈ l₂, eq q (borrow e.1) = false) :
    scan eq borrow q i (l₁ ++ l₂) = scan eq borrow q i l₁ := by
  induction l₁ generalizing i with
  | nil => simpa [scan] using scan_none.2 h
  | cons e es ih => simp only [List.cons_append, scan, ih]

omit [Target] in
/-- Scanning a slice that contains every match is scanning everything. -/
theorem scan_slice {eq : Q → Q → Bool} {borrow : K → Q} {q : Q} {l : List (K × V)} {a b : Nat}
    (hab : a ≤ b) (hbl : b ≤ l.length)
    (hout : ∀ j e, l[j]? = some e → eq q (borrow e.1) = true → a ≤ j ∧ j < b) :
    scan eq borrow q a ((l.drop a).take (b - a)) = scan eq borrow q 0 l := by
  have hsplit : l = l.take a ++ ((l.drop a).take (b - a) ++ l.drop b) := by
    have h1 : (l.drop a).take (b - a) ++ l.drop b = l.drop a := by
      have : l.drop b = (l.drop a).drop (b - a) := by rw [List.drop_drop]; congr 1; omega
      rw [this, List.take_append_drop]
    rw [h1, List.take_append_drop]
  conv_rhs => rw [hsplit]
  rw [scan_append_left, scan_append_right]
  · congr 1
    simp
    omega
  · intro e he
    obtain ⟨j, hj⟩ := List.getElem?_of_mem he
    rw [List.getElem?_drop] at hj
    cases hm : eq q (borrow e.1) with
    | false => rfl
    | true => have := hout _ _ hj hm; omega
  · intro e he
    obtain ⟨j, hj⟩ := List.getElem?_of_mem he
    rw [List.getElem?_take] at hj
    split at hj
    · cases hm : eq q (borrow e.1) with
      | false => rfl
      | true => have := hout _ _ hj hm; omega
    · simp at hj

omit [Target] in
/-- Scanning after renaming the keys. -/
theorem scan_map {K' Q' : Type} {eq : Q → Q → Bool} {borrow : K → Q} {q : Q}
    {eq' : Q' → Q' → Bool} {borrow' : K' → Q'} {q' : Q'} {f : K → K'} {i : Nat} {l : List (K × V)}
    (h : ∀ e ∈ l, eq' q' (borrow' (f e.1)) = eq q (borrow e.1)) :
    scan eq' borrow' q' i (l.map (fun e => (f e.1, e.2)))
      = (scan eq borrow q i l).map (fun r => (f r.1, r.2)) := by
  induction l generalizing i with
  | nil => simp [scan]
  | cons e es ih =>
    simp only [List.map_cons, scan, h e List.mem_cons_self]
    split
    · simp
    · exact ih (fun e' he' => h e' (List.mem_cons_of_mem _ he'))

omit [Target] in
/-- Scanning with two comparison functions that agree on the list. -/
theorem scan_congr {Q' : Type} {eq : Q → Q → Bool} {borrow : K → Q} {q : Q}
    {eq' : Q' → Q' → Bool} {borrow' : K → Q'} {q' : Q'} {i : Nat} {l : List (K × V)}
    (h : ∀ e ∈ l, eq' q' (borrow' e.1) = eq q (borrow e.1)) :
    scan eq' borrow' q' i l = scan eq borrow q i l := by
  induction l generalizing i with
  | nil => simp [scan]
  | cons e es ih =>
    simp only [scan, h e List.mem_cons_self]
    split
    · rfl
    · exact ih (fun e' he' => h e' (List.mem_cons_of_mem _ he'))

omit [Target] in
/-- A scan finds a given entry when it is the only match. -/
theorem scan_eq_of_unique {eq : Q → Q → Bool} {borrow : K → Q} {q : Q} {i j : Nat}
    {l : List (K × V)} {e : K × V} (hj : l[j]? = some e) (hm : eq q (borrow e.1) = true)
    (hu : ∀ j' e', j' < j → l[j']? = some e' → eq q (borrow e'.1) = false) :
    scan eq borrow q i l = some (e.1, ⟨i + j, e.2⟩) := by
  induction l generalizing i j with
  | nil => simp at hj
  | cons x xs ih =>
    cases j with
    | zero =>
      simp at hj
      subst hj
      simp [scan, hm]
    | succ j =>
      have hx := hu 0 x (by omega) (by simp)
      simp only [scan, hx]
      rw [List.getElem?_cons_succ] at hj
      rw [ih hj (fun j' e' h1 h2 => hu (j' + 1) e' (by omega) (by simpa using h2))]
      simp
      omega

end FC
