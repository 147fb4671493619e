import Mathlib.Data.List.Perm.Subperm
import Verif.Spec.Average
import Verif.Lemmas.TotalCost
import Verif.Props.HashAnalysis

/-
Helper lemmas for C84.
-/

set_option autoImplicit false

namespace FC
variable {A Q : Type}

/-- Among different numbers below `N`, at most `N / m + 1` leave the same remainder. -/
theorem same_remainder_le {N m : Nat} (hm : 0 < m) (d : Nat) {l : List Nat} (hl : l.Nodup)
    (hN : ∀ x ∈ l, x < N) : (l.filter (fun c => d % m = c % m)).length ≤ N / m + 1 := by
  have hnd : ((l.filter (fun c => d % m = c % m)).map (· / m)).Nodup := by
    refine List.Nodup.map_on ?_ (hl.filter _)
    intro x hx y hy hxy
    simp only [List.mem_filter, decide_eq_true_eq] at hx hy
    rw [← Nat.div_add_mod x m, ← Nat.div_add_mod y m, ← hx.2, ← hy.2, hxy]
  have hsub : (l.filter (fun c => d % m = c % m)).map (· / m) ⊆ List.range (N / m + 1) := by
    intro x hx
    simp only [List.mem_map, List.mem_filter] at hx
    obtain ⟨y, ⟨hy, _⟩, rfl⟩ := hx
    exact List.mem_range.2 (Nat.lt_succ_of_le (Nat.div_le_div_right (hN y hy).le))
  have := (hnd.subperm hsub).length_le
  simpa using this

theorem sum_swap (m : Nat) (codes probes : List Nat) :
    (probes.map (fun c => (codes.filter (fun d => d % m = c % m)).length)).sum
      = (codes.map (fun d => (probes.filter (fun c => d % m = c % m)).length)).sum := by
  induction codes with
  | nil => simp
  | cons d codes ih =>
    rw [List.map_cons, List.sum_cons, ← ih]
    clear ih
    induction probes with
    | nil => simp
    | cons c probes ih =>
      rw [List.map_cons, List.sum_cons, ih]
      simp only [List.map_cons, List.sum_cons, List.filter_cons]
      by_cases h : d % m = c % m
      · simp [h]; omega
      · simp [h]; omega

theorem sum_le_mul {A : Type} (f : A → Nat) (b : Nat) :
    ∀ l : List A, (∀ x ∈ l, f x ≤ b) → (l.map f).sum ≤ l.length * b
  | [], _ => by simp
  | x :: l, h => by
    have h1 := h x (by simp)
    have h2 := sum_le_mul f b l (fun y hy => h y (by simp [hy]))
    simp only [List.map_cons, List.sum_cons, List.length_cons, Nat.succ_mul]
    omega

theorem cheapMisses_of {n N : Nat} {lookup : Q → Res (Option A × Nat)} {code : Q → Nat}
    {absent : Q → Prop} {codes : List Nat} (hn : codes.length = n) {r : HashAnalysis}
    (hr : analyzeHashCodes codes = .ok r)
    (h : ∀ q, absent q → lookup q = .ok (none,
      (codes.filter (fun d => d % r.numHashSlots = code q % r.numHashSlots)).length)) :
    CheapMisses n N lookup code absent := by
  intro probes hp hnd
  refine ⟨probes.map (fun q =>
    (codes.filter (fun d => d % r.numHashSlots = code q % r.numHashSlots)).length), ?_, ?_⟩
  · rw [List.forall₂_map_right_iff, List.forall₂_same]
    exact fun q hq => h q (hp q hq).1
  · have hsum : (probes.map (fun q =>
        (codes.filter (fun d => d % r.numHashSlots = code q % r.numHashSlots)).length)).sum
        = (codes.map (fun d => ((probes.map code).filter
          (fun c => d % r.numHashSlots = c % r.numHashSlots)).length)).sum := by
      rw [← sum_swap, List.map_map]
      rfl
    rw [hsum]
    by_cases hne : codes = []
    · subst hne
      simp
    obtain ⟨r', hr', hb⟩ := C18_bounds codes
    rw [hr] at hr'
    cases hr'
    obtain ⟨hpos, hmin, hsmall, _⟩ := hb hne
    have hle := sum_le_mul (fun d => ((probes.map code).filter
      (fun c => d % r.numHashSlots = c % r.numHashSlots)).length) (N / r.numHashSlots + 1) codes
      (fun d _ => same_remainder_le hpos d hnd (fun x hx => by
        obtain ⟨q, hq, rfl⟩ := List.mem_map.1 hx
        exact (hp q hq).2))
    rw [hn] at hmin hsmall hle
    generalize (codes.map (fun d => ((probes.map code).filter
      (fun c => d % r.numHashSlots = c % r.numHashSlots)).length)).sum = s at hle ⊢
    have hdiv : r.numHashSlots * (N / r.numHashSlots) ≤ N := Nat.mul_div_le _ _
    rw [Nat.mul_add, Nat.mul_one] at hle
    generalize N / r.numHashSlots = t at hle hdiv
    refine ⟨?_, fun h128 => ?_⟩
    · have h1 : 19 * n ≤ 20 * r.numHashSlots := by omega
      have h2 : 19 * n * t ≤ 20 * r.numHashSlots * t := Nat.mul_le_mul_right _ h1
      rw [Nat.mul_assoc, Nat.mul_assoc] at h2
      omega
    · have h2 := Nat.mul_le_mul_right t (hsmall h128).1
      omega

end FC
