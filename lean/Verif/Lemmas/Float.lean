import Verif.Model.Float
import Verif.Lemmas.Primes
import Mathlib.Tactic.Linarith
import Mathlib.Tactic.Positivity
import Mathlib.Tactic.FieldSimp
import Mathlib.Data.Set.Finite.Lattice

/-
Rounding facts.
-/

set_option autoImplicit false

namespace FC
variable [Target]

omit [Target] in
theorem IsF64.ofNat {n : Nat} (h : n < 2 ^ 53) : IsF64 (n : ℝ) :=
  ⟨n, 0, by rw [abs_of_nonneg (by omega)]; exact_mod_cast h, by norm_num, by norm_num, by simp⟩

omit [Target] in
theorem IsF64.ofNat_le {n : Nat} (h : n ≤ 2 ^ 53) : IsF64 (n : ℝ) := by
  rcases Nat.lt_or_eq_of_le h with h | rfl
  · exact IsF64.ofNat h
  · exact ⟨1, 53, by norm_num, by norm_num, by norm_num, by norm_num⟩

omit [Target] in
theorem Rounds.fixed {rnd : ℝ → ℝ} (h : Rounds rnd) {x : ℝ} (hx : IsF64 x) : rnd x = x := by
  have := h.nearest x x hx
  rw [sub_self, abs_zero] at this
  have := abs_nonpos_iff.1 this
  linarith

omit [Target] in
/-- Rounding to nearest preserves order. -/
theorem Rounds.mono {rnd : ℝ → ℝ} (h : Rounds rnd) {x y : ℝ} (hxy : x ≤ y) : rnd x ≤ rnd y := by
  rcases eq_or_lt_of_le hxy with rfl | hlt
  · exact le_rfl
  by_contra hgt
  push Not at hgt
  have h1 := sq_le_sq.2 (h.nearest x (rnd y) (h.isF64 y))
  have h2 := sq_le_sq.2 (h.nearest y (rnd x) (h.isF64 x))
  nlinarith

omit [Target] in
/-- The literal `0.05`. -/
theorem Rounds.twentieth {rnd : ℝ → ℝ} (h : Rounds rnd) :
    rnd (1 / 20) = 3602879701896397 / 2 ^ 56 := by
  have hd : IsF64 (3602879701896397 / 2 ^ 56 : ℝ) :=
    ⟨3602879701896397, -56, by norm_num, by norm_num, by norm_num, by norm_num⟩
  have hn := h.nearest (1 / 20) _ hd
  have hdist : |(3602879701896397 / 2 ^ 56 : ℝ) - 1 / 20| = 1 / (5 * 2 ^ 56) := by
    rw [abs_of_nonneg (by norm_num)]; norm_num
  rw [hdist, abs_le] at hn
  obtain ⟨m, e, hm, he1, he2, hx⟩ := h.isF64 (1 / 20)
  rw [hx] at hn ⊢
  -- the exponent is at least -57
  have he : -57 ≤ e := by
    by_contra hlt
    push Not at hlt
    have h1 : (2 : ℝ) ^ e ≤ 2 ^ (-58 : ℤ) := zpow_le_zpow_right₀ (by norm_num) (by omega)
    have h2 : (m : ℝ) < 2 ^ 53 := by
      have := (abs_lt.1 hm).2
      exact_mod_cast this
    have h3 : (0 : ℝ) < (2 : ℝ) ^ e := zpow_pos (by norm_num) e
    have h4 : (m : ℝ) * (2 : ℝ) ^ e ≤ 2 ^ 53 * 2 ^ (-58 : ℤ) := by
      calc (m : ℝ) * (2 : ℝ) ^ e ≤ 2 ^ 53 * (2 : ℝ) ^ e := by nlinarith
        _ ≤ 2 ^ 53 * 2 ^ (-58 : ℤ) := by nlinarith
    have h5 : (2 : ℝ) ^ 53 * 2 ^ (-58 : ℤ) = 1 / 32 := by norm_num
    have h6 : (1 : ℝ) / (5 * 2 ^ 56) < 1 / 100 := by norm_num
    rw [h5] at h4
    linarith [hn.1]
  obtain ⟨k, hk⟩ : ∃ k : Nat, e = (k : ℤ) - 57 := ⟨(e + 57).toNat, by omega⟩
  have hpow : (2 : ℝ) ^ e = 2 ^ k / 2 ^ 57 := by
    rw [hk, zpow_sub₀ (by norm_num)]
    norm_num
  rw [hpow] at hn ⊢
  have hz : (m : ℝ) * (2 ^ k / 2 ^ 57) = ((m * 2 ^ k : ℤ) : ℝ) / 2 ^ 57 := by
    push_cast; ring
  rw [hz] at hn ⊢
  have hlo : ((7205759403792793 : ℤ) : ℝ) < ((m * 2 ^ k : ℤ) : ℝ) := by
    have := hn.1
    have h57 : (0 : ℝ) < 2 ^ 57 := by norm_num
    rw [show ((m * 2 ^ k : ℤ) : ℝ) = ((m * 2 ^ k : ℤ) : ℝ) / 2 ^ 57 * 2 ^ 57 by field_simp]
    generalize ((m * 2 ^ k : ℤ) : ℝ) / 2 ^ 57 = z at *
    norm_num at this ⊢
    linarith
  have hhi : ((m * 2 ^ k : ℤ) : ℝ) < ((7205759403792795 : ℤ) : ℝ) := by
    have := hn.2
    rw [show ((m * 2 ^ k : ℤ) : ℝ) = ((m * 2 ^ k : ℤ) : ℝ) / 2 ^ 57 * 2 ^ 57 by field_simp]
    generalize ((m * 2 ^ k : ℤ) : ℝ) / 2 ^ 57 = z at *
    norm_num at this ⊢
    linarith
  have heq : m * 2 ^ k = 7205759403792794 := by
    have a := Int.cast_lt.1 hlo
    have b := Int.cast_lt.1 hhi
    omega
  rw [heq]
  norm_num

omit [Target] in
theorem f64Tolerance_eq {rnd : ℝ → ℝ} (h : Rounds rnd) {n : Nat} (hn : n < 2 ^ 52) :
    f64Tolerance rnd n = n / 20 := by
  unfold f64Tolerance
  rw [h.twentieth, h.fixed (IsF64.ofNat (by omega))]
  have hkn : 20 * (n / 20) ≤ n ∧ n ≤ 20 * (n / 20) + 19 := by omega
  generalize hk : n / 20 = k at hkn
  have hk52 : k < 2 ^ 48 := by omega
  have c1 : (20 : ℝ) * k ≤ n := by exact_mod_cast hkn.1
  have c2 : (n : ℝ) ≤ 20 * k + 19 := by exact_mod_cast hkn.2
  have c3 : (n : ℝ) < 2 ^ 52 := by exact_mod_cast hn
  have c0 : (0 : ℝ) ≤ n := by positivity
  have lo : (k : ℝ) ≤ rnd (n * (3602879701896397 / 2 ^ 56)) := by
    rw [← h.fixed (IsF64.ofNat (n := k) (by omega))]
    apply h.mono
    norm_num
    linarith
  have hi : rnd (n * (3602879701896397 / 2 ^ 56)) ≤ (k : ℝ) + 31 / 32 := by
    have hf : IsF64 ((k : ℝ) + 31 / 32) := by
      refine ⟨(32 * k + 31 : Nat), -5, ?_, by norm_num, by norm_num, ?_⟩
      · rw [abs_of_nonneg (by omega)]
        have : 32 * k + 31 < 2 ^ 53 := by omega
        exact_mod_cast this
      · push_cast
        norm_num
        ring
    rw [← h.fixed hf]
    apply h.mono
    have c4 : (n : ℝ) < 4503599627370496 := by norm_num at c3; exact_mod_cast c3
    norm_num
    linarith
  rw [Nat.floor_eq_iff (by linarith [(by positivity : (0 : ℝ) ≤ k)])]
  exact ⟨lo, by linarith⟩

omit [Target] in
theorem f64SqrtLimit_bounds {rnd : ℝ → ℝ} (h : Rounds rnd) {c : Nat} (hc : c < 2 ^ 53) :
    Nat.sqrt c ≤ f64SqrtLimit rnd c ∧ f64SqrtLimit rnd c ≤ Nat.sqrt c + 1 := by
  unfold f64SqrtLimit
  rw [h.fixed (IsF64.ofNat hc)]
  have hle : Nat.sqrt c ≤ c := Nat.sqrt_le_self c
  have lo : ((Nat.sqrt c : Nat) : ℝ) ≤ rnd (Real.sqrt c) := by
    rw [← h.fixed (IsF64.ofNat (n := Nat.sqrt c) (by omega))]
    exact h.mono (Real.nat_sqrt_le_real_sqrt)
  have hi : rnd (Real.sqrt c) ≤ ((Nat.sqrt c + 1 : Nat) : ℝ) := by
    rw [← h.fixed (IsF64.ofNat_le (n := Nat.sqrt c + 1) (by omega))]
    apply h.mono
    have := Real.real_sqrt_le_nat_sqrt_succ (a := c)
    push_cast
    exact this
  constructor
  · exact Nat.le_floor lo
  · exact Nat.floor_le_of_le hi

omit [Target] in
/-- The values of `f64` are finitely many, so a nearest one always exists. -/
theorem rounds_exists : ∃ rnd : ℝ → ℝ, Rounds rnd := by
  have hfin : {x : ℝ | IsF64 x}.Finite := by
    have : {x : ℝ | IsF64 x} ⊆
        (fun p : ℤ × ℤ => (p.1 : ℝ) * (2 : ℝ) ^ p.2) ''
          (Set.Icc (-(2 ^ 53)) (2 ^ 53) ×ˢ Set.Icc (-1074) 971) := by
      rintro x ⟨m, e, hm, h1, h2, rfl⟩
      have := abs_lt.1 hm
      exact ⟨(m, e), ⟨⟨this.1.le, this.2.le⟩, h1, h2⟩, rfl⟩
    exact ((Set.finite_Icc _ _).prod (Set.finite_Icc _ _)).image _ |>.subset this
  have hne : {x : ℝ | IsF64 x}.Nonempty := ⟨0, by
    have := IsF64.ofNat (n := 0) (by norm_num); simpa using this⟩
  have : ∀ x : ℝ, ∃ y, IsF64 y ∧ ∀ z, IsF64 z → |y - x| ≤ |z - x| := by
    intro x
    obtain ⟨y, hy, hmin⟩ := hfin.exists_minimalFor (fun y => |y - x|) _ hne
    refine ⟨y, hy, fun z hz => ?_⟩
    rcases le_total |y - x| |z - x| with hle | hle
    · exact hle
    · exact hmin hz hle
  choose f hf using this
  exact ⟨f, fun x => (hf x).1, fun x y hy => (hf x).2 y hy⟩

end FC
