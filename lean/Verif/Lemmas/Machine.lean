import Verif.Model.Machine
import Verif.Lemmas.Primes
import Verif.Lemmas.Sizing
import Verif.Lemmas.Table
import Mathlib.NumberTheory.Bertrand

/-
Helper lemmas: the machine's size analysis is the idealised one.
-/

set_option autoImplicit false

namespace FC
variable [Target]

omit [Target] in
theorem or_one_eq (n : Nat) : n ||| 1 = n + (1 - n % 2) := by
  have h1 : (n ||| 1) / 2 = n / 2 := by rw [Nat.or_div_two]; simp
  have h2 : (n ||| 1) % 2 = 1 := by
    have := Nat.or_mod_two_eq_one (a := n) (b := 1)
    simp [this]
  omega

omit [Target] in
theorem Res.mapList_length {α β : Type} {f : α → Res β} {l : List α} {out : List β}
    (h : Res.mapList f l = .ok out) : out.length = l.length := by
  induction l generalizing out with
  | nil => simp only [Res.mapList, Res.ok.injEq] at h; subst h; rfl
  | cons a l ih =>
    unfold Res.mapList at h
    cases ha : f a with
    | ok b =>
      cases hl : Res.mapList f l with
      | ok bs =>
        rw [ha, hl] at h
        simp only [Res.ok.injEq] at h
        subst h
        simp [ih hl]
      | panic => rw [ha, hl] at h; cases h
      | ub => rw [ha, hl] at h; cases h
    | panic => rw [ha] at h; cases h
    | ub => rw [ha] at h; cases h

theorem usz_mod8 : usz % 8 = 0 := by
  have h := Target.atLeast
  obtain ⟨k, hk⟩ := Nat.exists_eq_add_of_le (m := 3) (n := Target.bits) (by omega)
  unfold usz
  rw [hk, Nat.pow_add]
  omega

/-- Up to a prime that is in range, the machine's search is the idealised one. -/
theorem findPrimeM_eq {prime : Nat → Bool} {B : Nat}
    (hp : ∀ c, c % 2 = 1 → 7 ≤ c → c < B → prime c = isPrime c) (size : Nat)
    (h : size % 2 = 1 ∧ 7 ≤ size) {p : Nat} (pp : p.Prime) (hsp : size ≤ p) (hB : p < B)
    (hu : p < usz) : findPrimeM prime size = .ok (findPrime size h) := by
  fun_induction findPrime size h with
  | case1 size h hs =>
    unfold findPrimeM
    rw [if_pos (by rw [hp _ h.1 h.2 (by omega)]; exact hs)]
  | case2 size h hs ih =>
    unfold findPrimeM
    have hne : size ≠ p := by
      intro he; subst he; exact hs (isPrime_of_prime pp h.2)
    have hodd : p % 2 = 1 := by
      rcases pp.eq_two_or_odd with h2 | h2
      · omega
      · exact h2
    rw [if_neg (by rw [hp _ h.1 h.2 (by omega)]; exact hs), if_pos (by omega)]
    exact ih (by omega)

theorem bigSizesM_eq {prime : Nat → Bool} {B : Nat}
    (hp : ∀ c, c % 2 = 1 → 7 ≤ c → c < B → prime c = isPrime c) (inc mx : Nat) (hi : 7 ≤ inc)
    (hi0 : 0 < inc) (hB : 2 * (mx + inc + 1) < B) (hu : 2 * (mx + inc + 1) < usz) (size : Nat) :
    bigSizesM prime inc mx hi0 size = .ok (bigSizes inc mx hi size) := by
  induction hn : mx + 1 - size using Nat.strongRecOn generalizing size with
  | _ n ih =>
    unfold bigSizesM bigSizes
    by_cases hle : size ≤ mx
    · rw [if_pos hle, if_pos hle, if_pos (by omega)]
      have ho := or_one_eq (size + inc)
      obtain ⟨p, pp, hlt, hle2⟩ := Nat.exists_prime_lt_and_le_two_mul
        ((size + inc) ||| 1) (by omega)
      have hf := findPrimeM_eq hp ((size + inc) ||| 1) ⟨by omega, by omega⟩ pp (by omega)
        (by omega) (by omega)
      have hge := le_findPrimeM hf
      split
      · rename_i next hn'
        rw [hf, Res.ok.injEq] at hn'
        have hnext : next = findPrime (size + inc + (1 - (size + inc) % 2))
            ⟨by omega, by omega⟩ := by
          rw [← hn']; congr 1
        rw [ih (mx + 1 - next) (by omega) next rfl]
        simp only [hnext]
      · rename_i hn'; rw [hf] at hn'; cases hn'
      · rename_i hn'; rw [hf] at hn'; cases hn'
    · rw [if_neg hle, if_neg hle]

theorem mulM_eq {a b : Nat} (h : a * b < usz) : mulM a b = .ok (a * b) := if_pos h

theorem acceptableM_eq {n : Nat} (hn : n < usz) : acceptableM n = .ok (acceptableCollisions n) := by
  unfold acceptableM acceptableCollisions
  split
  · rfl
  · exact mulM_eq (by omega)

theorem maxSizeM_eq {n : Nat} (hn : 16 * n < usz) : maxSizeM n = .ok (maxSize n) := by
  unfold maxSizeM maxSize
  split
  · exact mulM_eq (by omega)
  · split <;> exact mulM_eq (by omega)

omit [Target] in
theorem acceptable_le (n : Nat) : acceptableCollisions n ≤ n := by
  unfold acceptableCollisions; split <;> omega

theorem candidateSizesM_eq {prime : Nat → Bool}
    (hp : ∀ c, c % 2 = 1 → 7 ≤ c → c < 2 ^ 53 → prime c = isPrime c) {n : Nat} (hn : n < 2 ^ 50)
    (hu : 24 * n < usz) :
    candidateSizesM prime n (minSize n) (maxSize n) = .ok (candidateSizes n) := by
  unfold candidateSizesM candidateSizes
  split
  · rfl
  · split
    · rfl
    · rename_i h1 h2
      have hbig : 7199369 ≤ n := by
        unfold minSize lastPrime at h2; omega
      have hmx : maxSize n = n * 3 := by unfold maxSize; rw [if_neg (by omega), if_neg (by omega)]
      rw [dif_pos (by omega), bigSizesM_eq hp _ _ (by omega) _ (by omega) (by omega)]

/-- The main loop and everything before it. -/
theorem analyzeHashCodesM_eq {prime : Nat → Bool}
    (hp : ∀ c, c % 2 = 1 → 7 ≤ c → c < 2 ^ 53 → prime c = isPrime c) (codes : List Nat)
    (hn : codes.length < 2 ^ 50) (hu : 24 * codes.length < usz) :
    analyzeHashCodesM prime codes = analyzeHashCodes codes := by
  have h32 := usz_ge
  unfold analyzeHashCodesM analyzeHashCodes
  rw [acceptableM_eq (by omega), maxSizeM_eq (by omega)]
  have hsub : usub true codes.length (acceptableCollisions codes.length)
      = .ok (minSize codes.length) := if_pos (acceptable_le _)
  have h8 := usz_mod8
  have hm : maxSize codes.length < usz / 8 := by
    unfold maxSize; split
    · omega
    · split <;> omega
  simp only [Res.ok_bind, hsub]
  rw [if_neg (by omega), candidateSizesM_eq hp hn hu]
  simp only [Res.ok_bind]

theorem analyzeHashCodesM_panic {prime : Nat → Bool} (codes : List Nat)
    (hv : 16 * codes.length < usz) (hu : usz ≤ 24 * codes.length) :
    analyzeHashCodesM prime codes = .panic := by
  have h32 := usz_ge
  unfold analyzeHashCodesM
  rw [acceptableM_eq (by omega), maxSizeM_eq (by omega)]
  have hsub : usub true codes.length (acceptableCollisions codes.length)
      = .ok (minSize codes.length) := if_pos (acceptable_le _)
  have hm : usz / 8 ≤ maxSize codes.length := by
    unfold maxSize; rw [if_neg (by omega), if_neg (by omega)]; omega
  simp only [Res.ok_bind, hsub]
  rw [if_pos hm]

end FC
