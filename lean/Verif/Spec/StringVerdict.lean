import Verif.Spec

/-
The string key analysis as a list of rules about the keys alone.
-/

set_option autoImplicit false

namespace FC
variable [Target]

/-- What the analysis of `keys` comes to. `LengthsSpread`: at most 255 keys, no length shared by
more than three. `LeftOKAt i l`: bytes `i .. i + l` exist in every key and at most one key in twenty
repeats. `RightOKAt i l`: the same, from the `i`-th byte from the end. -/
inductive Outcome (bh : Hasher) (keys : List Bytes) : Res SliceVerdict → Prop where
  /-- Lengths that are spread out decide. -/
  | length : LengthsSpread keys → Outcome bh keys (.ok .length)
  /-- Keys of one length: the shortest good left part of at most 16 bytes that is not the whole key,
  the leftmost of that length. -/
  | sameLeft (i l : Nat) : ¬ LengthsSpread keys → SameLength keys → 1 ≤ l → l ≤ 16 →
      (∀ k ∈ keys, l < k.length) →
      LeftOKAt bh keys i l → (∀ j, j < i → ¬ LeftOKAt bh keys j l) →
      (∀ j l', 1 ≤ l' → l' < l → ¬ LeftOKAt bh keys j l') → Outcome bh keys (.ok (.left i l))
  /-- Keys of one length without such a part. -/
  | sameNormal : ¬ LengthsSpread keys → SameLength keys →
      (∀ j l, 1 ≤ l → l ≤ 16 → (∃ k ∈ keys, l ≠ k.length) → ¬ LeftOKAt bh keys j l) →
      Outcome bh keys (.ok .normal)
  /-- Keys of different lengths: the leftmost good single byte. -/
  | left1 (i : Nat) : ¬ LengthsSpread keys → ¬ SameLength keys → LeftOKAt bh keys i 1 →
      (∀ j, j < i → ¬ LeftOKAt bh keys j 1) → Outcome bh keys (.ok (.left i 1))
  /-- Else the good single byte nearest to the end. -/
  | right1 (i : Nat) : ¬ LengthsSpread keys → ¬ SameLength keys → (∀ j, ¬ LeftOKAt bh keys j 1) →
      RightOKAt bh keys i 1 → (∀ j, j < i → ¬ RightOKAt bh keys j 1) →
      Outcome bh keys (.ok (.right i 1))
  /-- Else nothing, if some key has no second byte. -/
  | short : ¬ LengthsSpread keys → ¬ SameLength keys → (∀ j, ¬ LeftOKAt bh keys j 1) →
      (∀ j, ¬ RightOKAt bh keys j 1) → (∃ k ∈ keys, k.length ≤ 1) → Outcome bh keys (.ok .normal)
  /-- Else the leftmost good pair of bytes. -/
  | left2 (i : Nat) : ¬ LengthsSpread keys → ¬ SameLength keys → (∀ j, ¬ LeftOKAt bh keys j 1) →
      (∀ j, ¬ RightOKAt bh keys j 1) → LeftOKAt bh keys i 2 →
      (∀ j, j < i → ¬ LeftOKAt bh keys j 2) → Outcome bh keys (.ok (.left i 2))
  /-- Else a panic. -/
  | crash : ¬ LengthsSpread keys → ¬ SameLength keys → (∀ k ∈ keys, 2 ≤ k.length) →
      (∀ j, ¬ LeftOKAt bh keys j 1) → (∀ j, ¬ RightOKAt bh keys j 1) →
      (∀ j, ¬ LeftOKAt bh keys j 2) → Outcome bh keys .panic

/-- The keys of a `String` payload for which construction succeeds. -/
def Constructible (bh : Hasher) (keys : List Bytes) : Prop :=
  keys.length < 4 ∨ LengthsSpread keys ∨ SameLength keys ∨ (∃ i, LeftOKAt bh keys i 1) ∨
    ((∀ i, ¬ RightOKAt bh keys i 1) ∧
      ((∃ k ∈ keys, k.length ≤ 1) ∨ ∃ i, LeftOKAt bh keys i 2))

end FC
