import Verif.Lemmas.Built
import Verif.Lemmas.TotalCost
import Verif.Spec.RightSlices

/-
Right slice maps whose range is in descending order: hash codes, probes.
-/

set_option autoImplicit false

namespace FC
variable {V : Type}

theorem sub_beforeEnd {a b : Nat} {k : Bytes} (hba : b ≤ a) (hk : a ≤ k.length) :
    sub k (k.length - a) (k.length - b) = beforeEnd a b k := by
  unfold sub beforeEnd
  congr 1
  omega

theorem rightHash_beforeEnd [Target] {oc : Bool} {bh : Hasher} {a b : Nat} {k : Bytes} (hba : b ≤ a)
    (hk : a ≤ k.length) :
    RightSliceMap.rightHash oc bh k a b = .ok (bh [.write (beforeEnd a b k)]) := by
  rw [rightHash_ok hba hk, sub_beforeEnd hba hk]

theorem right_codes [Target] {oc : Bool} {bh : Hasher} {a b : Nat} {payload : List (Bytes × V)} (hba : b ≤ a)
    (hlong : ∀ e ∈ payload, a ≤ e.1.length) :
    Res.mapList (fun e : Bytes × V => RightSliceMap.analysisCode oc bh a b e.1) payload
      = .ok (payload.map (fun e => bh [.write (beforeEnd a b e.1)])) := by
  apply Res.mapList_ok
  intro e he
  have := hlong e he
  unfold RightSliceMap.analysisCode
  rw [if_pos (by omega), rightHash_beforeEnd hba this]

theorem right_probe [Target] {oc : Bool} {t : HashTable Bytes V} {bh : Hasher} {a b : Nat}
    (hba : b ≤ a) (q : Bytes) :
    RightSliceMap.getHashInfo oc ⟨t, bh, a, b⟩ q
      = t.getHashInfo (if a ≤ q.length then bh [.write (beforeEnd a b q)] else 0) := by
  unfold RightSliceMap.getHashInfo
  by_cases h : a ≤ q.length
  · simp only [if_pos h, rightHash_beforeEnd hba h]
    rfl
  · rw [if_neg h, if_neg h]
    rfl

theorem right_counted [Target] {oc : Bool} {t : HashTable Bytes V} {bh : Hasher} {a b : Nat}
    (hba : b ≤ a) (q : Bytes) :
    RightSliceMap.getKeyValueCounted oc ⟨t, bh, a, b⟩ q
      = tableCounted beq id t (if a ≤ q.length then bh [.write (beforeEnd a b q)] else 0) q := by
  unfold RightSliceMap.getKeyValueCounted tableCounted
  rw [right_probe hba]

end FC
