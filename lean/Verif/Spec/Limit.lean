import Verif.Spec
import Verif.Model.Api

/-
Words used in the statements about maps of any size (C68).
-/

set_option autoImplicit false

namespace FC
variable {K V Q : Type}

/-- Why a hash-based map with index type `S` may refuse `n` entries. -/
def TooMany [Target] (S : IdxTy) (n : Nat) : Prop :=
  0 < n ∧ (usz ≤ S.max ∨ S.max < n ∨ 2 ^ 31 ≤ n)

/-- A map built from `payload` is right: it has all the entries, iterating shows each once, its lookups
neither panic nor touch memory out of bounds, whatever the number of entries, and what they return is an
entry stored under a matching key. With fewer than `2^32` entries they also find every key. -/
def RightUpTo32 {M : Type} (A : MapApi M K V Q) (m : M) (matching : Q → K → Bool)
    (payload : List (K × V)) : Prop :=
  A.len m = payload.length ∧
    (∃ es : List (K × V), es.Perm payload ∧ ∀ n, (calls MapIter.next n (A.iter m)).1 = firstCalls es n) ∧
    ∀ q, ∃ o, A.getKeyValue m q = .ok o ∧ A.get m q = .ok (o.map (·.2)) ∧
      A.getMut m q = .ok (o.map (·.2)) ∧ A.containsKey m q = .ok o.isSome ∧
      (∀ k r, o = some (k, r) → (k, r.val) ∈ payload ∧ matching q k = true) ∧
      (payload.length < 2 ^ 32 → Exact (matching q) payload o)

/-- The same for a set built from `payload`. -/
def SetRightUpTo32 {T : Type} (matching : Q → T → Bool) (payload : List T) (len : Nat)
    (items : List T) (get : Q → Res (Option T)) (contains : Q → Res Bool) : Prop :=
  len = payload.length ∧ items.Perm payload ∧ ∀ q, ∃ o, get q = .ok o ∧ contains q = .ok o.isSome ∧
    (∀ x, o = some x → x ∈ payload ∧ matching q x = true) ∧
    (payload.length < 2 ^ 32 → o = none → ∀ x ∈ payload, matching q x = false)

end FC
