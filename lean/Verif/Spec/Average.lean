import Verif.Spec
import Verif.Model.Machine

/-
What a lookup of an absent key costs on average.
-/

set_option autoImplicit false

namespace FC
variable {A Q : Type}

/-- Take absent probes, at most one for each of the codes `0`, …, `N - 1`. Each is reported absent, and
together they cost at most `N * (20 / 19) + n` comparisons with stored keys, or `N + n` when there are
fewer than 128 entries. If each of the codes is taken, this is an average of at most `20 / 19 + n / N`
comparisons. -/
def CheapMisses (n N : Nat) (lookup : Q → Res (Option A × Nat)) (code : Q → Nat)
    (absent : Q → Prop) : Prop :=
  ∀ probes : List Q, (∀ q ∈ probes, absent q ∧ code q < N) → (probes.map code).Nodup →
    ∃ counts : List Nat,
      List.Forall₂ (fun q c => lookup q = .ok (none, c)) probes counts ∧
      19 * counts.sum ≤ 20 * N + 19 * n ∧ (n < 128 → counts.sum ≤ N + n)

end FC
