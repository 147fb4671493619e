import Verif.Model.Catch
import Verif.Model.SetLookups

/-
Calls that only read, each wrapped in `catch_unwind`: questions to sets, set predicates and comparisons.
They have `&self` and the crate has no interior mutability, so a panic leaves nothing behind in the
collections.
-/

set_option autoImplicit false

namespace FC
variable {σ T K V α : Type}

/-- `catch_unwind(|| ...)` around one call: no answer if it panicked. `left` is what the rest of the
program's state is then. The caller's code, around e.g. specialized_sets/common_set.rs:134-162,
specialized_sets/set_ops.rs:3-40, specialized_maps/common_map.rs:249-256. -/
def Call.caught (c : Call σ α) (left : σ) : Call σ (Option α) := fun s =>
  match c s with
  | .ok r => .ok (some r.1, r.2)
  | .panic => .ok (none, left)
  | .ub => .ub

/-- What can be asked of two sets. -/
inductive PairAsk (T : Type) where
  | first (a : SetAsk T)
  | second (a : SetAsk T)
  | isSubset | isSuperset | isDisjoint | eq
  deriving DecidableEq

/-- Ask it. `u₁` is the code behind lookups in the first set, `u₂` that behind lookups in the second.
specialized_sets/common_set.rs:113-199 and its counterparts, specialized_sets/set_ops.rs:3-40,
specialized_sets/common_set.rs:352-358. -/
def PairAsk.ask (u₁ u₂ : UserCode σ T T) (a b : UMap T Unit) : PairAsk T → Call σ (SetAns T)
  | .first x => a.ask u₁ x
  | .second x => b.ask u₂ x
  | .isSubset => do return .bool (← (a.toSet u₁).isSubset (b.toSet u₂))
  | .isSuperset => do return .bool (← (a.toSet u₁).isSuperset (b.toSet u₂))
  | .isDisjoint => do return .bool (← (a.toSet u₁).isDisjoint (b.toSet u₂))
  | .eq => do return .bool (← (a.toSet u₁).eq (b.toSet u₂))

/-- Ask one thing after another, catching every panic. The caller's code. -/
def PairAsk.asks (u₁ u₂ : UserCode σ T T) (a b : UMap T Unit) :
    List (PairAsk T × σ) → Call σ (List (Option (SetAns T)))
  | [] => pure []
  | x :: xs => do
    let o ← Call.caught (x.1.ask u₁ u₂ a b) x.2
    let os ← PairAsk.asks u₁ u₂ a b xs
    return o :: os

/-- Build two maps, use each, catching every panic, and then compare them with `==`, catching a panic of
that too. Shows what was seen of each map, the pairs in each at the end, and the comparison. `u₂` is the
code behind lookups in the second map, where `==` looks the keys of the first up. The caller's code, around
e.g. specialized_maps/common_map.rs:249-256. -/
def UMap.caughtEqSession (u₁ u₂ : UserCode σ K K) (veq : V → V → Call σ Bool)
    (build₁ build₂ : Call σ (UMap K V)) (xs₁ xs₂ : List (Attempt V K × σ)) (left : σ) :
    Call σ ((List (Option (Out K V)) × List (K × V)) × (List (Option (Out K V)) × List (K × V)) ×
      Option Bool) := do
  let m₁ ← build₁
  let m₂ ← build₂
  let r₁ ← (UMap.api u₁).caughtRun m₁ xs₁
  let r₂ ← (UMap.api u₂).caughtRun m₂ xs₂
  let b ← Call.caught (r₁.2.partialEq u₂ veq r₂.2) left
  return ((r₁.1, r₁.2.entries), (r₂.1, r₂.2.entries), b)

end FC
