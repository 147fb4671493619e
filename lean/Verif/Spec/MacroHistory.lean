import Verif.Spec.Macro
import Verif.Spec.History

/-
What C97 says of a map written with `frozen_map!`.
-/

set_option autoImplicit false

namespace FC
variable [Target]
variable {K V : Type}

/-- Under every history of operations the map built by `frozen_map!` gives what the dictionary of
the entries written gives. The keys of the integer and string maps are the values of the literals. -/
def MacroMap.ActsAs (env : Env) (ty : MacroTy K) (payload : List (K × V)) : MacroMap K V → Prop
  | .scanning m => Refines (scanningApi ⟨id, ty.eq, ty.enc⟩) ty.eq id m payload
  | .common m => Refines (commonApi ⟨id, ty.eq, ty.enc⟩) ty.eq id m payload
  | .integer m => Refines integerApi (fun a b => decide (a = b)) id m
      (payload.map (fun p => (ty.toInt p.1, p.2)))
  | .integerRange t m => Refines (rangeApi env.oc t) (fun a b => decide (a = b)) id m
      (payload.map (fun p => (ty.toInt p.1, p.2)))
  | .length m => Refines (lengthApi id (fun a b => decide (a = b)) List.length)
      (fun a b => decide (a = b)) id m (payload.map (fun p => (ty.toB p.1, p.2)))
  | .left m => Refines leftApi (fun a b => decide (a = b)) id m
      (payload.map (fun p => (ty.toB p.1, p.2)))
  | .right m => Refines (rightApi env.oc) (fun a b => decide (a = b)) id m
      (payload.map (fun p => (ty.toB p.1, p.2)))

end FC
