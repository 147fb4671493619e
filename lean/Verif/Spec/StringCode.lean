import Verif.Model.StringCode
import Verif.Spec.UserCode
import Verif.Spec

/-
What the claims about maps of strings with misbehaving hashers speak of.
-/

set_option autoImplicit false

namespace FC
variable [Target]
variable {σ V : Type}

/-- The hasher is safe Rust: no undefined behaviour of its own. It panics only if `p`. -/
structure HasherCode.Safe (p : Prop) (h : HasherCode σ) : Prop where
  hashKey : ∀ k, Behaves False p (h.hashKey k) (fun _ => True)
  hashSub : ∀ k, Behaves False p (h.hashSub k) (fun _ => True)
  writeSub : ∀ k, Behaves False p (h.writeSub k) (fun _ => True)

/-- Keys for which the crate tries to hash the ends of strings, which it gets wrong (C03, C29): four
or more, none of them empty, of different lengths, and the lengths do not tell them apart. -/
def TriesEnds (keys : List Bytes) : Prop :=
  4 ≤ keys.length ∧ ¬ LengthsSpread keys ∧ ¬ SameLength keys ∧ ∀ k ∈ keys, k ≠ []

/-- Build a `FrozenMap` of strings, perform a history, show what was seen. -/
def UMap.stringSession (env : Env) (h : HasherCode σ) (payload : List (Bytes × V))
    (ops : List (MapOp V Bytes)) : Call σ (List (Out Bytes V)) := do
  let m ← UMap.stringFacade env h payload
  let r ← m.2.run (m.1.code env.oc h) ops
  return r.1

/-- A hasher that is a function. -/
def HasherCode.det (bh : Hasher) (enc : Bytes → List HCall) : HasherCode σ :=
  ⟨fun k => pure (bh (enc k)), fun s => pure (bh.hashOneBytes s), fun s => pure (bh [.write s])⟩

/-- Byte strings as the facade sees `String`s. -/
def bytesTy (enc : Bytes → List HCall) : KeyTy Bytes := ⟨beq, enc, .string id id⟩

/-- A `FrozenMap` of strings without its hasher. -/
def FrozenMap.stripped : FrozenMap Bytes V → StringRep × UMap Bytes V
  | .scanning m => (.scanning, .scanning m.entries)
  | .commonSmall m | .commonLarge m => (.common, .hashed m.table)
  | .leftSmall m | .leftLarge m => (.left m.start m.stop, .hashed m.table)
  | .rightSmall m | .rightLarge m => (.right m.start m.stop, .hashed m.table)
  | .lengthSmall m => (.length, .hashed m.table)
  | .u32Small _ | .u32Large _ | .u32Range _ => (.scanning, .scanning [])

end FC
