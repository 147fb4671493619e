import Verif.Lemmas.StringCodeAgree
import Verif.Examples

/-
C64: a misbehaving hasher cannot break a map of strings, it can only make it miss keys.
-/

set_option autoImplicit false

namespace FC
variable {σ V : Type}

/-- `FrozenMap<String, V>` with any `BuildHasher`, however its answers change from call to call.
Building the map and performing any history has no undefined behaviour, and panics only if the hasher
panics (`p`, which must also allow for a payload of 2^31 pairs or more) or the history indexes, unless
the keys make the crate try the ends of strings (its own bug, C03 and C29). And what is seen is what a list of the given pairs can show when each lookup finds a
pair with exactly the key asked for, or misses: never another key's value, and length, iteration and
writes are exact. -/
theorem C64_string_map [Target] {p : Prop} (env : Env) (h : HasherCode σ) (hh : h.Safe p)
    (payload : List (Bytes × V)) (hbig : 2 ^ 31 ≤ payload.length → p)
    (hlen : ∀ e ∈ payload, e.1.length < usz / 2) (ops : List (MapOp V Bytes)) :
    Behaves (TriesEnds (payload.map (·.1)))
      (p ∨ TriesEnds (payload.map (·.1)) ∨ ∃ op ∈ ops, op.isIndex)
      (UMap.stringSession env h payload ops)
      (fun outs => ∃ d : List (Bytes × V), d.Perm payload ∧
        Loose.Run (fun q k => q = k) d ops outs) := by
  unfold UMap.stringSession
  refine ((UMap.stringFacade_behaves env hh hbig (fun e he => by have := hlen e he; omega)).mono id
    (Or.imp id Or.inl) (fun _ h => h)).bind (fun m hm => ?_)
  refine ((UMap.run_behaves (U := False) hm.1 ops
    (fun _ _ _ => Or.inl (StringRep.code_eqOK h env.oc m.1)) m.2 hm.2.1).mono False.elim
    (Or.imp id Or.inr) (fun _ h => h)).bind (fun r hr => .pure ⟨_, hm.2.2, ?_⟩)
  exact hr.2.1.mono (fun _ _ h => StringRep.code_mayMatch h)

/-- A hasher that answers the same every time is the special case in which construction is that of
the other theorems about `FrozenMap`. -/
theorem C64_function_hasher [Target] (env : Env) (bh : Hasher) (enc : Bytes → List HCall)
    (payload : List (Bytes × V)) (s : σ) :
    UMap.stringFacade env (HasherCode.det bh enc) payload s
      = (FrozenMap.new env (bytesTy enc) payload bh).map (fun m => (m.stripped, s)) :=
  UMap.stringFacade_det env bh enc payload s

/-! ### Non-vacuity -/

/-- The exception is real: these six keys make the crate try the ends of strings, and building the
map is undefined behaviour even with an honest hasher. -/
example : TriesEnds (exRight.map (·.1.1)) ∧
    UMap.stringSession checkedEnv (HasherCode.det demoHasher (fun s => [.writeStr s]))
      (exRight.map (fun e => (e.1.1, e.2))) [] () = .ub := by
  refine ⟨⟨by decide, ?_, ?_, by decide +kernel⟩, by decide +kernel⟩
  · unfold LengthsSpread
    rw [← analyzeLengths_iff]
    decide +kernel
  · unfold SameLength; decide +kernel

/-- A hasher whose answers depend on how often it was asked. -/
def moodyHasher : HasherCode Nat where
  hashKey k := fun s => .ok (k.length + s, s + 1)
  hashSub k := fun s => .ok (k.length + s % 7, s + 1)
  writeSub k := fun s => .ok (k.length * s, s + 1)

theorem moodyHasher_safe : moodyHasher.Safe False :=
  ⟨fun _ _ => trivial, fun _ _ => trivial, fun _ _ => trivial⟩

/-- Six keys of one length. -/
def sameLenKeys : List (Bytes × Nat) :=
  [([1, 1, 9], 10), ([1, 2, 9], 20), ([2, 1, 9], 30), ([2, 2, 9], 40), ([3, 3, 9], 50),
    ([3, 4, 9], 60)]

theorem sameLenKeys_safe : ¬ TriesEnds (sameLenKeys.map (·.1)) := by
  rintro ⟨_, _, h, _⟩
  exact h (by unfold SameLength; decide +kernel)

/-- A left slice map. The same lookup misses, hits, misses; the write that hits is seen. -/
example : UMap.stringSession checkedEnv moodyHasher sameLenKeys
    [.getKeyValue [1, 2, 9], .getMut [1, 2, 9] 99, .getKeyValue [1, 2, 9], .len, .iter] 0
    = .ok ([.entry none, .value (some 20), .entry none, .number 6,
        .items [([3, 4, 9], 60), ([3, 3, 9], 50), ([2, 2, 9], 40), ([2, 1, 9], 30),
          ([1, 2, 9], 99), ([1, 1, 9], 10)]], 21) := by decide +kernel

/-- With these keys nothing is undefined and nothing panics. -/
example (ops : List (MapOp Nat Bytes)) (hops : ∀ op ∈ ops, ¬ op.isIndex) :
    Behaves False False (UMap.stringSession checkedEnv moodyHasher sameLenKeys ops)
      (fun outs => ∃ d : List (Bytes × Nat), d.Perm sameLenKeys ∧
        Loose.Run (fun q k => q = k) d ops outs) :=
  (C64_string_map checkedEnv moodyHasher moodyHasher_safe sameLenKeys (by decide) (by decide) ops).mono
    sameLenKeys_safe (fun h => h.elim id (fun h => h.elim sameLenKeys_safe
      (fun ⟨op, h1, h2⟩ => hops op h1 h2))) (fun _ h => h)

end FC
