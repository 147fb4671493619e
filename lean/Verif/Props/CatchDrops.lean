import Verif.Lemmas.CatchDrops
import Verif.Props.Catch
import Verif.Props.Drops

/-
C90 for a caller that catches panics: every key and value is dropped exactly once all the same.
-/

set_option autoImplicit false

namespace FC
variable {σ K V Q : Type}

/-- `FrozenMap` with a key type of the caller's own. Every operation is wrapped in `catch_unwind`, and the
key type's code as well as the caller's own may panic in any of them; the map is dropped in the end. Every
key and value given to the constructor and every value handed over to be stored is dropped exactly once.
After construction no panic gets out. -/
theorem C90_caught_frozen_map [Target] {p : Prop} (env : Env) (u : UserCode σ K K) (hu : u.Safe p)
    (payload : List (K × V)) (hbig : 2 ^ 31 ≤ payload.length → p) (xs : List (Attempt V K × σ)) :
    DropsOnce (¬ u.EqOK ∧ ∃ x ∈ xs, x.1.op.isMany) p
      ((UMap.api u).caughtSessionO (UMap.facadeO env u payload) xs)
      (things payload ++ xs.flatMap (·.1.op.brings)) :=
  (CallApi.caughtSessionO_tracks (UMap.api_inside u) (UMap.facadeO_tracks env u payload) xs).dropsOnce
    ((C92_frozen_map env u hu payload hbig xs).bind fun _ _ => .pure (post := fun _ => True) trivial)

theorem C90_caught_scanning_map [Target] {p : Prop} (u : UserCode σ K Q) (hu : u.Safe p)
    (payload : List (K × V)) (xs : List (Attempt V Q × σ)) :
    DropsOnce (¬ u.EqOK ∧ ∃ x ∈ xs, x.1.op.isMany) False
      ((UMap.api u).caughtSessionO (pure (.scanning payload)) xs)
      (things payload ++ xs.flatMap (·.1.op.brings)) :=
  (CallApi.caughtSessionO_tracks (UMap.api_inside u)
    (Tallies.pure (a := UMap.scanning payload) trivial (.refl _)) xs).dropsOnce
    ((C92_scanning_map u hu payload xs).bind fun _ _ => .pure (post := fun _ => True) trivial)

theorem C90_caught_hashed_map [Target] {p : Prop} (env : Env) (S : IdxTy) (u : UserCode σ K Q)
    (hu : u.Safe p) (payload : List (K × V)) (hbig : ¬ S.Holds payload.length → p)
    (xs : List (Attempt V Q × σ)) :
    DropsOnce (¬ u.EqOK ∧ ∃ x ∈ xs, x.1.op.isMany) p
      ((UMap.api u).caughtSessionO (UMap.fromVecO env S u payload) xs)
      (things payload ++ xs.flatMap (·.1.op.brings)) :=
  (CallApi.caughtSessionO_tracks (UMap.api_inside u) (UMap.fromVecO_tracks env S u payload) xs).dropsOnce
    ((C92_hashed_map env S u hu payload hbig xs).bind fun _ _ => .pure (post := fun _ => True) trivial)

theorem C90_caught_range_map (c : RangeCode σ K V Q) (hc : c.Safe) (payload : List (K × V))
    (xs : List (Attempt V Q × σ)) :
    DropsOnce (¬ c.EqOK ∧ ∃ x ∈ xs, x.1.op.isMany) True
      ((RMap.api c).caughtSessionO (RMap.fromVecO c payload) xs)
      (things payload ++ xs.flatMap (·.1.op.brings)) :=
  (CallApi.caughtSessionO_tracks (RMap.api_inside c) (RMap.fromVecO_tracks hc payload) xs).dropsOnce
    ((C92_integer_range_map c hc payload xs).bind fun _ _ => .pure (post := fun _ => True) trivial)

/-- While the map lives, after any number of caught panics: the keys and values in the map and those
dropped are together exactly those given and those handed over to be stored. So a panic leaks no value
that was to be stored, and takes nothing out of the map. -/
theorem C90_caught_alive [Target] (env : Env) (S : IdxTy) (u : UserCode σ K Q) (payload : List (K × V))
    (xs : List (Attempt V Q × σ)) :
    Accounts ((UMap.api u).caughtUseO (UMap.facadeO env u payload) xs)
      (things payload ++ xs.flatMap (·.1.op.brings)) (fun r => things r.2.entries) ∧
    Accounts ((UMap.api u).caughtUseO (UMap.fromVecO env S u payload) xs)
      (things payload ++ xs.flatMap (·.1.op.brings)) (fun r => things r.2.entries) :=
  ⟨(CallApi.caughtUseO_tracks (UMap.api_inside u) (UMap.facadeO_tracks env u payload) xs).accounts,
    (CallApi.caughtUseO_tracks (UMap.api_inside u) (UMap.fromVecO_tracks env S u payload) xs).accounts⟩

/-- Leaving the drops out of account, this is C92's history. -/
theorem C90_caught_same [Target] (env : Env) (u : UserCode σ K Q) (payload : List (K × V))
    (xs : List (Attempt V Q × σ)) :
    ((UMap.api u).caughtSessionO (UMap.facadeO env u payload) xs).forget
      = (do
        let r ← (UMap.api u).caughtSession (UMap.facade env u payload) xs
        return r.1) :=
  (CallApi.caughtSessionO_tracks (UMap.api_inside u) (UMap.facadeO_tracks env u payload) xs).forget

/-! ### The hypotheses are met -/

/-- The lookup of the second operation panics and its value is dropped; of the three values of the third
the caller writes one, over `20`, and panics; the fourth finds nothing. -/
example : ((UMap.api (panicAt 1)).caughtSessionO (pure (.scanning [(1, 10), (2, 20), (3, 30)]))
      [(⟨.getMut 1 99, none⟩, 0), (⟨.getMut 2 98, none⟩, 5), (⟨.getManyMut [(2, 7), (3, 8), (1, 9)], some 1⟩, 5),
        (⟨.getMut 4 97, none⟩, 0)] 0 []).seen
    = some (true, [.dropped (.value 10), .dropped (.value 98), .dropped (.value 20), .dropped (.value 8),
        .dropped (.value 9), .dropped (.value 97), .dropped (.key 1), .dropped (.value 99),
        .dropped (.key 2), .dropped (.value 7), .dropped (.key 3), .dropped (.value 30)]) := by decide +kernel

example (n : Nat) := C90_caught_frozen_map checkedEnv (panicAt n) (panicAt_safe n) exFive (fun _ => trivial)
  exCaught

example (n : Nat) := C90_caught_scanning_map (panicAt n) (panicAt_safe n) exFive exCaught

example (n : Nat) := C90_caught_hashed_map checkedEnv IdxTy.u8 (panicAt n) (panicAt_safe n) exFive
  (fun _ => trivial) exCaught

example := C90_caught_range_map moodyInts moodyInts_safe [(1, 10), (2, 20), (4, 30)] exCaught

example (n : Nat) := C90_caught_alive checkedEnv IdxTy.u8 (panicAt n) exFive exCaught

end FC
