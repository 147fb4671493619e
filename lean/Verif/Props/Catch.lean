import Verif.Lemmas.Catch
import Verif.Props.UserThreads
import Verif.Props.IntTraits

/-
C92: a caller that catches a panic finds the map as it was, with the writes done until then.
-/

set_option autoImplicit false

namespace FC
variable {σ M K V Q : Type}

/-! ### Any map: what happens in one operation -/

/-- When the caller's own code does not panic: the operation does what it does without catching, and if
it panics the map is left as it was, in every part of it. -/
theorem C92_untouched (A : CallApi σ M K V Q) (m : M) (op : MapOp V Q) (left s : σ) :
    A.caught m ⟨op, none⟩ left s = match A.step m op s with
      | .ok r => .ok ((some r.1.1, r.1.2), r.2)
      | .panic => .ok ((none, m), left)
      | .ub => .ub := by
  unfold CallApi.caught
  rw [CallApi.attempt_none]
  cases A.step m op s <;> rfl

/-- When the caller's own code panics before its first write, the map is left as it was. -/
theorem C92_before_writing (A : CallApi σ M K V Q) (m : M) (op : MapOp V Q) (left s : σ) :
    A.caught m ⟨op, some 0⟩ left s = match A.step m op s with
      | .ok _ => .ok ((none, m), left)
      | .panic => .ok ((none, m), left)
      | .ub => .ub := by
  unfold CallApi.caught
  rw [CallApi.attempt_zero]
  cases A.step m op s <;> rfl

/-- When the caller's own code panics after its last write, the map is what it would be without that
panic. -/
theorem C92_after_writing (A : CallApi σ M K V Q) (m : M) (op : MapOp V Q) (n : Nat)
    (hn : ∀ qvs, op = .getManyMut qvs → qvs.length ≤ n) (h1 : 0 < n) (left s : σ) :
    A.caught m ⟨op, some n⟩ left s = match A.step m op s with
      | .ok r => .ok ((none, r.1.2), left)
      | .panic => .ok ((none, m), left)
      | .ub => .ub := by
  unfold CallApi.caught
  rw [CallApi.attempt_late A op n hn h1, CallApi.attempt_none]
  cases A.step m op s <;> rfl

/-! ### Histories on maps of the crate -/

/-- A scan, `FrozenMap` with at most three pairs. -/
theorem C92_scanning_map [Target] {p : Prop} (u : UserCode σ K Q) (hu : u.Safe p) (payload : List (K × V))
    (xs : List (Attempt V Q × σ)) :
    Behaves (¬ u.EqOK ∧ ∃ x ∈ xs, x.1.op.isMany) False
      ((UMap.api u).caughtSession (pure (.scanning payload)) xs)
      (fun r => Loose.CaughtRun u.MayMatch p payload (xs.map (·.1)) r.1 r.2) := by
  obtain ⟨At, D, hs⟩ := UMap.sound (V := V) hu.toSafeLookup
  unfold CallApi.caughtSession
  refine (Behaves.pure (a := UMap.scanning payload) (post := fun m => m = .scanning payload) rfl).bind
    (fun m hm => ?_)
  rw [hm]
  refine ((hs.caughtRun xs (.scanning payload) trivial).mono (Or.rec False.elim id) id
    (fun _ h => h)).bind (fun r hr => .pure hr.2)

/-- `FrozenMap` with a key type of the caller's own, of which nothing is assumed but that it is safe
Rust; `p` says whether its code may panic. -/
theorem C92_frozen_map [Target] {p : Prop} (env : Env) (u : UserCode σ K Q) (hu : u.Safe p)
    (payload : List (K × V)) (hbig : 2 ^ 31 ≤ payload.length → p) (xs : List (Attempt V Q × σ)) :
    Behaves (¬ u.EqOK ∧ ∃ x ∈ xs, x.1.op.isMany) p
      ((UMap.api u).caughtSession (UMap.facade env u payload) xs)
      (fun r => ∃ d : List (K × V), d.Perm payload ∧
        Loose.CaughtRun u.MayMatch p d (xs.map (·.1)) r.1 r.2) := by
  obtain ⟨At, D, hs⟩ := UMap.sound (V := V) hu.toSafeLookup
  exact (hs.caughtSession (UMap.facade_behaves env hu hbig) xs).mono (Or.rec False.elim id) id
    (fun _ h => h)

/-- The hash-based maps. -/
theorem C92_hashed_map [Target] {p : Prop} (env : Env) (S : IdxTy) (u : UserCode σ K Q) (hu : u.Safe p)
    (payload : List (K × V)) (hbig : ¬ S.Holds payload.length → p) (xs : List (Attempt V Q × σ)) :
    Behaves (¬ u.EqOK ∧ ∃ x ∈ xs, x.1.op.isMany) p
      ((UMap.api u).caughtSession (UMap.fromVec env S u payload) xs)
      (fun r => ∃ d : List (K × V), d.Perm payload ∧
        Loose.CaughtRun u.MayMatch p d (xs.map (·.1)) r.1 r.2) := by
  obtain ⟨At, D, hs⟩ := UMap.sound (V := V) hu.toSafeLookup
  exact (hs.caughtSession (UMap.fromVec_behaves env hu hbig) xs).mono (Or.rec False.elim id) id
    (fun _ h => h)

/-- `FrozenMap<String, V>` with a hasher that misbehaves. As in C64 the keys must not make the crate try
the ends of strings. -/
theorem C92_string_map [Target] {p : Prop} (env : Env) (h : HasherCode σ) (hh : h.Safe p)
    (payload : List (Bytes × V)) (hbig : 2 ^ 31 ≤ payload.length → p)
    (hlen : ∀ e ∈ payload, e.1.length < usz / 2) (xs : List (Attempt V Bytes × σ)) :
    Behaves (TriesEnds (payload.map (·.1))) (p ∨ TriesEnds (payload.map (·.1)))
      (do
        let m ← UMap.stringFacade env h payload
        (UMap.api (m.1.code env.oc h)).caughtSession (pure m.2) xs)
      (fun r => ∃ d : List (Bytes × V), d.Perm payload ∧
        Loose.CaughtRun (fun q k => q = k) p d (xs.map (·.1)) r.1 r.2) := by
  refine (UMap.stringFacade_behaves env hh hbig (fun e he => by have := hlen e he; omega)).bind
    (fun m hm => ?_)
  obtain ⟨At, D, hs⟩ := UMap.sound (V := V) hm.1
  exact (hs.caughtSession (build := pure m.2) (payload := payload) (.pure hm.2) xs).mono
    (Or.rec False.elim fun h' => absurd (StringRep.code_eqOK h env.oc m.1) h'.1) Or.inl
    (fun _ ⟨d, h1, h2⟩ => ⟨d, h1, h2.mono fun _ _ h => StringRep.code_mayMatch h⟩)

/-- `IntegerRangeMap` with integers of the caller's own. -/
theorem C92_integer_range_map (c : RangeCode σ K V Q) (hc : c.Safe) (payload : List (K × V))
    (xs : List (Attempt V Q × σ)) :
    Behaves (¬ c.EqOK ∧ ∃ x ∈ xs, x.1.op.isMany) True
      ((RMap.api c).caughtSession (RMap.fromVec c payload) xs)
      (fun r => ∃ d : List (K × V), d.Perm payload ∧
        Loose.CaughtRun (fun _ _ => True) True d (xs.map (·.1)) r.1 r.2) := by
  obtain ⟨At, D, hs⟩ := RMap.sound hc
  exact (hs.caughtSession ((RMap.fromVec_behaves hc payload).mono id id fun _ h => ⟨trivial, h⟩) xs).mono
    (Or.rec False.elim id) id (fun _ h => h)

/-! ### Concrete histories -/

/-- The second lookup panics in `eq`; of the two writes of `get_many_mut` the caller does one; indexing
with an absent key panics. -/
def exCaught : List (Attempt Nat Nat × Nat) :=
  [(⟨.getMut 1 99, none⟩, 0), (⟨.get 5, none⟩, 13), (⟨.getManyMut [(2, 7), (3, 8)], some 1⟩, 0),
    (⟨.index 17, none⟩, 0), (⟨.getMut 3 6, some 4⟩, 0), (⟨.iter, none⟩, 0)]

set_option synthInstance.maxSize 1000 in
example : (UMap.api fragileCode).caughtSession (pure (.scanning [(1, 10), (2, 20), (3, 30)])) exCaught 2
    = .ok (([some (.value (some 10)), none, none, none, none,
        some (.items [(1, 99), (2, 7), (3, 6)])], [(1, 99), (2, 7), (3, 6)]), 0) := by decide +kernel

example := C92_scanning_map fragileCode fragileCode_safe exFive exCaught

example := C92_frozen_map checkedEnv moodyCode moodyCode_safe exFive (by decide) exCaught

example := C92_hashed_map checkedEnv IdxTy.u8 moodyCode moodyCode_safe exFive
  (fun h => h ⟨255, by decide, by decide⟩) exCaught

example (xs : List (Attempt Nat Bytes × Nat)) :=
  C92_string_map checkedEnv moodyHasher moodyHasher_safe sameLenKeys (by decide) (by decide) xs

example := C92_integer_range_map moodyInts moodyInts_safe [(1, 10), (2, 20), (4, 30)] exCaught

example := C92_after_writing (UMap.api moodyCode) (.scanning exFive) (.getManyMut [(1, 5), (2, 6)]) 2
  (fun _ h => by cases h; decide) (by decide) 3 4

end FC
