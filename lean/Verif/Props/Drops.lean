import Verif.Lemmas.Drops
import Verif.Props.Clone
import Verif.Props.StringCode
import Verif.Props.SetLookups
import Verif.Props.IntTraits

/-
C90: every key and every value is dropped exactly once, also when the caller's code panics.
-/

set_option autoImplicit false

namespace FC
variable {σ K V Q : Type}

/-- `FrozenMap` with a key type of the caller's own, whose `Hash` and `Eq` may answer anything and may
panic at any call. Build a map, perform any history and drop the map: every key and value given to the
constructor and every value handed over to be stored is dropped exactly once, whether everything
returns or a panic ends it, in the constructor or later. -/
theorem C90_frozen_map [Target] {p : Prop} (env : Env) (u : UserCode σ K K) (hu : u.Safe p)
    (payload : List (K × V)) (hbig : 2 ^ 31 ≤ payload.length → p) (ops : List (MapOp V K)) :
    DropsOnce (¬ u.EqOK ∧ ∃ op ∈ ops, op.isMany) (p ∨ ∃ op ∈ ops, op.isIndex)
      ((UMap.api u).sessionO (UMap.facadeO env u payload) ops)
      (things payload ++ ops.flatMap MapOp.brings) :=
  (UMap.sessionO_tracks u (UMap.facadeO_tracks env u payload) ops).dropsOnce
    (C56_frozen_map env u hu payload hbig ops)

/-- `ScanningMap`. -/
theorem C90_scanning_map {p : Prop} (u : UserCode σ K Q) (hu : u.Safe p) (payload : List (K × V))
    (ops : List (MapOp V Q)) :
    DropsOnce (¬ u.EqOK ∧ ∃ op ∈ ops, op.isMany) (p ∨ ∃ op ∈ ops, op.isIndex)
      ((UMap.api u).sessionO (pure (.scanning payload)) ops)
      (things payload ++ ops.flatMap MapOp.brings) :=
  (UMap.sessionO_tracks u (Tallies.pure trivial (.refl _)) ops).dropsOnce
    (C56_scanning_map u hu payload ops)

/-- The hashed maps (`CommonMap`, `IntegerMap`, `LengthMap` and the slice maps), with hashing code of
the caller's own, which may differ from call to call and panic at any call. -/
theorem C90_hashed_map [Target] {p : Prop} (env : Env) (S : IdxTy) (u : UserCode σ K Q) (hu : u.Safe p)
    (payload : List (K × V)) (hbig : ¬ S.Holds payload.length → p) (ops : List (MapOp V Q)) :
    DropsOnce (¬ u.EqOK ∧ ∃ op ∈ ops, op.isMany) (p ∨ ∃ op ∈ ops, op.isIndex)
      ((UMap.api u).sessionO (UMap.fromVecO env S u payload) ops)
      (things payload ++ ops.flatMap MapOp.brings) :=
  (UMap.sessionO_tracks u (UMap.fromVecO_tracks env S u payload) ops).dropsOnce
    (UMap.session_behaves hu.toSafeLookup (UMap.fromVec_behaves env hu hbig) ops)

/-- `FrozenMap` with string keys and any hasher. The exception is that of C64: keys that make the crate
try the ends of strings. -/
theorem C90_string_map [Target] {p : Prop} (env : Env) (h : HasherCode σ) (hh : h.Safe p)
    (payload : List (Bytes × V)) (hbig : 2 ^ 31 ≤ payload.length → p)
    (hlen : ∀ e ∈ payload, e.1.length < usz / 2) (ops : List (MapOp V Bytes)) :
    DropsOnce (TriesEnds (payload.map (·.1)))
      (p ∨ TriesEnds (payload.map (·.1)) ∨ ∃ op ∈ ops, op.isIndex)
      (UMap.stringSessionO env h payload ops) (things payload ++ ops.flatMap MapOp.brings) :=
  (UMap.stringSessionO_tracks env h payload ops).dropsOnce
    (C64_string_map env h hh payload hbig hlen ops)

/-- `FrozenSet` with an element type of the caller's own. -/
theorem C90_frozen_set [Target] {p : Prop} (env : Env) (u : UserCode σ K K) (hu : u.Safe p)
    (payload : List K) (hbig : 2 ^ 31 ≤ payload.length → p) (asks : List (SetAsk K)) :
    DropsOnce False p (UMap.setSessionO u (UMap.facadeO env u (unitPayload payload)) asks)
      (things (unitPayload payload)) :=
  (UMap.setSessionO_tracks u (UMap.facadeO_tracks env u _) asks).dropsOnce
    (UMap.setFacade_eq env u payload ▸ C71_frozen_set env u hu payload hbig asks)

/-- Clones. `Clone` of the key and of the value may answer anything and may panic at any call, leaving
half a clone behind. Every thing given and every thing a call of `clone` made is dropped exactly
once. -/
theorem C90_clone [Target] {p : Prop} (env : Env) (u : UserCode σ K K) (hu : u.Safe p)
    (ck : K → Call σ K) (cv : V → Call σ V) (hck : ∀ k, Behaves False p (ck k) (fun _ => True))
    (hcv : ∀ v, Behaves False p (cv v) (fun _ => True))
    (payload : List (K × V)) (hbig : 2 ^ 31 ≤ payload.length → p) (ops ops' : List (MapOp V K)) :
    DropsOnce (¬ u.EqOK ∧ ∃ op ∈ ops ++ ops', op.isMany) (p ∨ ∃ op ∈ ops ++ ops', op.isIndex)
      (UMap.cloneSessionO u ck cv (UMap.facadeO env u payload) ops ops')
      (things payload ++ (ops.flatMap MapOp.brings ++ ops'.flatMap MapOp.brings)) :=
  (UMap.cloneSessionO_tracks u ck cv (UMap.facadeO_tracks env u payload) ops ops').dropsOnce
    (C58_misbehaving env u hu ck cv (fun _ _ => True) (fun _ _ => True) hck hcv payload hbig ops ops')

/-- Construction returns the very things it was given, having dropped and cloned none; if it panics it
has dropped each of them once. Whatever the caller's code does. -/
theorem C90_construction [Target] (env : Env) (S : IdxTy) (u : UserCode σ K Q) (payload : List (K × V)) :
    Accounts (UMap.facadeO env u payload) (things payload) (fun m => things m.entries) ∧
    Accounts (UMap.fromVecO env S u payload) (things payload) (fun m => things m.entries) ∧
    DropsOnly (fun _ => False) (UMap.facadeO env u payload) ∧
    DropsOnly (fun _ => False) (UMap.fromVecO env S u payload) :=
  ⟨(UMap.facadeO_tracks env u payload).accounts, (UMap.fromVecO_tracks env S u payload).accounts,
    (UMap.facadeO_spares env u payload).dropsOnly, (UMap.fromVecO_spares env S u payload).dropsOnly⟩

/-- The same for string keys. -/
theorem C90_string_construction [Target] (env : Env) (h : HasherCode σ) (payload : List (Bytes × V)) :
    Accounts (UMap.stringFacadeO env h payload) (things payload) (fun m => things m.2.entries) ∧
    DropsOnly (fun _ => False) (UMap.stringFacadeO env h payload) :=
  ⟨(UMap.stringFacadeO_tracks env h payload).accounts,
    (UMap.stringFacadeO_spares env h payload).dropsOnly⟩

/-- Range maps over integers of the caller's own, whose arithmetic may answer anything and panic. The
exception is that of C80: integers whose comparison and arithmetic do not fit together. -/
theorem C90_range_map (c : RangeCode σ K V Q) (hc : c.Safe) (payload : List (K × V))
    (ops : List (MapOp V Q)) :
    DropsOnce (¬ c.EqOK ∧ ∃ op ∈ ops, op.isMany) True
      ((RMap.api c).sessionO (RMap.fromVecO c payload) ops)
      (things payload ++ ops.flatMap MapOp.brings) :=
  (CallApi.sessionO_tracks (RMap.api_inside c) (RMap.fromVecO_tracks hc payload) ops).dropsOnce
    (C80_range_partial c hc payload ops)

/-- Range maps over integers of the caller's own, whose arithmetic may answer anything and panic. -/
theorem C90_range_construction (c : RangeCode σ K V Q) (hc : c.Safe) (payload : List (K × V)) :
    Accounts (RMap.fromVecO c payload) (things payload) (fun m => things m.entries) ∧
    DropsOnly (fun _ => False) (RMap.fromVecO c payload) :=
  ⟨(RMap.fromVecO_tracks hc payload).accounts, ((Spares.call _).holding _).dropsOnly⟩

/-- While the map lives: after any history the keys and values in the map and those dropped are
together exactly those given and stored, and no key has been dropped. -/
theorem C90_alive [Target] (env : Env) (u : UserCode σ K K) (payload : List (K × V))
    (ops : List (MapOp V K)) :
    Accounts ((UMap.api u).useO (UMap.facadeO env u payload) ops)
      (things payload ++ ops.flatMap MapOp.brings) (fun r => things r.2.entries) ∧
    DropsOnly Thing.IsValue ((UMap.api u).useO (UMap.facadeO env u payload) ops) :=
  ⟨(CallApi.useO_tracks (UMap.api_inside u) (UMap.facadeO_tracks env u payload) ops).accounts,
    (Spares.bind ((UMap.facadeO_spares env u payload).holding _)
      fun m => CallApi.runO_spares (UMap.api u) m ops).dropsOnly⟩

/-- Collecting an iterator of the caller's that panics after some items, or ends: what it handed out is
dropped once. -/
theorem C90_iterator [Target] (env : Env) (u : UserCode σ K K) (src : Source (K × V))
    (ops : List (MapOp V K)) :
    Accounts (UMap.collectSessionO u (UMap.facadeO env u) src ops)
      (things src.items ++ ops.flatMap MapOp.brings) (fun _ => []) :=
  (Tallies.bind ((Source.vecO_tracks src).holding _) fun payload _ =>
    UMap.sessionO_tracks u (UMap.facadeO_tracks env u payload) ops).accounts

/-- Keeping account of things changes nothing: without the log these are the constructor, the history
and the clones that C56, C58, C64 and C71 speak of. -/
theorem C90_log_changes_nothing [Target] (env : Env) (S : IdxTy) (u : UserCode σ K K)
    (h : HasherCode σ) (ck : K → Call σ K) (cv : V → Call σ V) (payload : List (K × V))
    (strings : List (Bytes × V)) (ops ops' : List (MapOp V K)) (ops'' : List (MapOp V Bytes)) :
    (UMap.facadeO env u payload).forget = UMap.facade env u payload ∧
    (UMap.fromVecO env S u payload).forget = UMap.fromVec env S u payload ∧
    ((UMap.api u).sessionO (UMap.facadeO env u payload) ops).forget
      = UMap.session u (UMap.facade env u payload) ops ∧
    (UMap.stringSessionO env h strings ops'').forget = UMap.stringSession env h strings ops'' ∧
    (UMap.cloneSessionO u ck cv (UMap.facadeO env u payload) ops ops').forget
      = UMap.cloneSession u ck cv (UMap.facade env u payload) ops ops' :=
  ⟨(UMap.facadeO_tracks env u payload).forget, (UMap.fromVecO_tracks env S u payload).forget,
    (UMap.sessionO_tracks u (UMap.facadeO_tracks env u payload) ops).forget,
    (UMap.stringSessionO_tracks env h strings ops'').forget,
    (UMap.cloneSessionO_tracks u ck cv (UMap.facadeO_tracks env u payload) ops ops').forget⟩

/-! ### The hypotheses are met -/

/-- A key type whose code panics at its `n`-th call. -/
def panicAt (n : Nat) : UserCode Nat Nat Nat where
  sizeCode k := fun s => if s = n then .panic else .ok (k, s + 1)
  slotCode k := fun s => if s = n then .panic else .ok (k, s + 1)
  probeCode k := fun s => if s = n then .panic else .ok (k, s + 1)
  isMatch a b := fun s => if s = n then .panic else .ok (a == b, s + 1)
  isSame a b := fun s => if s = n then .panic else .ok (a == b, s + 1)

theorem panicAt_behaves {α : Type} (n : Nat) (a : α) :
    Behaves False True (fun s : Nat => if s = n then .panic else .ok (a, s + 1)) (fun _ => True) := by
  intro s
  by_cases h : s = n <;> simp [h]

theorem panicAt_safe (n : Nat) : (panicAt n).Safe True where
  sizeCode _ := panicAt_behaves n _
  slotCode _ := panicAt_behaves n _
  probeCode _ := panicAt_behaves n _
  isMatch _ _ := panicAt_behaves n _
  isSame _ _ := panicAt_behaves n _

/-- How a run ended, for comparison. -/
def Fate.seen {α : Type} : Fate σ K V α → Option (Bool × List (Fact K V))
  | .done _ _ log => some (true, log)
  | .unwound log => some (false, log)
  | .ub => none

/-- The fifth call is the first `hash` of the second pass: four pairs are dropped from `payload`. -/
example : ((UMap.api (panicAt 4)).sessionO (UMap.facadeO checkedEnv (panicAt 4)
      [(1, 10), (2, 20), (3, 30), (4, 40)]) [.getMut 1 99] 0 []).seen
    = some (false, [.dropped (.key 1), .dropped (.value 10), .dropped (.key 2), .dropped (.value 20),
        .dropped (.key 3), .dropped (.value 30), .dropped (.key 4), .dropped (.value 40),
        .dropped (.value 99)]) := by decide +kernel

/-- The seventh is the third `hash` of the second pass: one pair is in `entry`, one not yet taken, two in
`prep_items`. -/
example : ((UMap.api (panicAt 6)).sessionO (UMap.facadeO checkedEnv (panicAt 6)
      [(1, 10), (2, 20), (3, 30), (4, 40)]) [.getMut 1 99] 0 []).seen
    = some (false, [.dropped (.key 3), .dropped (.value 30), .dropped (.key 4), .dropped (.value 40),
        .dropped (.key 1), .dropped (.value 10), .dropped (.key 2), .dropped (.value 20),
        .dropped (.value 99)]) := by decide +kernel

/-- The ninth is that of the lookup: the map is dropped. -/
example : (((UMap.api (panicAt 8)).sessionO (UMap.facadeO checkedEnv (panicAt 8)
      [(1, 10), (2, 20), (3, 30), (4, 40)]) [.getMut 1 99] 0 []).seen.map
        (fun r => (r.1, (droppedIn r.2).length))) = some (false, 9) := by decide +kernel

/-- No panic: the value written over is dropped first, then the map. -/
example : ((UMap.api (panicAt 100)).sessionO (UMap.facadeO checkedEnv (panicAt 100)
      [(1, 10), (2, 20)]) [.getMut 1 99, .getMut 7 98] 0 []).seen
    = some (true, [.dropped (.value 10), .dropped (.value 98), .dropped (.key 1), .dropped (.value 99),
        .dropped (.key 2), .dropped (.value 20)]) := by decide +kernel

example (n : Nat) := C90_frozen_map checkedEnv (panicAt n) (panicAt_safe n)
  [(1, 10), (2, 20), (3, 30), (4, 40)] (fun _ => trivial) [.getMut 1 99, .indexMut 2 5, .len]

example (n : Nat) := C90_scanning_map (panicAt n) (panicAt_safe n) [(1, 10), (2, 20)] [.getMut 1 99, .iter]

example (n : Nat) := C90_hashed_map checkedEnv IdxTy.u8 (panicAt n) (panicAt_safe n)
  [(1, 10), (2, 20), (3, 30), (4, 40)] (fun _ => trivial) [.getManyMut [(1, 5), (2, 6)], .iter]

example (ops : List (MapOp Nat Bytes)) (hops : ∀ op ∈ ops, ¬ op.isIndex) :
    DropsOnce False False (UMap.stringSessionO checkedEnv moodyHasher sameLenKeys ops)
      (things sameLenKeys ++ ops.flatMap MapOp.brings) := by
  intro s
  have := C90_string_map checkedEnv moodyHasher moodyHasher_safe sameLenKeys (by decide) (by decide) ops s
  split <;> rename_i e <;> rw [e] at this
  · exact this
  · exact ⟨this.1.elim id fun h => h.elim sameLenKeys_safe fun ⟨op, h1, h2⟩ => hops op h1 h2, this.2⟩
  · exact sameLenKeys_safe this

example (n : Nat) := C90_frozen_set checkedEnv (panicAt n) (panicAt_safe n) [1, 2, 3, 4, 5]
  (fun _ => trivial) [.contains 3, .get 9, .iter]

/-- A `Clone` that panics at the third call: a whole pair and a lone key have been cloned and are dropped
together with the map. -/
example : (UMap.cloneSessionO (panicAt 100) (fun k s => if s = 2 then .panic else .ok (k, s + 1))
      (fun v s => if s = 3 then .panic else .ok (v + 1, s + 1)) (pure (.scanning [(1, 10), (2, 20)]))
      [.getMut 1 99] [] 0 []).seen
    = some (false, [.cloned (.key 1), .cloned (.value 11), .dropped (.key 1), .dropped (.value 11),
        .dropped (.key 1), .dropped (.value 10), .dropped (.key 2), .dropped (.value 20),
        .dropped (.value 99)]) := by decide +kernel

example : (UMap.cloneSessionO (panicAt 100) (fun k s => .ok (k, s + 1))
      (fun v s => if s = 3 then .panic else .ok (v + 1, s + 1)) (pure (.scanning [(1, 10), (2, 20)]))
      [.getMut 1 99] [] 0 []).seen
    = some (false, [.cloned (.key 1), .cloned (.value 11), .cloned (.key 2), .dropped (.key 2),
        .dropped (.key 1), .dropped (.value 11), .dropped (.key 1), .dropped (.value 10),
        .dropped (.key 2), .dropped (.value 20), .dropped (.value 99)]) := by decide +kernel

example (n : Nat) := C90_clone checkedEnv (panicAt n) (panicAt_safe n)
  (fun k s => if s = n then .panic else .ok (k, s + 1)) (fun v s => if s = n then .panic else .ok (v, s + 1))
  (fun _ => panicAt_behaves n _) (fun _ => panicAt_behaves n _)
  [(1, 10), (2, 20), (3, 30), (4, 40)] (fun _ => trivial) [.getMut 1 99] [.iter]

/-- An iterator that panics after two pairs. -/
example : (UMap.collectSessionO (panicAt 100) (UMap.facadeO checkedEnv (panicAt 100))
      (.panics [(1, 10), (2, 20)]) [] 0 []).seen
    = some (false, [.dropped (.key 1), .dropped (.value 10), .dropped (.key 2), .dropped (.value 20)]) := by
  decide +kernel

/-- Integers with a gap: the constructor panics, and drops the pairs. -/
example : (RMap.fromVecO { bigNats with sort := pure } [(1, 10), (4, 30)] () []).seen
    = some (false, [.dropped (.key 1), .dropped (.value 10), .dropped (.key 4), .dropped (.value 30)]) := by
  decide +kernel

example := C90_range_map moodyInts moodyInts_safe [(1, 10), (2, 20), (4, 30)] [.getMut 4 7, .indexMut 1 6, .iter]

/-- A range map in which one value is written over and another is not stored. -/
example : ((RMap.api { bigNats with sort := pure }).sessionO
      (RMap.fromVecO { bigNats with sort := pure } [(1, 10), (2, 30)]) [.getMut 2 99, .getMut 7 98] () []).seen
    = some (true, [.dropped (.value 30), .dropped (.value 98), .dropped (.key 1), .dropped (.value 10),
        .dropped (.key 2), .dropped (.value 99)]) := by decide +kernel

example := C90_range_construction moodyInts moodyInts_safe [(1, 10), (2, 20), (4, 30)]

end FC
