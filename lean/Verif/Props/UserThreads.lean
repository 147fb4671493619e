import Verif.Lemmas.UserThreadsAlone
import Verif.Props.UserCode
import Verif.Props.StringCode
import Verif.Props.SetLookups

/-
C91: threads that share a map whose key type misbehaves.
-/

set_option autoImplicit false

namespace FC
variable {σ K V Q : Type}

theorem UMap.sharing_behaves {p : Prop} {u : UserCode σ K Q} (hu : u.SafeLookup p) {m : UMap K V}
    (hm : m.OK) {payload : List (K × V)} (hp : m.entries.Perm payload) {R : Q → K → Prop}
    (hR : ∀ q k, u.MayMatch q k → R q k) {U : Prop} (before : List (MapOp V Q))
    (progs : List (List (SharedOp Q))) (turns : List (Turn σ)) (after : List (MapOp V Q))
    (hU : ∀ op ∈ before ++ after, op.isMany → u.EqOK ∨ U) :
    Behaves U (p ∨ ∃ op ∈ before ++ after, op.isIndex)
      (do
        let r ← m.run u before
        let ts ← r.2.share u turns (progs.map UReader.new)
        let r' ← r.2.run u after
        return (r.1, ts, r'.1))
      (fun x => SharedOutcome R p payload before progs turns after x.1 x.2.1 x.2.2) := by
  refine ((UMap.run_behaves hu before (fun op h => hU op (by simp [h])) m hm).and
    (UMap.run_behaves_then hu before (fun op h => hU op (by simp [h])) m hm)).mono (fun h => h.1)
    (fun h => h.1.imp id (fun ⟨op, h1, h2⟩ => ⟨op, by simp [h1], h2⟩)) (fun _ h => h) |>.bind
      (fun r hr => ?_)
  obtain ⟨⟨hok, _, hlen⟩, _, hbefore⟩ := hr
  refine ((UMap.share_behaves hu hok progs turns (progs.map UReader.new) (fun _ => 0) (by simp)
    (fun i prog hi => ⟨_, [], by simp [hi], .start _ _ _ _⟩)).mono False.elim False.elim
    (fun _ h => h)).bind (fun ts hts => ?_)
  refine ((UMap.run_behaves hu after (fun op h => hU op (by simp [h])) r.2 hok).mono id
    (Or.imp id (fun ⟨op, h1, h2⟩ => ⟨op, by simp [h1], h2⟩)) (fun _ h => h)).bind (fun r' hr' => ?_)
  refine .pure ⟨hts.1, m.entries, hp, (hbefore _ _ hr'.2.1).mono hR, fun i prog hi => ?_⟩
  obtain ⟨t, done, ht, hg⟩ := hts.2 i prog hi
  obtain ⟨h1, h2, h3⟩ := hg.outcome
  refine ⟨t, done.length, ht, ?_, h2, fun hk => h3 ?_⟩
  · rw [← h1, List.append_assoc, List.append_assoc]
    exact (hbefore _ _ (hg.run _ _ hr'.2.1)).mono hR
  · rw [Nat.zero_add, hlen, hp.length_eq]
    exact hk

theorem UMap.sharedSession_behaves {p : Prop} {u : UserCode σ K Q} (hu : u.SafeLookup p)
    {build : Call σ (UMap K V)} {payload : List (K × V)}
    (hb : Behaves False p build (fun m => m.OK ∧ m.entries.Perm payload))
    (before : List (MapOp V Q)) (progs : List (List (SharedOp Q))) (turns : List (Turn σ))
    (after : List (MapOp V Q)) :
    Behaves (¬ u.EqOK ∧ ∃ op ∈ before ++ after, op.isMany) (p ∨ ∃ op ∈ before ++ after, op.isIndex)
      (UMap.sharedSession u build before progs turns after)
      (fun x => SharedOutcome u.MayMatch p payload before progs turns after x.1 x.2.1 x.2.2) := by
  unfold UMap.sharedSession
  refine (hb.mono False.elim Or.inl (fun _ h => h)).bind (fun m hm => ?_)
  refine UMap.sharing_behaves hu hm.1 hm.2 (fun _ _ h => h) before progs turns after ?_
  intro op hop hmany
  by_cases h : u.EqOK
  · exact .inl h
  · exact .inr ⟨h, op, hop, hmany⟩

/-- `FrozenMap` with a key type of the caller's own, used for a while, then shared by any number of
threads with any programs and any scheduler, while the state behind the key type's code changes at will,
then used again. There is no undefined behaviour, but for the exception of C56 in the parts where the map
is not shared. No panic gets out of a thread: one that panics, because the key type's code does (`p`) or
because it indexes, is lost, and the others and the map are not touched by it. Each thread sees what it
could have seen alone. -/
theorem C91_frozen_map [Target] {p : Prop} (env : Env) (u : UserCode σ K K) (hu : u.Safe p)
    (payload : List (K × V)) (hbig : 2 ^ 31 ≤ payload.length → p) (before : List (MapOp V K))
    (progs : List (List (SharedOp K))) (turns : List (Turn σ)) (after : List (MapOp V K)) :
    Behaves (¬ u.EqOK ∧ ∃ op ∈ before ++ after, op.isMany) (p ∨ ∃ op ∈ before ++ after, op.isIndex)
      (UMap.sharedSession u (UMap.facade env u payload) before progs turns after)
      (fun x => SharedOutcome u.MayMatch p payload before progs turns after x.1 x.2.1 x.2.2) :=
  UMap.sharedSession_behaves hu.toSafeLookup (UMap.facade_behaves env hu hbig) before progs turns after

/-- `ScanningMap`. -/
theorem C91_scanning_map {p : Prop} (u : UserCode σ K Q) (hu : u.Safe p) (payload : List (K × V))
    (before : List (MapOp V Q)) (progs : List (List (SharedOp Q))) (turns : List (Turn σ))
    (after : List (MapOp V Q)) :
    Behaves (¬ u.EqOK ∧ ∃ op ∈ before ++ after, op.isMany) (p ∨ ∃ op ∈ before ++ after, op.isIndex)
      (UMap.sharedSession u (pure (.scanning payload)) before progs turns after)
      (fun x => SharedOutcome u.MayMatch p payload before progs turns after x.1 x.2.1 x.2.2) :=
  UMap.sharedSession_behaves hu.toSafeLookup
    (.pure (show (UMap.scanning payload).OK ∧ _ from ⟨trivial, .refl _⟩)) before progs turns after

/-- `CommonMap`, `LengthMap`, `LeftSliceMap`, `RightSliceMap` and `IntegerMap`, of any size: `u` is the
code each makes of the caller's (Model/UserCode). When the map cannot hold the payload (C68), `p` must
allow a panic, and nothing worse happens. -/
theorem C91_hashed_map [Target] {p : Prop} (env : Env) (S : IdxTy) (u : UserCode σ K Q) (hu : u.Safe p)
    (payload : List (K × V)) (hbig : ¬ S.Holds payload.length → p) (before : List (MapOp V Q))
    (progs : List (List (SharedOp Q))) (turns : List (Turn σ)) (after : List (MapOp V Q)) :
    Behaves (¬ u.EqOK ∧ ∃ op ∈ before ++ after, op.isMany) (p ∨ ∃ op ∈ before ++ after, op.isIndex)
      (UMap.sharedSession u (UMap.fromVec env S u payload) before progs turns after)
      (fun x => SharedOutcome u.MayMatch p payload before progs turns after x.1 x.2.1 x.2.2) :=
  UMap.sharedSession_behaves hu.toSafeLookup (UMap.fromVec_behaves env hu hbig) before progs turns after

/-- `FrozenMap<String, V>` with a hasher that misbehaves: the threads find pairs with exactly the keys
they ask for, or miss. As in C64 the keys must not make the crate try the ends of strings. -/
theorem C91_string_map [Target] {p : Prop} (env : Env) (h : HasherCode σ) (hh : h.Safe p)
    (payload : List (Bytes × V)) (hbig : 2 ^ 31 ≤ payload.length → p)
    (hlen : ∀ e ∈ payload, e.1.length < usz / 2) (before : List (MapOp V Bytes))
    (progs : List (List (SharedOp Bytes))) (turns : List (Turn σ)) (after : List (MapOp V Bytes)) :
    Behaves (TriesEnds (payload.map (·.1)))
      (p ∨ TriesEnds (payload.map (·.1)) ∨ ∃ op ∈ before ++ after, op.isIndex)
      (do
        let m ← UMap.stringFacade env h payload
        UMap.sharedSession (m.1.code env.oc h) (pure m.2) before progs turns after)
      (fun x => SharedOutcome (fun q k => q = k) p payload before progs turns after x.1 x.2.1 x.2.2) := by
  refine ((UMap.stringFacade_behaves env hh hbig (fun e he => by have := hlen e he; omega)).mono id
    (Or.imp id Or.inl) (fun _ h => h)).bind (fun m hm => ?_)
  exact (UMap.sharing_behaves (U := False) hm.1 hm.2.1 hm.2.2
    (fun _ _ h => StringRep.code_mayMatch h) before progs turns after
    (fun _ _ _ => Or.inl (StringRep.code_eqOK h env.oc m.1))).mono False.elim (Or.imp id Or.inr)
    (fun _ h => h)

/-- `FrozenSet` with an element type of the caller's own. A set is a map to `()`: `contains` is
`containsKey`, `get` is `getKeyValue`, which shows the element, and there are no other lookups. -/
theorem C91_frozen_set [Target] {p : Prop} (env : Env) (u : UserCode σ K K) (hu : u.Safe p)
    (payload : List K) (hbig : 2 ^ 31 ≤ payload.length → p) (progs : List (List (SharedOp K)))
    (turns : List (Turn σ)) :
    Behaves False p (UMap.sharedSession u (UMap.setFacade env u payload) [] progs turns [])
      (fun x => SharedOutcome u.MayMatch p (payload.map (fun k => (k, ()))) [] progs turns []
        x.1 x.2.1 x.2.2) := by
  rw [UMap.setFacade_eq]
  exact (UMap.sharedSession_behaves hu.toSafeLookup
    (UMap.facade_behaves env hu (by rwa [unitPayload_length])) [] progs turns []).mono (by simp)
    (by simp) (fun _ h => h)

/-- A thread that has the machine for itself does exactly what the operations do one after the other, the
calls into the key type's code included: with enough turns it ends with their answers and leaves the
state as they do; it panics if they do. So the threads of the other theorems run the code of C56. -/
theorem C91_alone (u : UserCode σ K Q) (m : UMap K V) (prog : List (SharedOp Q)) (N : Nat)
    (hN : prog.length * (m.entries.length + 2) ≤ N) (s : σ) :
    match m.run u (prog.map SharedOp.toMapOp) s with
    | .ok r => r.1.2 = m ∧ m.share u (List.replicate N (.thread 0)) [UReader.new prog] s
        = .ok ([⟨[], .nothing, r.1.1, false⟩], r.2)
    | .panic => ∃ (t : UReader K V Q) (s' : σ), t.panicked = true ∧
        m.share u (List.replicate N (.thread 0)) [UReader.new prog] s = .ok ([t], s')
    | .ub => m.share u (List.replicate N (.thread 0)) [UReader.new prog] s = .ub := by
  have h := UReader.steps_run u m prog N [] s hN
  rw [UMap.share_single]
  show match m.run u (prog.map SharedOp.toMapOp) s with
    | .ok r => r.1.2 = m ∧ Res.map _ (UReader.steps u m N ⟨prog, .nothing, [], false⟩ s) = _
    | .panic => ∃ (t : UReader K V Q) (s' : σ), t.panicked = true ∧
        Res.map _ (UReader.steps u m N ⟨prog, .nothing, [], false⟩ s) = .ok ([t], s')
    | .ub => Res.map _ (UReader.steps u m N ⟨prog, .nothing, [], false⟩ s) = .ub
  revert h
  cases m.run u (prog.map SharedOp.toMapOp) s with
  | ok r =>
    rintro ⟨h1, h2⟩
    refine ⟨h1, ?_⟩
    rw [h2]
    rfl
  | panic =>
    rintro ⟨t, s', h1, h2⟩
    refine ⟨t, s', h1, ?_⟩
    rw [h2]
    rfl
  | ub =>
    intro h
    rw [h]
    rfl

/-! ### Instances -/

/-- Keys with a counter behind them that decides the answers, and that the threads, and others, share. -/
def exSharing : List (Turn Nat) :=
  [.thread 1, .thread 0, .thread 0, .elsewhere (· * 2), .thread 1, .thread 2, .thread 0, .thread 1,
    .elsewhere (fun _ => 4), .thread 0, .thread 1, .thread 0, .thread 1, .thread 7, .thread 0, .thread 1,
    .thread 1, .thread 1, .thread 1, .thread 0, .thread 0]

/-- Three threads: lookups of one key twice, an iteration and a lookup, indexing. -/
def exShared : List (List (SharedOp Nat)) :=
  [[.look .getKeyValue 1, .look .getKeyValue 1, .len], [.iter, .look .containsKey 9], [.look .index 1]]

def exFive : List (Nat × Nat) := [(1, 10), (2, 20), (3, 30), (4, 40), (5, 50)]

/-- What was seen, and which threads panicked. -/
def sharedSeen (r : Res ((List (Out K V) × List (UReader K V Q) × List (Out K V)) × σ)) :
    Res (List (Out K V) × List (List (Out K V) × Bool) × List (Out K V)) :=
  r.map (fun x => (x.1.1, x.1.2.1.map (fun t => (t.outs, t.panicked)), x.1.2.2))

set_option synthInstance.maxSize 1000 in
/-- The two lookups of one key are answered differently, the iteration is whole, the third thread is in
the middle of its lookup. -/
example : sharedSeen (UMap.sharedSession moodyCode (UMap.facade checkedEnv moodyCode exFive) [.getMut 1 99]
      exShared exSharing [.len, .iter] 0)
    = .ok ([.value none],
      [([.entry none, .entry (some (1, 10)), .number 5], false),
        ([.items [(5, 50), (3, 30), (2, 20), (1, 10), (4, 40)], .bool false], false), ([], false)],
      [.number 5, .items [(5, 50), (3, 30), (2, 20), (1, 10), (4, 40)]]) := by decide +kernel

/-- Keys that also panic now and then. -/
def fragileCode : UserCode Nat Nat Nat where
  sizeCode := moodyCode.sizeCode
  slotCode := moodyCode.slotCode
  probeCode := moodyCode.probeCode
  isMatch q k := fun s => if s % 7 = 5 then .panic else .ok (q == k, s + 1)
  isSame := moodyCode.isSame

theorem fragileCode_safe : fragileCode.Safe True :=
  .of (fun _ _ => trivial) (fun _ _ => trivial) (fun _ _ => trivial)
    (fun q k s => by
      simp only [fragileCode]
      by_cases h : s % 7 = 5
      · simp [h]
      · simp [h])
    (fun _ _ _ => trivial)

set_option synthInstance.maxSize 1000 in
/-- The first thread panics in its second lookup, the others and the owner go on. -/
example : sharedSeen (UMap.sharedSession fragileCode (pure (.scanning exFive)) [.getMut 1 99] exShared
      [.thread 0, .thread 0, .thread 0, .thread 2, .thread 2, .elsewhere (· + 7), .thread 0, .thread 0,
        .thread 1, .thread 1, .elsewhere (fun _ => 0)] [.len, .get 2] 2)
    = .ok ([.value (some 10)], [([.entry (some (1, 99))], true), ([], false), ([.value (some 99)], false)],
      [.number 5, .value (some 20)]) := by decide +kernel

example := C91_frozen_map checkedEnv moodyCode moodyCode_safe exFive (by decide) [.getMut 1 99] exShared
  exSharing [.len]

example := C91_scanning_map fragileCode fragileCode_safe exFive [.getMut 1 99] exShared exSharing [.get 2]

example := C91_hashed_map checkedEnv IdxTy.u8 moodyCode moodyCode_safe exFive
  (fun h => h ⟨255, by decide, by decide⟩) [.getMut 1 99] exShared exSharing [.len]

example (before after : List (MapOp Nat Bytes)) (progs : List (List (SharedOp Bytes)))
    (turns : List (Turn Nat)) :=
  C91_string_map checkedEnv moodyHasher moodyHasher_safe sameLenKeys (by decide) (by decide) before progs
    turns after

example := C91_frozen_set checkedEnv moodyCode moodyCode_safe [1, 2, 3, 4, 5] (by decide) exShared exSharing

example := C91_alone moodyCode (.scanning exFive) [.look .get 1, .iter, .look .index 2] 21 (by decide) 5

end FC
