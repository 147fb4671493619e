import Verif.Lemmas.Calls
import Verif.Props.UserCode

/-
C65: exactly which calls of the caller's `Hash` and `Eq` a map makes, and in which order.
-/

set_option autoImplicit false

namespace FC
variable {σ K V Q : Type}

/-- `CommonMap`, `LengthMap`, `LeftSliceMap`, `RightSliceMap`: the hash-based maps, whatever the
caller's code does. -/
theorem C65_hashed_map [Target] (env : Env) (S : IdxTy) (u : UserCode σ K Q) (payload : List (K × V))
    (h32 : payload.length < 2 ^ 32) (ops : List (MapOp V Q)) :
    Logs (UMap.session u.logged (UMap.fromVec env S u.logged payload) ops)
      (HashedCalls payload ops) := by
  refine (UMap.fromVec_logs env S u payload h32).bind (fun m ev hev => ?_)
  obtain ⟨lay, sizes, codes, h1, h2, rfl, h3, h4, h5⟩ := hev
  refine (UMap.run_logs u ops h3).bind (fun r ev' hev' => .pure ?_)
  refine ⟨sizes, codes, lay, m.entries.map (·.1), ev', h1, h2, by simp, ?_, ?_, h5, hev'⟩
  · cases m with
    | scanning es => cases h3
    | hashed T =>
      have hT : T.Laid lay := h3
      simp [hT.places, UMap.entries]
  · have := h4.map (Prod.map Prod.fst id)
    rwa [← List.zip_map_left, ← List.zip_map_left] at this

example := C65_hashed_map checkedEnv IdxTy.u8 moodyHash [(1, 10), (2, 20), (3, 30)] (by decide)
  [.get 1, .getMut 3 33, .getManyMut [(1, 7), (2, 8)]]

/-- `ScanningMap`: nothing is ever hashed. A lookup compares the key asked for with the stored keys, in
the order given, up to the first yes. -/
theorem C65_scanning_map (u : UserCode σ K Q) (payload : List (K × V)) (ops : List (MapOp V Q)) :
    Logs (UMap.session u.logged (pure (.scanning payload)) ops)
      (CallsAll (payload.map (·.1)) none ops) := by
  refine (Logs.pure (P := fun m ev => m = .scanning payload ∧ ev = []) ⟨rfl, rfl⟩).bind
    (fun m ev hev => ?_)
  obtain ⟨rfl, rfl⟩ := hev
  exact (UMap.run_logs u (lay := none) ops (m := .scanning payload) trivial).bind
    (fun r ev hev => .pure (by simpa [UMap.entries] using hev))

/-- `FrozenMap` over a key type of the caller's own: as `ScanningMap` for fewer than four pairs,
otherwise as `CommonMap`. -/
theorem C65_frozen_map [Target] (env : Env) (u : UserCode σ K Q) (payload : List (K × V))
    (h32 : payload.length < 2 ^ 32) (ops : List (MapOp V Q)) :
    Logs (UMap.session u.logged (UMap.facade env u.logged payload) ops)
      (if payload.length < 4 then CallsAll (payload.map (·.1)) none ops
        else HashedCalls payload ops) := by
  unfold UMap.facade
  by_cases h : payload.length < 4
  · simp only [if_pos h]; exact C65_scanning_map u payload ops
  · simp only [if_neg h]
    by_cases h' : payload.length ≤ 255
    · simp only [if_pos h']; exact C65_hashed_map env _ u payload h32 ops
    · simp only [if_neg h']; exact C65_hashed_map env _ u payload h32 ops

example := C65_frozen_map checkedEnv moodyHash [(1, 10), (2, 20), (3, 30), (4, 40), (5, 50)] (by decide)
  [.get 1, .getMut 5 55, .len, .getManyMut [(1, 7), (2, 8), (1, 9)], .containsKey 4]

/-- No operation of a history hashes a stored key again. -/
theorem C65_stored_keys_never_hashed (keys : List K) (lay : Option Layout) (ops : List (MapOp V Q))
    (outs : List (Out K V)) (ev : List (CallEvent K Q)) (h : CallsAll keys lay ops outs ev) :
    ∀ e ∈ ev, ¬ e.ofPayload := by
  have hc : ∀ (q : Q) (es : List (K × V)) (o : Option (K × V)) (ev : List (CallEvent K Q)),
      Compares q es o ev → ∀ e ∈ ev, ¬ e.ofPayload := by
    intro q es o ev h
    induction h with
    | none => simp
    | hit e es => simp [CallEvent.ofPayload]
    | miss e es o ev h ih =>
      intro e he
      rcases List.mem_cons.1 he with rfl | he
      · exact id
      · exact ih e he
  have hl : ∀ (d : List (K × V)) (q : Q) (lay : Option Layout) (o : Option (K × V))
      (ev : List (CallEvent K Q)), Looks d q lay o ev → ∀ e ∈ ev, ¬ e.ofPayload := by
    intro d q lay o ev h
    cases h with
    | scan _ _ h => exact hc _ _ _ _ h
    | table lay code _ ev h =>
      intro e he
      rcases List.mem_cons.1 he with rfl | he
      · exact id
      · exact hc _ _ _ _ h e he
  have hp : ∀ (l : List (Q × Q)) (b : Bool) (ev : List (CallEvent K Q)), Pairs l b ev →
      ∀ e ∈ ev, ¬ e.ofPayload := by
    intro l b ev h
    induction h with
    | distinct => simp
    | same ab l => simp [CallEvent.ofPayload]
    | differ ab l b ev h ih =>
      intro e he
      rcases List.mem_cons.1 he with rfl | he
      · exact id
      · exact ih e he
  have ha : ∀ (d : List (K × V)) (lay : Option Layout) (qs : List Q) (o : Option (List (K × V)))
      (ev : List (CallEvent K Q)), LooksAll d lay qs o ev → ∀ e ∈ ev, ¬ e.ofPayload := by
    intro d lay qs o ev h
    induction h with
    | done => simp
    | missing q qs ev h => exact hl _ _ _ _ _ h
    | found q qs e o ev ev' h _ ih =>
      intro e he
      rcases List.mem_append.1 he with he | he
      · exact hl _ _ _ _ _ h e he
      · exact ih e he
  induction h with
  | nil => simp
  | cons d op ops o os ev ev' _ h _ ih =>
    intro e he
    rcases List.mem_append.1 he with he | he
    · cases h with
      | get q o ev h => exact hl _ _ _ _ _ h e he
      | getKeyValue q o ev h => exact hl _ _ _ _ _ h e he
      | containsKey q o ev h => exact hl _ _ _ _ _ h e he
      | index q o ev h => exact hl _ _ _ _ _ h e he
      | len => cases he
      | iter => cases he
      | keys => cases he
      | values => cases he
      | getMut q v o ev h => exact hl _ _ _ _ _ h e he
      | indexMut q v o ev h => exact hl _ _ _ _ _ h e he
      | repeated qvs ev h => exact hp _ _ _ h e he
      | many qvs o ev ev' h1 h2 =>
        rcases List.mem_append.1 he with he | he
        · exact hp _ _ _ h1 e he
        · exact ha _ _ _ _ _ h2 e he
    · exact ih e he

/-- The log is only watched: without it, the same is seen, and panics are the same. -/
theorem C65_log_changes_nothing [Target] (env : Env) (u : UserCode σ K Q) (payload : List (K × V))
    (ops : List (MapOp V Q)) (s : σ) (log : List (CallEvent K Q)) :
    (UMap.session u.logged (UMap.facade env u.logged payload) ops (s, log)).map
        (fun r => (r.1, r.2.1))
      = UMap.session u (UMap.facade env u payload) ops s :=
  ((UMap.facade_forgets env u.logged_forgets payload).bind (fun m =>
    (UMap.run_forgets u.logged_forgets ops m).bind (fun _ => .pure))) s log

/-- The same for the hash-based maps. -/
theorem C65_log_changes_nothing_hashed [Target] (env : Env) (S : IdxTy) (u : UserCode σ K Q)
    (payload : List (K × V)) (ops : List (MapOp V Q)) (s : σ) (log : List (CallEvent K Q)) :
    (UMap.session u.logged (UMap.fromVec env S u.logged payload) ops (s, log)).map
        (fun r => (r.1, r.2.1))
      = UMap.session u (UMap.fromVec env S u payload) ops s :=
  ((UMap.fromVec_forgets env S u.logged_forgets payload).bind (fun m =>
    (UMap.run_forgets u.logged_forgets ops m).bind (fun _ => .pure))) s log

/-! ### Non-vacuity -/

/-- Five keys with changing hash codes and an `Eq` that does its job: ten hashes, then one hash per
lookup and comparisons in one slot only. -/
example : UMap.session moodyHash.logged (UMap.facade checkedEnv moodyHash.logged
      [(1, 10), (2, 20), (3, 30), (4, 40), (5, 50)])
      [.get 1, .getMut 5 55, .len, .getManyMut [(1, 7), (2, 8), (1, 9)], .containsKey 4] (3, [])
    = .ok ([.value none, .value (some 50), .number 5, .many none, .bool false],
        (19, [.sized 1 3, .sized 2 8, .sized 3 15, .sized 4 24, .sized 5 35,
          .placed 1 65, .placed 2 83, .placed 3 103, .placed 4 125, .placed 5 149,
          .hashed 1 14, .hashed 5 19, .compared 5 5 true, .paired 1 2 false, .paired 1 1 true,
          .hashed 4 22])) := by decide +kernel

/-- Three keys: nothing is hashed. -/
example : UMap.session moodyHash.logged (UMap.facade checkedEnv moodyHash.logged
      [(1, 10), (2, 20), (3, 30)]) [.get 2, .get 4] (0, [])
    = .ok ([.value (some 20), .value none],
        (5, [.compared 2 1 false, .compared 2 2 true, .compared 4 1 false, .compared 4 2 false,
          .compared 4 3 false])) := by decide +kernel

example := C65_stored_keys_never_hashed (K := Nat) (Q := Nat) (V := Nat) [1, 2, 3] (some ⟨3, [31, 32, 33]⟩)
  [.get 5] [.value none] [.hashed 5 35, .compared 5 2 false]
  (.cons [(1, 10), (2, 20), (3, 30)] _ _ _ _ [.hashed 5 35, .compared 5 2 false] [] rfl
    (.get 5 none _ (.table _ 35 none [.compared 5 2 false] (.miss (2, 20) [] none [] .none))) .nil)

end FC
