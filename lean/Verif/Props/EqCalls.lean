import Verif.Lemmas.EqCalls
import Verif.Props.Calls

/-
C65, continued: which calls `==` makes.
-/

set_option autoImplicit false

namespace FC
variable {σ K V : Type}

/-- Compare any map `m₁` with a `FrozenMap` that was built from `payload` and has a history behind it.
`==` makes no calls if the lengths differ. Otherwise it takes the pairs of `m₁` in order, looks each up
by its key in the other map, as `get` does, and compares its value with the one found; it stops at the
first key not found and at the first value found different, with `false`, and says `true` otherwise.
No key of `m₁` is compared with another, and no stored key of the other map is hashed. -/
theorem C65_eq [Target] (env : Env) (u : UserCode σ K K) (veq : V → V → Call σ Bool) (m₁ : UMap K V)
    (payload : List (K × V)) (h32 : payload.length < 2 ^ 32) (ops : List (MapOp V K)) :
    Logs (eqSession env u.loggedEq (loggedVals veq) m₁ payload ops) (fun r ev =>
      ∃ (keys : List K) (lay : Option Layout) (built hist : List (CallEvent K K))
        (eqs : List (EqEvent K V)), ev = built.map .key ++ hist.map .key ++ eqs ∧
        (if payload.length < 4 then lay = none ∧ keys = payload.map (·.1) ∧ built = []
          else ∃ l, lay = some l ∧ LaysOut payload keys l built) ∧
        CallsAll keys lay ops r.1 hist ∧ r.2.1.map (·.1) = keys ∧
        EqCalls m₁.entries r.2.1 lay r.2.2 eqs) := by
  have hrest : ∀ (m : UMap K V) (lay : Option Layout), m.Laid lay →
      Logs (do
        let r ← m.run u.loggedEq ops
        let b ← m₁.partialEq u.loggedEq (loggedVals veq) r.2
        return (r.1, r.2.entries, b)) (fun r ev =>
          ∃ (hist : List (CallEvent K K)) (eqs : List (EqEvent K V)), ev = hist.map .key ++ eqs ∧
            CallsAll (m.entries.map (·.1)) lay ops r.1 hist ∧
            r.2.1.map (·.1) = m.entries.map (·.1) ∧ EqCalls m₁.entries r.2.1 lay r.2.2 eqs) := by
    intro m lay hm
    refine ((UMap.run_translates (u.loggedEq_translates (V := V)) ops m).logs
      (UMap.run_logs_after u ops hm)).bind (fun r ev hev => ?_)
    obtain ⟨hist, rfl, h1, h2, h3⟩ := hev
    refine (UMap.partialEq_logs u veq m₁ h3).bind (fun b ev hb => .pure ?_)
    exact ⟨hist, ev, by simp, h1, h2, hb⟩
  have hvec : ∀ S : IdxTy, ¬ payload.length < 4 →
      Logs (UMap.fromVec env S (u.loggedEq (V := V)) payload) (fun m ev =>
        ∃ (built : List (CallEvent K K)) (l : Layout), ev = built.map .key ∧ m.Laid (some l) ∧
          LaysOut payload (m.entries.map (·.1)) l built) := by
    intro S _
    refine ((UMap.fromVec_translates env S (u.loggedEq_translates (V := V)) payload).logs
      (UMap.fromVec_logs env S u payload h32)).mono (fun m ev hev => ?_)
    obtain ⟨built, rfl, lay, sizes, codes, h1, h2, h3, h4, h5, h6⟩ := hev
    refine ⟨built, lay, rfl, h4, sizes, codes, h1, h2, h3, ?_, ?_, h6⟩
    · cases m with
      | scanning es => cases h4
      | hashed T =>
        have hT : T.Laid lay := h4
        simp [hT.places, UMap.entries]
    · have := h5.map (Prod.map Prod.fst id)
      rwa [← List.zip_map_left, ← List.zip_map_left] at this
  unfold eqSession UMap.facade
  by_cases h : payload.length < 4
  · rw [if_pos h]
    refine (Logs.pure (P := fun m ev => m = .scanning payload ∧ ev = []) ⟨rfl, rfl⟩).bind
      (fun m ev hev => ?_)
    obtain ⟨rfl, rfl⟩ := hev
    refine (hrest (.scanning payload) none trivial).mono (fun r ev hev => ?_)
    obtain ⟨hist, eqs, rfl, h1, h2, h3⟩ := hev
    exact ⟨payload.map (·.1), none, [], hist, eqs, by simp, by simp [h], h1, h2, h3⟩
  · have fin : ∀ S : IdxTy, Logs (do
        let m ← UMap.fromVec env S (u.loggedEq (V := V)) payload
        let r ← m.run u.loggedEq ops
        let b ← m₁.partialEq u.loggedEq (loggedVals veq) r.2
        return (r.1, r.2.entries, b)) (fun r ev =>
      ∃ (keys : List K) (lay : Option Layout) (built hist : List (CallEvent K K))
        (eqs : List (EqEvent K V)), ev = built.map .key ++ hist.map .key ++ eqs ∧
        (if payload.length < 4 then lay = none ∧ keys = payload.map (·.1) ∧ built = []
          else ∃ l, lay = some l ∧ LaysOut payload keys l built) ∧
        CallsAll keys lay ops r.1 hist ∧ r.2.1.map (·.1) = keys ∧
        EqCalls m₁.entries r.2.1 lay r.2.2 eqs) := by
      intro S
      refine (hvec S h).bind (fun m ev hev => ?_)
      obtain ⟨built, l, rfl, hm, hl⟩ := hev
      refine (hrest m (some l) hm).mono (fun r ev hev => ?_)
      obtain ⟨hist, eqs, rfl, h1, h2, h3⟩ := hev
      refine ⟨m.entries.map (·.1), some l, built, hist, eqs, by simp, ?_, h1, h2, h3⟩
      rw [if_neg h]
      exact ⟨l, rfl, hl⟩
    by_cases h' : payload.length ≤ 255
    · rw [if_neg h, if_pos h']; exact fin _
    · rw [if_neg h, if_neg h']; exact fin _

/-- A key type that hashes every key alike and compares properly. -/
def flatHash : UserCode Unit Nat Nat :=
  commonCode (fun _ s => .ok (7, s)) (fun _ s => .ok (7, s)) (fun q k s => .ok (q == k, s))
    (fun a b s => .ok (a == b, s))

example := C65_eq checkedEnv flatHash (fun a b s => .ok (a == b, s))
  (.scanning [(1, 10), (4, 41), (2, 20), (3, 30)]) [(1, 10), (2, 20), (3, 30), (4, 40)] (by decide)
  [.getMut 4 41]

/-- So when `==` says `true`, every pair of the one map was found in the other: `Eq` accepted a stored
key for its key, and the values under the two were found equal. -/
theorem C65_eq_true (d₁ d₂ : List (K × V)) (lay : Option Layout) (ev : List (EqEvent K V))
    (h : EqCalls d₁ d₂ lay true ev) :
    d₁.length = d₂.length ∧ ∀ e ∈ d₁, ∃ e' ∈ d₂, EqEvent.key (.compared e.1 e'.1 true) ∈ ev ∧
      EqEvent.value e.2 e'.2 true ∈ ev := by
  unfold EqCalls at h
  split at h
  · rename_i hlen
    refine ⟨hlen, ?_⟩
    have hcomp : ∀ (q : K) (es : List (K × V)) (e' : K × V) (ev : List (CallEvent K K)),
        Compares q es (some e') ev → e' ∈ es ∧ CallEvent.compared q e'.1 true ∈ ev := by
      intro q es e' ev hc
      generalize ho : some e' = o at hc
      induction hc with
      | none => cases ho
      | hit e es => cases ho; simp
      | miss e es o ev _ ih =>
        obtain ⟨h1, h2⟩ := ih ho
        exact ⟨List.mem_cons_of_mem _ h1, List.mem_cons_of_mem _ h2⟩
    have hlook : ∀ (q : K) (e' : K × V) (ev : List (CallEvent K K)),
        Looks d₂ q lay (some e') ev → e' ∈ d₂ ∧ CallEvent.compared q e'.1 true ∈ ev := by
      intro q e' ev hl
      cases hl with
      | scan _ _ hc => exact hcomp _ _ _ _ hc
      | table lay code _ ev hc =>
        obtain ⟨h1, h2⟩ := hcomp _ _ _ _ hc
        refine ⟨?_, List.mem_cons_of_mem _ h2⟩
        unfold Layout.mates at h1
        rw [List.mem_map] at h1
        obtain ⟨x, hx, rfl⟩ := h1
        exact (List.of_mem_zip (List.mem_filter.1 hx).1).1
    clear hlen
    suffices hs : ∀ b, Agrees d₂ lay d₁ b ev → b = true → ∀ e ∈ d₁, ∃ e' ∈ d₂,
        EqEvent.key (.compared e.1 e'.1 true) ∈ ev ∧ EqEvent.value e.2 e'.2 true ∈ ev from
      hs true h rfl
    clear h
    intro b h hb
    induction h with
    | done => simp
    | missing e es ev _ => cases hb
    | differ e e' es ev _ => cases hb
    | same e e' es b ev ev' hl _ ih =>
      intro x hx
      rcases List.mem_cons.1 hx with rfl | hx
      · obtain ⟨h1, h2⟩ := hlook _ _ _ hl
        exact ⟨e', h1, by simp [h2], by simp⟩
      · obtain ⟨y, h1, h2, h3⟩ := ih hb x hx
        exact ⟨y, h1, by simp [h2], by simp [h3]⟩
  · simp at h

example := C65_eq_true [(1, 10)] [(1, 10)] none [.key (.compared 1 1 true), .value 10 10 true]
  (Agrees.same (1, 10) (1, 10) [] true [.compared 1 1 true] []
    (.scan _ _ (.hit (1, 10) [])) .done)

/-- The log is only watched. -/
theorem C65_eq_log_changes_nothing [Target] (env : Env) (u : UserCode σ K K)
    (veq : V → V → Call σ Bool) (m₁ : UMap K V) (payload : List (K × V)) (ops : List (MapOp V K))
    (s : σ) (log : List (EqEvent K V)) :
    (eqSession env u.loggedEq (loggedVals veq) m₁ payload ops (s, log)).map (fun r => (r.1, r.2.1))
      = eqSession env u veq m₁ payload ops s :=
  ((UMap.facade_forgets env u.loggedEq_forgets payload).bind (fun m =>
    (UMap.run_forgets u.loggedEq_forgets ops m).bind (fun r =>
      (UMap.partialEq_forgets u veq m₁ r.2).bind (fun _ => .pure)))) s log

/-! ### Non-vacuity -/

/-- Four pairs, compared with the same four pairs of which one has another value. -/
example : (eqSession checkedEnv flatHash.loggedEq (loggedVals (fun a b s => .ok (a == b, s)))
      (.scanning [(1, 10), (4, 41), (2, 20), (3, 30)]) [(1, 10), (2, 20), (3, 30), (4, 40)] []
      ((), [])).map (fun r => (r.1.2.2, r.2.2.drop 8))
    = .ok (false, [.key (.hashed 1 7), .key (.compared 1 4 false), .key (.compared 1 3 false),
        .key (.compared 1 2 false), .key (.compared 1 1 true), .value 10 10 true,
        .key (.hashed 4 7), .key (.compared 4 4 true), .value 41 40 false]) := by decide +kernel

end FC
