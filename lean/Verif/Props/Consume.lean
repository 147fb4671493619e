import Verif.Lemmas.Consume
import Verif.Props.Drops

/-
C90 for consuming iterators: every element of a set that is consumed is dropped exactly once, or handed
out.
-/

set_option autoImplicit false

namespace FC
variable {σ K Q : Type}

/-- A hashed set is built, asked things and consumed; its iterators are stepped, cloned, formatted and
dropped in any order, and the caller may panic anywhere, as may the code of the element type. In the end
every element given or cloned has been dropped exactly once. -/
theorem C90_hashed_set_consumed [Target] {p : Prop} (env : Env) (S : IdxTy) (u : UserCode σ K Q)
    (hu : u.Safe p) (c : ElemCode σ K) (hc : c.Safe p) (payload : List K)
    (hbig : ¬ S.Holds payload.length → p) (asks : List (SetAsk Q)) (ops : List TakeOp) :
    DropsOnce False (p ∨ .panic ∈ ops)
      (UMap.consumeSessionO u c (UMap.fromVecO env S u (unitPayload payload)) asks ops)
      (things (unitPayload payload)) :=
  (UMap.consumeSessionO_tracks u c (UMap.fromVecO_tracks env S u _) asks ops).dropsOnce
    ((UMap.takeSession_behaves hu.toSafeLookup hc
      (UMap.fromVec_behaves env hu (by rwa [unitPayload_length])) asks ops).bind
        fun _ _ => .pure (post := fun _ => True) trivial)

/-- The same for `ScanningSet`. -/
theorem C90_scanning_set_consumed {p : Prop} (u : UserCode σ K Q) (hu : u.Safe p) (c : ElemCode σ K)
    (hc : c.Safe p) (payload : List K) (asks : List (SetAsk Q)) (ops : List TakeOp) :
    DropsOnce False (p ∨ .panic ∈ ops)
      (UMap.consumeSessionO u c (pure (.scanning (unitPayload payload))) asks ops)
      (things (unitPayload payload)) :=
  (UMap.consumeSessionO_tracks u c (Tallies.pure trivial (.refl _)) asks ops).dropsOnce
    ((UMap.takeSession_behaves hu.toSafeLookup hc (payload := payload)
      (.pure (a := UMap.scanning (unitPayload payload)) ⟨trivial, .refl _⟩) asks ops).bind
        fun _ _ => .pure (post := fun _ => True) trivial)

/-- At any moment, whatever the code of the element type does: the elements the caller has been handed,
those its iterators have left and those dropped are together exactly those given and those cloned. -/
theorem C90_while_consumed [Target] (env : Env) (S : IdxTy) (u : UserCode σ K Q) (c : ElemCode σ K)
    (payload : List K) (asks : List (SetAsk Q)) (ops : List TakeOp) :
    Accounts (UMap.takeSessionO u c (UMap.fromVecO env S u (unitPayload payload)) asks ops)
      (things (unitPayload payload))
      (fun r => r.2.2.its.flatMap ownedBy ++ r.2.2.got.map .key) ∧
    Accounts (UMap.takeSessionO u c (pure (.scanning (unitPayload payload))) asks ops)
      (things (unitPayload payload))
      (fun r => r.2.2.its.flatMap ownedBy ++ r.2.2.got.map .key) :=
  ⟨(UMap.takeSessionO_tracks u c (UMap.fromVecO_tracks env S u _) asks ops).accounts,
    (UMap.takeSessionO_tracks u c (Tallies.pure trivial (.refl _)) asks ops).accounts⟩

/-- Stepping an iterator drops no element: until one is formatted, cloned, counted or dropped, only the
`()`s beside the elements are. -/
theorem C90_stepping_drops_nothing [Target] (env : Env) (S : IdxTy) (u : UserCode σ K Q) (c : ElemCode σ K)
    (payload : List K) (asks : List (SetAsk Q)) (ops : List TakeOp)
    (hops : ∀ op ∈ ops, ∃ i, op = .next i ∨ op = .len i) :
    DropsOnly Thing.IsValue
      (UMap.takeSessionO u c (UMap.fromVecO env S u (unitPayload payload)) asks ops) :=
  (UMap.takeSessionO_spares u c (UMap.fromVecO_spares env S u _) asks ops hops).dropsOnly

/-- What the iterators that consume a set answer, any number of them cloned from one another: what plain lists
would, starting with one list that holds the elements given, in some order. -/
theorem C44_consuming_histories [Target] (env : Env) (S : IdxTy) (u : UserCode σ K Q) (hu : u.Safe True)
    (c : ElemCode σ K) (hc : c.Faithful) (payload : List K) (asks : List (SetAsk Q)) (ops : List TakeOp)
    (s : σ) (answers : List (SetAns K)) (outs : List (TakeOut K)) (t : Takers K) (s' : σ)
    (log : List (Fact K Unit))
    (h : UMap.takeSessionO u c (UMap.fromVecO env S u (unitPayload payload)) asks ops s []
      = .done (answers, outs, t) s' log) :
    ∃ items : List K, items.Perm payload ∧ outs = listsRun [some items] ops ∧ t.got = handedOut outs := by
  have hf := (UMap.takeSessionO_tracks u c (UMap.fromVecO_tracks env S u (unitPayload payload)) asks ops).forget
  have hr := congrFun hf s
  unfold Own.forget at hr
  rw [h] at hr
  exact UMap.takeSession_answers u hc (UMap.fromVec_behaves env hu fun _ => trivial) hr.symm

/-- A `ScanningSet` hands its elements out in the order given. -/
theorem C44_scanning_consuming_histories (u : UserCode σ K Q) (c : ElemCode σ K) (hc : c.Faithful)
    (payload : List K) (asks : List (SetAsk Q)) (ops : List TakeOp)
    (s : σ) (answers : List (SetAns K)) (outs : List (TakeOut K)) (t : Takers K) (s' : σ)
    (log : List (Fact K Unit))
    (h : UMap.takeSessionO u c (pure (.scanning (unitPayload payload))) asks ops s []
      = .done (answers, outs, t) s' log) :
    outs = listsRun [some payload] ops ∧ t.got = handedOut outs := by
  have hf := (UMap.takeSessionO_tracks u c (o := pure (.scanning (unitPayload payload)))
    (Tallies.pure trivial (.refl _)) asks ops).forget
  have hr := congrFun hf s
  unfold Own.forget at hr
  rw [h] at hr
  exact UMap.scanning_takeSession_answers u hc hr.symm

/-! ### The hypotheses are met -/

/-- An element type whose `Clone` and `Debug` panic at the `n`-th call of either. -/
def elemPanicAt (n : Nat) : ElemCode Nat Nat where
  clone k := fun s => if s = n then .panic else .ok (k, s + 1)
  fmt _ := fun s => if s = n then .panic else .ok (true, s + 1)

theorem elemPanicAt_safe (n : Nat) : (elemPanicAt n).Safe True where
  clone _ := panicAt_behaves n _
  fmt _ := panicAt_behaves n _

/-- One element is handed out, two are left to the iterator. -/
example : (UMap.consumeSessionO (panicAt 100) (elemPanicAt 100) (pure (.scanning (unitPayload [7, 8, 9]))) []
      [.next 0] 0 []).seen
    = some (true, [.dropped (.value ()), .dropped (.key 8), .dropped (.value ()), .dropped (.key 9),
        .dropped (.value ()), .dropped (.key 7)]) := by decide +kernel

/-- Formatting what is left: both elements are cloned, and formatting the second copy panics. -/
example : (UMap.consumeSessionO (panicAt 100) (elemPanicAt 3) (pure (.scanning (unitPayload [7, 8, 9]))) []
      [.next 0, .debug 0] 0 []).seen
    = some (false, [.dropped (.value ()), .cloned (.key 8), .cloned (.value ()), .cloned (.key 9),
        .cloned (.value ()), .dropped (.value ()), .dropped (.key 8), .dropped (.value ()),
        .dropped (.key 9), .dropped (.key 8), .dropped (.value ()), .dropped (.key 9),
        .dropped (.value ()), .dropped (.key 7)]) := by decide +kernel

/-- A clone that goes its own way. -/
example : ((UMap.takeSessionO (panicAt 100) (elemPanicAt 100) (pure (.scanning (unitPayload [7, 8, 9]))) []
      [.next 0, .clone 0, .next 1, .count 0, .len 1] : Own Nat Nat Unit _) 0 [] |> fun
      | .done r _ _ => some (r.2.1, r.2.2.got, r.2.2.its.map (Option.map SetIntoIter.len))
      | _ => none)
    = some ([.item (some 7), .nothing, .item (some 8), .number 2, .number 1], [7, 8], [none, some 1]) := by
  decide +kernel

example (n : Nat) := C90_hashed_set_consumed checkedEnv IdxTy.u8 (panicAt n) (panicAt_safe n) (elemPanicAt n)
  (elemPanicAt_safe n) [1, 2, 3, 4, 5] (fun _ => trivial) [.contains 3]
  [.next 0, .clone 0, .debug 1, .next 1, .drop 0, .panic]

example (n : Nat) := C90_scanning_set_consumed (panicAt n) (panicAt_safe n) (elemPanicAt n)
  (elemPanicAt_safe n) [1, 2, 3] [.contains 3] [.next 0, .clone 0, .debug 1, .count 0]

example (n : Nat) := C90_while_consumed checkedEnv IdxTy.u8 (panicAt n) (elemPanicAt n) [1, 2, 3, 4, 5] [.iter]
  [.next 0, .clone 0, .debug 1]

example (n : Nat) := C90_stepping_drops_nothing checkedEnv IdxTy.u8 (panicAt n) (elemPanicAt n)
  [1, 2, 3, 4, 5] [.iter] [.next 0, .len 0, .next 0] (by simp)

theorem elemPanicAt_faithful (n : Nat) : (elemPanicAt n).Faithful where
  clone k s r h := by
    simp only [elemPanicAt] at h
    split at h
    · cases h
    · obtain rfl := Res.ok.inj h; rfl
  fmt k s r h := by
    simp only [elemPanicAt] at h
    split at h
    · cases h
    · obtain rfl := Res.ok.inj h; rfl

example : ∃ outs items, items.Perm [1, 2, 3, 4]
    ∧ outs = listsRun [some items] [.next 0, .clone 0, .next 1, .len 0] := by
  have h : (UMap.takeSessionO (panicAt 100) (elemPanicAt 100) (UMap.fromVecO checkedEnv IdxTy.u8 (panicAt 100)
      (unitPayload [1, 2, 3, 4])) [.contains 3] [.next 0, .clone 0, .next 1, .len 0] 0 []).seen.map (·.1)
      = some true := by decide +kernel
  cases e : UMap.takeSessionO (panicAt 100) (elemPanicAt 100) (UMap.fromVecO checkedEnv IdxTy.u8 (panicAt 100)
      (unitPayload [1, 2, 3, 4])) [.contains 3] [.next 0, .clone 0, .next 1, .len 0] 0 [] with
  | done r s log =>
    obtain ⟨items, h1, h2, _⟩ := C44_consuming_histories checkedEnv IdxTy.u8 (panicAt 100) (panicAt_safe 100)
      (elemPanicAt 100) (elemPanicAt_faithful 100) _ _ _ _ _ _ _ _ _ e
    exact ⟨_, items, h1, h2⟩
  | _ => rw [e] at h; cases h

example := C44_scanning_consuming_histories (panicAt 100) (elemPanicAt 100)
  (elemPanicAt_faithful 100) [1, 2, 3] [.contains 3] [.next 0, .clone 0, .next 1, .count 0] 0 _ _ _ _ _ rfl

end FC
