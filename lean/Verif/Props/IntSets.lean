import Verif.Lemmas.IntSets
import Verif.Props.IntTraits

/-
C80 for sets: integer types of the caller's own.
-/

set_option autoImplicit false

namespace FC
variable {σ X T Q : Type}

/-- Build a set and look one element up. -/
def oneSetGet (I : IdxCode Unit Nat) (payload : List Nat) (q : Nat) : Res (List (SetAns Nat) × Unit) :=
  (STable.api I plainKeys).setSession (STable.fromVec checkedEnv I plainKeys (unitPayload payload))
    [.get q] ()

/-- False of the sets that store positions, as of the maps. -/
theorem C80_index_set_counterexample :
    oneSetGet lyingZero [] 1 = .ub ∧ oneSetGet lyingMax [1, 2, 4, 8] 1 = .ub ∧
    oneSetGet lyingToUsize [1] 1 = .ub ∧ oneSetGet lyingFrom [1] 1 = .ub ∧
    oneSetGet lyingAdd [1] 1 = .ub := by decide +kernel

/-- With an index type and elements of the caller's own, building a set and asking anything has no
undefined behaviour unless the index type does not count honestly. No condition on `Eq` is needed: sets
have no `get_many_mut`. Even then, whenever something is seen, it is what the given elements can show. -/
theorem C80_index_set_partial (env : Env) (I : IdxCode σ X) (hI : I.Safe) (u : UserCode σ T Q)
    (hu : u.Safe True) (payload : List T) (asks : List (SetAsk Q)) :
    Behaves (¬ I.Honest) True
      ((STable.api I u).setSession (STable.fromVec env I u (unitPayload payload)) asks)
      (SetMayShow u.MayMatch payload asks) :=
  STable.setSession_behaves env hI hu payload asks

example : Behaves False True
    ((STable.api tally plainKeys').setSession
      (STable.fromVec checkedEnv tally plainKeys' (unitPayload [1, 2, 4])) [.get 1, .contains 3, .iter])
    (SetMayShow plainKeys'.MayMatch [1, 2, 4] [.get 1, .contains 3, .iter]) :=
  (C80_index_set_partial checkedEnv tally tally_safe plainKeys'
    (.of (fun _ _ => trivial) (fun _ _ => trivial) (fun _ _ => trivial) (fun _ _ _ => trivial)
      (fun _ _ _ => trivial)) _ _).mono (fun h => h tally_honest) id (fun _ h => h)

example : (STable.api tally plainKeys').setSession
      (STable.fromVec checkedEnv tally plainKeys' (unitPayload [1, 2, 4])) [.get 1, .contains 3, .iter] 0
    = .ok ([.element (some 1), .bool false, .items [2, 1, 4]], 26) := by decide +kernel

/-- With the code of a built-in index type, the sets are those of C71, call for call. -/
theorem C80_builtin_index_set [Target] (env : Env) (S : IdxTy) (u : UserCode σ T Q)
    (payload : List T) (asks : List (SetAsk Q)) :
    (STable.api (S.code env.oc) u).setSession
        (STable.fromVec env (S.code env.oc) u (unitPayload payload)) asks
      = UMap.setSession u (UMap.fromVec env S u (unitPayload payload)) asks := by
  rw [← UMap.api_setSession]
  exact (STable.sim_code S env.oc u).setSession (STable.fromVec_code env S u _) asks

/-- Range sets, of integers of which nothing is assumed but that they are safe Rust: never undefined
behaviour, and what is seen is what the given elements can show. -/
theorem C80_range_set (c : RangeCode σ T Unit Q) (hc : c.Safe) (payload : List T)
    (asks : List (SetAsk Q)) :
    Behaves False True ((RMap.api c).setSession (RMap.fromVec c (unitPayload payload)) asks)
      (SetMayShow (fun _ _ => True) payload asks) :=
  RMap.setSession_behaves hc payload asks

/-- Elements that answer at random, by a counter of the calls. -/
def moodyElems : RangeCode Nat Nat Unit Nat where
  zero := fun s => .ok (s, s + 1)
  sort l := fun s => .ok (if s % 2 = 0 then l else l.reverse, s + 1)
  span a b := fun s => .ok (a + b + s, s + 1)
  spanSize _ := fun s => .ok (some s, s + 1)
  ge _ _ := fun s => .ok (s % 3 != 1, s + 1)
  le _ _ := fun s => .ok (s % 5 != 1, s + 1)
  sub a b := fun s => .ok (a + b + s, s + 1)
  toUsize x := fun s => .ok (if s % 4 = 3 then none else some ((x + s) % 3), s + 1)
  same _ _ := fun s => .ok (s % 2 == 0, s + 1)

example := C80_range_set moodyElems
  ⟨fun _ => trivial, fun l s => by simp only [moodyElems]; split <;> simp [List.reverse_perm],
    fun _ _ _ => trivial, fun _ _ => trivial, fun _ _ _ => trivial, fun _ _ _ => trivial,
    fun _ _ _ => trivial, fun _ _ => trivial, fun _ _ _ => trivial⟩ [1, 2, 4]
  [.get 1, .contains 4, .len, .iter]

example : (RMap.api moodyElems).setSession (RMap.fromVec moodyElems (unitPayload [1, 2, 4]))
      [.get 1, .contains 4, .len, .iter] 0
    = .ok ([.element (some 2), .bool false, .number 3, .items [1, 2, 4]], 8) := by decide +kernel

/-- With the code of a built-in integer type, the range sets are those of the other properties. -/
theorem C80_builtin_range_set [Target] (oc : Bool) (t : IntTy) (hb : 0 < t.bits)
    (payload : List Int) (hr : ∀ x ∈ payload, t.InRange x) (asks : List (SetAsk Int)) :
    LeavesAlone (σ := σ)
      ((RMap.api (t.rangeCode oc)).setSession (RMap.fromVec (t.rangeCode oc) (unitPayload payload)) asks)
      (SetView.session (IntegerRangeSet.view oc t) (IntegerRangeSet.fromVec oc t payload) asks) :=
  RMap.setSession_code oc t hb hr asks

example := C80_builtin_range_set (σ := Unit) true IntTy.i8 (by decide) [3, 1, 2, 0]
  (by decide) [.get 0, .contains 7, .len, .isEmpty, .iter]

end FC
