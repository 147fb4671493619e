import Verif.Lemmas.IntTraitsAgree
import Verif.Examples

/-
C80: integer types of the caller's own and undefined behaviour.
-/

set_option autoImplicit false

namespace FC
variable {σ X K V Q : Type}

/-! ### The index type of the hash-based maps -/

/-- A key type whose hash code is the key itself. -/
def plainKeys : UserCode Unit Nat Nat :=
  lengthCode (fun k => pure k) (fun q => pure q) (fun q k => pure (q == k)) (fun a b => pure (a == b))

/-- The implementations of `PrimInt` that a caller may write: those of `u8`, or of a two-bit type in a
build without overflow checks, except that one method lies. None of them has side effects, panics
where `u8` does not, or contains unsafe code. -/
def lyingZero : IdxCode Unit Nat := { IdxTy.u8.code true with zero := pure 5 }
def lyingMax : IdxCode Unit Nat := { (⟨2⟩ : IdxTy).code false with maxValue := pure 100 }
def lyingToUsize : IdxCode Unit Nat := { IdxTy.u8.code true with toUsize x := pure (some (x + 1)) }
def lyingFrom : IdxCode Unit Nat := { IdxTy.u8.code true with ofI32 n := pure (some (n.toNat + 1)) }
def lyingAdd : IdxCode Unit Nat := { IdxTy.u8.code true with add a b := pure (a + b + 1) }

/-- The five liars are safe Rust. -/
theorem liars_safe : lyingZero.Safe ∧ lyingMax.Safe ∧ lyingToUsize.Safe ∧ lyingFrom.Safe ∧
    lyingAdd.Safe := by
  have hadd : ∀ (S : IdxTy) (oc : Bool) (a b : Nat),
      Behaves False True (Call.lift (S.add oc a b) : Call Unit Nat) (fun _ => True) := by
    intro S oc a b
    refine Behaves.lift_ne_ub ?_
    unfold IdxTy.add
    split
    · simp
    · split <;> simp
  exact ⟨⟨fun _ => trivial, fun _ => trivial, fun _ _ => trivial, fun _ _ => trivial, hadd _ _⟩,
    ⟨fun _ => trivial, fun _ => trivial, fun _ _ => trivial, fun _ _ => trivial, hadd _ _⟩,
    ⟨fun _ => trivial, fun _ => trivial, fun _ _ => trivial, fun _ _ => trivial, hadd _ _⟩,
    ⟨fun _ => trivial, fun _ => trivial, fun _ _ => trivial, fun _ _ => trivial, hadd _ _⟩,
    ⟨fun _ => trivial, fun _ => trivial, fun _ _ => trivial, fun _ _ => trivial, fun _ _ _ => trivial⟩⟩

/-- Build a map and look one key up. -/
def oneGet (I : IdxCode Unit Nat) (payload : List (Nat × Nat)) (q : Nat) :
    Res (List (Out Nat Nat) × Unit) :=
  (STable.api I plainKeys).session (STable.fromVec checkedEnv I plainKeys payload) [.get q] ()

/-- The property is false of the code: whichever method of the index type lies, `get` reads entries
that do not exist. The caller writes no unsafe code. -/
theorem C80_index_counterexample :
    oneGet lyingZero [] 1 = .ub ∧
    oneGet lyingMax [(1, 10), (2, 20), (4, 30), (8, 40)] 1 = .ub ∧
    oneGet lyingToUsize [(1, 10)] 1 = .ub ∧
    oneGet lyingFrom [(1, 10)] 1 = .ub ∧
    oneGet lyingAdd [(1, 10)] 1 = .ub := by decide +kernel

/-- With an index type of the caller's own, of which nothing is assumed but that it is safe Rust, and
keys of the caller's own likewise, building a map and performing any history on it has no undefined
behaviour unless the index type does not count honestly (or `get_many_mut` is asked for two references
and `Eq` is not an equivalence, C09). Even then, whenever something is seen, it is what a list of the
given pairs can show. -/
theorem C80_index_partial (env : Env) (I : IdxCode σ X) (hI : I.Safe) (u : UserCode σ K Q)
    (hu : u.Safe True) (payload : List (K × V)) (ops : List (MapOp V Q)) :
    Behaves (¬ I.Honest ∨ (¬ u.EqOK ∧ ∃ op ∈ ops, op.isMany)) True
      ((STable.api I u).session (STable.fromVec env I u payload) ops)
      (fun outs => ∃ d : List (K × V), d.Perm payload ∧ Loose.Run u.MayMatch d ops outs) :=
  STable.session_behaves env hI hu payload ops

/-- The built-in unsigned integers count honestly. -/
theorem C80_builtin_honest [Target] (S : IdxTy) (oc : Bool) :
    (S.code oc : IdxCode σ Nat).Safe ∧ (S.code oc : IdxCode σ Nat).Honest := by
  refine ⟨⟨fun _ => trivial, fun _ => trivial, fun _ _ => trivial, fun _ _ => trivial, ?_⟩,
    fun x n => x = n, S.max, fun _ => rfl, fun _ => rfl, ?_, ?_, ?_⟩
  · intro a b
    refine Behaves.lift_ne_ub ?_
    unfold IdxTy.add
    split
    · simp
    · split <;> simp
  · rintro x _ rfl
    refine .pure ?_
    intro m hm
    simp only [Option.mem_def] at hm
    split at hm
    · cases hm; rfl
    · cases hm
  · intro i
    refine .pure ?_
    intro x hx
    simp only [Option.mem_def] at hx
    split at hx
    · cases hx; exact ⟨_, by omega, rfl⟩
    · cases hx
  · rintro x y _ _ rfl rfl h
    exact .lift (if_pos h) rfl

/-- With the code of a built-in index type, the maps are those of C56, call for call. -/
theorem C80_builtin_index [Target] (env : Env) (S : IdxTy) (u : UserCode σ K Q)
    (payload : List (K × V)) (ops : List (MapOp V Q)) :
    (STable.api (S.code env.oc) u).session (STable.fromVec env (S.code env.oc) u payload) ops
      = UMap.session u (UMap.fromVec env S u payload) ops := by
  rw [← UMap.api_session]
  exact (STable.sim_code S env.oc u).session (STable.fromVec_code env S u payload) ops

/-- An index type that is odd but honest: it counts in tally marks, answers `None` at every fortieth
call, and panics when it adds more than twenty. -/
def tally : IdxCode Nat (List Unit) where
  zero := fun s => .ok ([], s + 1)
  maxValue := fun s => .ok (List.replicate 20 (), s + 1)
  toUsize x := fun s => .ok (if s % 40 = 39 then none else some x.length, s + 1)
  ofI32 n := fun s => .ok (if s % 40 = 39 ∨ n < 0 then none else some (List.replicate n.toNat ()), s + 1)
  add x y := fun s => if x.length + y.length ≤ 20 then .ok (x ++ y, s + 1) else .panic

theorem tally_safe : tally.Safe :=
  ⟨fun _ => trivial, fun _ => trivial, fun _ _ => trivial, fun _ _ => trivial, fun x y s => by
    by_cases h : x.length + y.length ≤ 20 <;> simp [tally, h]⟩

theorem tally_honest : tally.Honest := by
  refine ⟨fun x n => x.length = n, 20, fun _ => rfl, fun _ => rfl, ?_, ?_, ?_⟩
  · rintro x _ rfl s m hm
    simp only [Option.mem_def] at hm
    split at hm
    · cases hm
    · cases hm; rfl
  · intro i s x hx
    simp only [Option.mem_def] at hx
    split at hx
    · cases hx
    · next h =>
      cases hx
      exact ⟨i.toNat, by omega, by simp⟩
  · rintro x y _ _ rfl rfl h s
    simp [tally, h]

/-- Keys as above, with the same state around them. -/
def plainKeys' : UserCode Nat Nat Nat :=
  lengthCode (fun k => pure k) (fun q => pure q) (fun q k => pure (q == k)) (fun a b => pure (a == b))

example : Behaves False True
    ((STable.api tally plainKeys').session
      (STable.fromVec checkedEnv tally plainKeys' [(1, 10), (2, 20), (4, 30)]) [.get 1, .getMut 4 7, .iter])
    (fun outs => ∃ d : List (Nat × Nat), d.Perm [(1, 10), (2, 20), (4, 30)] ∧
      Loose.Run plainKeys'.MayMatch d [.get 1, .getMut 4 7, .iter] outs) :=
  (C80_index_partial checkedEnv tally tally_safe plainKeys'
    (.of (fun _ _ => trivial) (fun _ _ => trivial) (fun _ _ => trivial) (fun _ _ _ => trivial)
      (fun _ _ _ => trivial)) _ _).mono (by simp [tally_honest, MapOp.isMany]) id (fun _ h => h)

example : ((STable.api tally plainKeys').session
      (STable.fromVec checkedEnv tally plainKeys' [(1, 10), (2, 20), (4, 30)]) [.get 1, .getMut 4 7, .iter]) 0
    = .ok ([.value (some 10), .value (some 30), .items [(2, 20), (1, 10), (4, 7)]], 26) := by decide +kernel

/-! ### Range maps -/

/-- The property is false of range maps, too: an integer type whose `==` never holds makes
`get_many_mut` hand out two references to one value. -/
theorem C80_range_counterexample :
    (RMap.api (σ := Unit) (V := Nat) { IntTy.u8.rangeCode true with same := fun _ _ => pure false }).session
      (RMap.fromVec (σ := Unit) { IntTy.u8.rangeCode true with same := fun _ _ => pure false } [(3, 30), (4, 40)])
      [.getManyMut [(3, 1), (3, 2)]] () = .ub := by decide +kernel

/-- With integers of the caller's own, of which nothing is assumed but that they are safe Rust,
building a range map and performing any history on it has no undefined behaviour, unless
`get_many_mut` is asked for two references and equality and subtraction of the integers do not fit
together. Whatever comparison, subtraction and conversion answer, an entry that is seen is one of the
given pairs. -/
theorem C80_range_partial (c : RangeCode σ K V Q) (hc : c.Safe) (payload : List (K × V))
    (ops : List (MapOp V Q)) :
    Behaves (¬ c.EqOK ∧ ∃ op ∈ ops, op.isMany) True
      ((RMap.api c).session (RMap.fromVec c payload) ops)
      (fun outs => ∃ d : List (K × V), d.Perm payload ∧ Loose.Run (fun _ _ => True) d ops outs) :=
  RMap.session_behaves hc payload ops

/-- With the code of a built-in integer type, the range maps are those of the other properties. -/
theorem C80_builtin_range [Target] (oc : Bool) (t : IntTy) (hb : 0 < t.bits)
    (payload : List (Int × V)) (hr : ∀ e ∈ payload, t.InRange e.1) (ops : List (MapOp V Int)) :
    LeavesAlone (σ := σ) ((RMap.api (t.rangeCode oc)).session (RMap.fromVec (t.rangeCode oc) payload) ops)
      ((rangeApi oc t).session (IntegerRangeMap.fromVec oc t payload) ops) :=
  (RMap.agrees oc t hb).session (RMap.fromVec_code oc t hb payload hr) ops

example := C80_builtin_range (σ := Unit) true IntTy.i8 (by decide) exInts exInts_inRange
  [.get 0, .getMut 2 7, .getManyMut [(1, 5), (-1, 6)], .iter]

/-- Integers that answer at random, by a counter of the calls. -/
def moodyInts : RangeCode Nat Nat Nat Nat where
  zero := fun s => .ok (s, s + 1)
  sort l := fun s => .ok (if s % 2 = 0 then l else l.reverse, s + 1)
  span a b := fun s => .ok (a + b + s, s + 1)
  spanSize _ := fun s => .ok (some s, s + 1)
  ge _ _ := fun s => .ok (s % 3 != 1, s + 1)
  le _ _ := fun s => .ok (s % 5 != 1, s + 1)
  sub a b := fun s => .ok (a + b + s, s + 1)
  toUsize x := fun s => .ok (if s % 4 = 3 then none else some ((x + s) % 3), s + 1)
  same _ _ := fun s => .ok (s % 2 == 0, s + 1)

theorem moodyInts_safe : moodyInts.Safe :=
  ⟨fun _ => trivial, fun l s => by simp only [moodyInts]; split <;> simp [List.reverse_perm],
    fun _ _ _ => trivial, fun _ _ => trivial, fun _ _ _ => trivial, fun _ _ _ => trivial,
    fun _ _ _ => trivial, fun _ _ => trivial, fun _ _ _ => trivial⟩

example : Behaves False True
    ((RMap.api moodyInts).session (RMap.fromVec moodyInts [(1, 10), (2, 20), (4, 30)])
      [.get 1, .getMut 4 7, .iter])
    (fun outs => ∃ d : List (Nat × Nat), d.Perm [(1, 10), (2, 20), (4, 30)] ∧
      Loose.Run (fun _ _ => True) d [.get 1, .getMut 4 7, .iter] outs) :=
  (C80_range_partial moodyInts moodyInts_safe _ _).mono (by simp [MapOp.isMany]) id (fun _ h => h)

example : (RMap.api moodyInts).session (RMap.fromVec moodyInts [(1, 10), (2, 20), (4, 30)])
      [.get 1, .getMut 4 7, .iter] 0
    = .ok ([.value (some 20), .value none, .items [(1, 10), (2, 20), (4, 30)]], 8) := by decide +kernel

/-- Natural numbers of any size, counted honestly: `EqOK` holds. -/
def bigNats : RangeCode Unit Nat Nat Nat where
  zero := pure 0
  sort l := pure (l.mergeSort (fun a b => a.1 ≤ b.1))
  span a b := if b ≤ a then pure (a - b) else Call.lift .panic
  spanSize x := pure (some x)
  ge q k := pure (decide (k ≤ q))
  le q k := pure (decide (q ≤ k))
  sub q k := if k ≤ q then pure (q - k) else Call.lift .panic
  toUsize x := pure (some x)
  same a b := pure (a == b)

theorem bigNats_eqOK : bigNats.EqOK := by
  intro k
  refine ⟨fun q => (q : Int) - k, fun q => ?_, fun a b s => ?_⟩
  · intro s
    by_cases h : k ≤ q
    · simp only [bigNats, if_pos h, Call.bind_apply, Call.pure_apply, Res.ok_bind]
      intro i hi
      cases hi
      omega
    · simp [bigNats, if_neg h, Call.bind_apply, Call.lift]
  · simp only [bigNats, Call.pure_apply]
    intro h hab
    simp at h
    omega

theorem bigNats_safe : bigNats.Safe := by
  refine ⟨fun _ => trivial, fun l s => by simp [bigNats, Call.pure_apply, List.mergeSort_perm],
    fun a b s => ?_, fun _ _ => trivial, fun _ _ _ => trivial, fun _ _ _ => trivial,
    fun q k s => ?_, fun _ _ => trivial, fun _ _ _ => trivial⟩
  · by_cases h : b ≤ a <;> simp [bigNats, h, Call.lift, Call.pure_apply]
  · by_cases h : k ≤ q <;> simp [bigNats, h, Call.lift, Call.pure_apply]

/-- ... so that `get_many_mut` is safe as well. -/
example : Behaves False True
    ((RMap.api bigNats).session (RMap.fromVec bigNats [(2, 10), (1, 20), (3, 30)])
      [.getManyMut [(1, 5), (3, 6)], .iter])
    (fun outs => ∃ d : List (Nat × Nat), d.Perm [(2, 10), (1, 20), (3, 30)] ∧
      Loose.Run (fun _ _ => True) d [.getManyMut [(1, 5), (3, 6)], .iter] outs) :=
  (C80_range_partial bigNats bigNats_safe _ _).mono (by simp [bigNats_eqOK]) id (fun _ h => h)

end FC
