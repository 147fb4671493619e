import Verif.Lemmas.Threads
import Verif.Lemmas.Sets
import Verif.Lemmas.SetConsistent
import Verif.Spec.SetThreads

/-
Lemmas for threads that share a set (C89).
-/

set_option autoImplicit false

namespace FC
variable {T Q : Type} {E : Engine T Unit Q}

theorem find_unitPayload (eq : Q → Q → Bool) (borrow : T → Q) (xs : List T) (q : Q) :
    Dict.find eq borrow (unitPayload xs) q = (xs.find? (fun y => eq q (borrow y))).map (fun y => (y, ())) := by
  simp only [Dict.find, unitPayload, List.find?_map]
  rfl

theorem SharedSetOp.right_of_agree {eq : Q → Q → Bool} {borrow : T → Q} {xs : List T} (op : SharedSetOp Q)
    {out' out : Out T Unit} (h : Dict.answer eq borrow (unitPayload xs) op.inner = some out')
    (ha : out'.Agree out) : ∃ x, op.read out = some x ∧ op.Right eq borrow xs x := by
  cases op with
  | get q =>
    simp only [inner, Dict.answer, Option.some.injEq] at h
    subst h
    cases out <;> simp only [Out.Agree] at ha
    all_goals first | (cases ha; done) | skip
    cases ha
    refine ⟨_, rfl, ?_⟩
    rw [find_unitPayload]
    cases hx : xs.find? (fun y => eq q (borrow y)) <;> simp [Right, hx]
  | contains q =>
    simp only [inner, Dict.answer, Option.some.injEq] at h
    subst h
    cases out <;> simp only [Out.Agree] at ha
    all_goals first | (cases ha; done) | skip
    cases ha
    refine ⟨_, rfl, ?_⟩
    rw [find_unitPayload]
    show (Option.map _ _).isSome = _
    rw [Option.isSome_map, Bool.eq_iff_iff, List.find?_isSome, List.any_eq_true]
  | len =>
    simp only [inner, Dict.answer, Option.some.injEq] at h
    subst h
    cases out <;> simp only [Out.Agree] at ha
    all_goals first | (cases ha; done) | skip
    cases ha
    exact ⟨_, rfl, by simp [Right, unitPayload]⟩
  | iter =>
    simp only [inner, Dict.answer, Option.some.injEq] at h
    subst h
    cases out <;> simp only [Out.Agree] at ha
    all_goals first | (cases ha; done) | skip
    refine ⟨_, rfl, ?_⟩
    have := (ha.map (·.1)).symm
    rwa [unitPayload_keys] at this

theorem SharedSetOp.answer_inner (eq : Q → Q → Bool) (borrow : T → Q) (d : List (T × Unit))
    (op : SharedSetOp Q) : Dict.answer eq borrow d op.inner ≠ none := by
  cases op <;> simp [inner, Dict.answer]

theorem forall₂_read {eq : Q → Q → Bool} {borrow : T → Q} {xs : List T} (n : Nat)
    (prog : List (SharedSetOp Q)) (outs : List (Out T Unit))
    (h : List.Forall₂ (fun op out => ∃ out', Dict.answer eq borrow (unitPayload xs) op = some out' ∧
      out'.Agree out) ((prog.map SharedSetOp.inner).take n) outs) :
    List.Forall₂ (fun op out => ∃ x, out = some x ∧ SharedSetOp.Right eq borrow xs op x) (prog.take n)
      (List.zipWith SharedSetOp.read prog outs) := by
  induction prog generalizing n outs with
  | nil =>
    simp only [List.map_nil, List.take_nil] at h ⊢
    exact .nil
  | cons op prog ih =>
    cases n with
    | zero =>
      simp only [List.take_zero] at h ⊢
      cases h
      exact .nil
    | succ n =>
      rw [List.map_cons, List.take_succ_cons] at h
      cases h with
      | cons ha h =>
        obtain ⟨out', h1, h2⟩ := ha
        exact .cons (op.right_of_agree h1 h2) (ih n _ h)

theorem ReadersUndisturbed.set {eq : Q → Q → Bool} {borrow : T → Q} {xs : List T}
    (h : ReadersUndisturbed E eq borrow (unitPayload xs)) : SetReadersUndisturbed E eq borrow xs := by
  intro progs turns
  obtain ⟨ts, h1, h2⟩ := h (progs.map (List.map SharedSetOp.inner)) turns
  refine ⟨ts, by rw [← h1, List.map_map]; rfl, fun i prog hp => ?_⟩
  obtain ⟨r, n, h3, h4, h5, h6⟩ := h2 i (prog.map SharedSetOp.inner) (by simp [hp])
  have live : r.panicked = false := by
    cases hr : r.panicked with
    | false => rfl
    | true =>
      obtain ⟨op, ho, hn⟩ := h5 hr
      rw [List.getElem?_map, Option.map_eq_some_iff] at ho
      obtain ⟨op', _, rfl⟩ := ho
      exact absurd hn (op'.answer_inner _ _ _)
  refine ⟨r, n, h3, live, forall₂_read n prog r.outs h4, fun hle => ?_⟩
  have := h6 (by simpa [unitPayload] using hle)
  rcases this with h | h
  · rw [live] at h; cases h
  · rw [List.take_eq_self_iff] at h ⊢
    simpa using h

/-- A map that can be shared once it has been used can be shared at once. -/
theorem SharesRefine.now {M : Type} {A : MapApi M T Unit Q} {engine : M → Engine T Unit Q}
    {eq : Q → Q → Bool} {borrow : T → Q} {m : M} {d : List (T × Unit)}
    (h : SharesRefine A engine eq borrow m d) : ReadersUndisturbed (engine m) eq borrow d := by
  obtain ⟨_, m', h1, _, h3⟩ := h [] [] d rfl
  cases h1
  exact h3

variable [Target]

theorem FrozenSet.engine_toMap (env : Env) (ty : KeyTy T) (s : FrozenSet T) :
    s.engine env ty = s.toMap.engine env ty := by cases s <;> rfl

end FC
