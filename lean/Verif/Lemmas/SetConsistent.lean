import Verif.Lemmas.Sets
import Verif.Spec.SetRepeats
import Verif.Lemmas.SetOps

/-
When a set's lookup is a scan of its entries, its interface is consistent.
-/

set_option autoImplicit false

namespace FC
variable [Target]
variable {T : Type}

omit [Target] in
theorem scan_isSome {eq : T → T → Bool} {x : T} {i : Nat} {es : List (T × Unit)} :
    (scan eq id x i es).isSome = true ↔ Has eq (es.map (·.1)) x := by
  rw [← not_iff_not, Bool.not_eq_true, Option.isSome_eq_false_iff, Option.isNone_iff_eq_none,
    scan_none]
  simp only [Has, List.mem_map, not_exists, not_and, Bool.not_eq_true, id]
  constructor
  · rintro h y ⟨e, he, rfl⟩; exact h e he
  · intro h e he; exact h e.1 ⟨e, he, rfl⟩

omit [Target] in
theorem keyOf_isSome (r : Res (Option (T × Ref Unit))) :
    (keyOf r).map Option.isSome = r.map Option.isSome := by
  unfold keyOf
  cases r <;> simp

omit [Target] in
theorem Answers.total {eq : T → T → Bool} {s : SetI T} (h : Answers eq s) :
    ∃ c : T → Bool, (∀ x, s.contains x = .ok (c x)) ∧ ∀ x, (c x = true ↔ Has eq s.iter x) := by
  choose c hc using h.contains
  exact ⟨c, fun x => (hc x).1, fun x => (hc x).2⟩

omit [Target] in
theorem Answers.consistent {eq : T → T → Bool} {s : SetI T} (h : Answers eq s)
    (hd : Distinct eq s.iter) : Consistent eq s := ⟨h.contains, h.len, hd⟩

omit [Target] in
theorem Consistent.answers {eq : T → T → Bool} {s : SetI T} (h : Consistent eq s) :
    Answers eq s := ⟨h.contains, h.len⟩

omit [Target] in
theorem answers_of_scan {eq : T → T → Bool} {s : SetI T} {es : List (T × Unit)}
    (hc : ∀ x, s.contains x = (Res.ok (scan eq id x 0 es)).map Option.isSome)
    (hi : s.iter = es.map (·.1)) (hl : s.len = es.length) : Answers eq s where
  contains x := ⟨_, hc x, by rw [hi]; exact scan_isSome⟩
  len := by rw [hl, hi, List.length_map]

omit [Target] in
theorem Distinct.perm {eq : T → T → Bool} (heq : LawfulEq eq) {p q : List T} (h : p.Perm q)
    (hd : Distinct eq p) : Distinct eq q := by
  refine h.pairwise hd ?_
  intro a b hab
  rw [← hab]
  exact heq.symm_eq b a

omit [Target] in
theorem has_perm {eq : T → T → Bool} {p q : List T} (h : p.Perm q) (x : T) :
    Has eq p x ↔ Has eq q x := by
  simp only [Has, h.mem_iff]

omit [Target] in
theorem items_new (es : List (T × Unit)) : (SetIter.new es).items = es.map (·.1) := by
  simp [SetIter.items, SetIter.new]

omit [Target] in
theorem unit_perm {es : List (T × Unit)} {payload : List T}
    (h : es.Perm (unitPayload payload)) : (es.map (·.1)).Perm payload := by
  have := h.map (·.1)
  rwa [unitPayload_keys] at this

omit [Target] in
theorem distinctKeys_unit {eq : T → T → Bool} {p : List T} :
    DistinctKeys eq (unitPayload p) ↔ Distinct eq p := by
  unfold DistinctKeys unitPayload Distinct
  rw [List.pairwise_map]

/-- Everything a frozen set shows, when its representation is reliable. -/
theorem FrozenSet.answers (env : Env) {ty : KeyTy T} (hty : LawfulKey ty) {p : List T}
    (hcap : p.length < 2 ^ 32) {bh : Hasher} {env₁ : Env} {s : FrozenSet T}
    (hs : FrozenSet.new env₁ ty p bh = .ok s)
    (hr : (∀ r, s ≠ .u32Range r) ∨ Distinct ty.eq p) :
    Answers ty.eq (s.toSetI env ty) ∧ (s.toSetI env ty).iter.Perm p := by
  have hb := new_built env₁ hty (payload := unitPayload p) (by rw [unitPayload_length]; exact hcap)
    (FrozenSet.new_ok hs)
  have hg : Good ty s.toMap := by
    refine hb.good ?_
    rcases hr with h | h
    · left
      intro r hr
      cases s <;> simp [FrozenSet.toMap] at hr
      exact h _ rfl
    · right; exact distinctKeys_unit.2 h
  have hi : (s.toSetI env ty).iter = (s.toMap.entries ty).map (·.1) := by
    simp only [FrozenSet.toSetI, FrozenSet.iter_toMap, items_new]
  refine ⟨answers_of_scan (es := s.toMap.entries ty) (fun x => ?_) hi ?_, ?_⟩
  · simp only [FrozenSet.toSetI]
    rw [FrozenSet.contains_toMap (Or.inl hg), hg.getKeyValue hty]
  · simp only [FrozenSet.toSetI, FrozenSet.len_toMap, hg.len]
  · rw [hi]; exact unit_perm hb.perm

end FC
