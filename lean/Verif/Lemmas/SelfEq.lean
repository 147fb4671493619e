import Verif.Spec.SelfEq
import Verif.Lemmas.FirstMatch
import Verif.Lemmas.SetConsistent

/-
Lemmas for C73.
-/

set_option autoImplicit false

namespace FC
variable [Target]
variable {M K V T : Type}

omit [Target] in
theorem FirstMatch.find_some {eq : K → K → Bool} {d : List (K × V)} {q : K} {e : K × V}
    (h : FirstMatch.find eq id d q = some e) : e ∈ d ∧ eq q e.1 = true := by
  induction d with
  | nil => cases h
  | cons x d ih =>
    unfold FirstMatch.find at h
    split at h
    · rename_i hx
      cases h
      exact ⟨by simp, hx⟩
    · obtain ⟨h1, h2⟩ := ih h
      exact ⟨by simp [h1], h2⟩

omit [Target] in
theorem FirstMatch.find_mem {eq : K → K → Bool} {d : List (K × V)} {q : K} {e : K × V}
    (he : e ∈ d) (hq : eq q e.1 = true) : ∃ e', FirstMatch.find eq id d q = some e' := by
  induction d with
  | nil => cases he
  | cons x d ih =>
    unfold FirstMatch.find
    by_cases hx : eq q (id x.1) = true
    · exact ⟨x, if_pos hx⟩
    · rw [if_neg hx]
      rcases List.mem_cons.1 he with rfl | he'
      · exact absurd hq hx
      · exact ih he'

omit [Target] in
theorem FirstMatch.find_congr {eq : K → K → Bool} (heq : LawfulEq eq) {a b : K}
    (h : eq a b = true) (d : List (K × V)) :
    FirstMatch.find eq id d a = FirstMatch.find eq id d b := by
  induction d with
  | nil => rfl
  | cons x d ih =>
    unfold FirstMatch.find
    have : eq a x.1 = eq b x.1 := by
      apply Bool.eq_iff_iff.2
      exact ⟨fun h' => heq.trans _ _ _ (heq.symm _ _ h) h', fun h' => heq.trans _ _ _ h h'⟩
    simp only [id, this]
    rw [ih]

/-- Where a history that returns has led. -/
theorem ScanMap.run_inv {A : MapApi M K V K} {eq : K → K → Bool} {Inv : M → Prop}
    {ents : M → List (K × V)} (hA : ScanMap A eq id Inv ents) {m : M} (hm : Inv m)
    {ops : List (MapOp V K)} {r : List (Out K V) × M} (hr : A.run m ops = .ok r) : Inv r.2 := by
  have h := hA.run_list hm ops
  cases hs : FirstMatch.run eq id (ents m) ops with
  | ok s =>
    rw [hs] at h
    obtain ⟨m', h1, h2, _⟩ := h
    rw [hr] at h1
    cases h1
    exact h2
  | panic => rw [hs] at h; rw [hr] at h; cases h
  | ub => rw [hs] at h; exact h.elim

/-- `==` on two maps that answer like lists. -/
theorem ScanMap.eq_list {A : MapApi M K V K} {eq : K → K → Bool} {Inv : M → Prop}
    {ents : M → List (K × V)} (hA : ScanMap A eq id Inv ents) (veq : V → V → Bool) {m₁ m₂ : M}
    (hm₁ : Inv m₁) (hm₂ : Inv m₂) :
    ∃ b, A.partialEq veq m₁ m₂ = .ok b ∧
      (b = true ↔ (ents m₁).length = (ents m₂).length ∧ ∀ e ∈ ents m₁, ∃ e',
        FirstMatch.find eq id (ents m₂) e.1 = some e' ∧ veq e.2 e'.2 = true) :=
  hA.eqIsList veq hm₁ hm₂ [] [] ([], m₁) ([], m₂) ([], ents m₁) ([], ents m₂) rfl rfl rfl rfl

theorem ScanMap.equalsItself {A : MapApi M K V K} {eq : K → K → Bool} {Inv : M → Prop}
    {ents : M → List (K × V)} (hA : ScanMap A eq id Inv ents) (heq : LawfulEq eq)
    {veq : V → V → Bool} (hveq : LawfulEq veq) {m : M} (hm : Inv m) :
    EqualsItselfIff A eq veq m := by
  intro ops r hr
  have hi := hA.run_inv hm hr
  obtain ⟨b, h1, h2⟩ := hA.eq_list veq hi hi
  refine ⟨b, h1, h2.trans ⟨fun ⟨_, h⟩ => ?_, fun h => ⟨rfl, fun e he => ?_⟩⟩⟩
  · rw [hA.iter]
    intro e he e' he' hee
    obtain ⟨x, hx, hv⟩ := h e he
    obtain ⟨y, hy, hw⟩ := h e' he'
    rw [FirstMatch.find_congr heq hee, hy] at hx
    cases hx
    exact hveq.trans _ _ _ hv (hveq.symm _ _ hw)
  · rw [hA.iter] at h
    obtain ⟨e', he'⟩ := FirstMatch.find_mem he (heq.refl e.1)
    obtain ⟨hm', hk⟩ := FirstMatch.find_some he'
    exact ⟨e', he', h e he e' hm' hk⟩

theorem ScanMap.carriesOver {A : MapApi M K V K} {eq : K → K → Bool} {Inv : M → Prop}
    {ents : M → List (K × V)} (hA : ScanMap A eq id Inv ents) (heq : LawfulEq eq)
    {veq : V → V → Bool} (hveq : LawfulEq veq) {m₁ m₂ m₃ : M} (hm₁ : Inv m₁) (hm₂ : Inv m₂)
    (hm₃ : Inv m₃) : EqCarriesOver A veq m₁ m₂ m₃ := by
  intro ops₁ ops₂ ops₃ r₁ r₂ r₃ hr₁ hr₂ hr₃ h12 h23
  have hi₁ := hA.run_inv hm₁ hr₁
  have hi₂ := hA.run_inv hm₂ hr₂
  have hi₃ := hA.run_inv hm₃ hr₃
  obtain ⟨b, e12, f12⟩ := hA.eq_list veq hi₁ hi₂
  obtain ⟨b', e23, f23⟩ := hA.eq_list veq hi₂ hi₃
  obtain ⟨b'', e13, f13⟩ := hA.eq_list veq hi₁ hi₃
  rw [h12] at e12
  rw [h23] at e23
  cases e12
  cases e23
  rw [e13]
  obtain ⟨l12, a12⟩ := f12.1 rfl
  obtain ⟨l23, a23⟩ := f23.1 rfl
  refine congrArg Res.ok (f13.2 ⟨l12.trans l23, fun e he => ?_⟩)
  obtain ⟨x, hx, hv⟩ := a12 e he
  obtain ⟨hxm, hxk⟩ := FirstMatch.find_some hx
  obtain ⟨y, hy, hw⟩ := a23 x hxm
  exact ⟨y, by rw [FirstMatch.find_congr heq hxk]; exact hy, hveq.trans _ _ _ hv hw⟩

/-! Sets -/

omit [Target] in
theorem Answers.eq_self {eq : T → T → Bool} (heq : LawfulEq eq) {s : SetI T} (h : Answers eq s) :
    s.eq s = .ok true := by
  obtain ⟨c, h1, h2⟩ := h.total
  unfold SetI.eq
  rw [if_neg (by simp), Res.allList_ok (f := c) (by intro v _; exact h1 v)]
  refine congrArg Res.ok (List.all_eq_true.2 fun x hx => (h2 x).2 ⟨x, hx, heq.refl x⟩)

omit [Target] in
theorem Answers.eq_iff {eq : T → T → Bool} (heq : LawfulEq eq) {a b : SetI T} (ha : Answers eq a)
    (hb : Answers eq b) :
    ∃ r, a.eq b = .ok r ∧
      (r = true ↔ a.iter.length = b.iter.length ∧ ∀ x, Has eq a.iter x → Has eq b.iter x) := by
  obtain ⟨c, h1, h2⟩ := hb.total
  unfold SetI.eq
  rw [ha.len, hb.len]
  by_cases h : a.iter.length = b.iter.length
  · rw [if_neg (by simpa using h), Res.allList_ok (f := c) (by intro v _; exact h1 v)]
    refine ⟨_, rfl, ?_⟩
    rw [List.all_eq_true]
    constructor
    · refine fun hall => ⟨h, ?_⟩
      rintro x ⟨y, hy, hxy⟩
      obtain ⟨z, hz, hyz⟩ := (h2 y).1 (hall y hy)
      exact ⟨z, hz, heq.trans _ _ _ hxy hyz⟩
    · rintro ⟨_, hall⟩ x hx
      exact (h2 x).2 (hall x ⟨x, hx, heq.refl x⟩)
  · rw [if_pos h]
    exact ⟨false, rfl, by simp, fun hh => absurd hh.1 h⟩

omit [Target] in
theorem Answers.eq_trans {eq : T → T → Bool} (heq : LawfulEq eq) {a b c : SetI T} (ha : Answers eq a)
    (hb : Answers eq b) (hc : Answers eq c) (h1 : a.eq b = .ok true) (h2 : b.eq c = .ok true) :
    a.eq c = .ok true := by
  obtain ⟨x, e1, f1⟩ := Answers.eq_iff heq ha hb
  obtain ⟨y, e2, f2⟩ := Answers.eq_iff heq hb hc
  obtain ⟨z, e3, f3⟩ := Answers.eq_iff heq ha hc
  rw [h1] at e1
  rw [h2] at e2
  cases e1
  cases e2
  obtain ⟨l1, g1⟩ := f1.1 rfl
  obtain ⟨l2, g2⟩ := f2.1 rfl
  rw [e3, f3.2 ⟨l1.trans l2, fun x hx => g2 x (g1 x hx)⟩]

end FC
