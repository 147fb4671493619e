import Verif.Spec.IterPool
import Verif.Props.MapIter
import Verif.Lemmas.SetOps

/-
Iterators and lists: a relation kept by every step is kept by whole histories.
-/

set_option autoImplicit false

namespace FC
variable [Target]
variable {I X K V T : Type}

omit [Target] in
/-- An iterator that steps like a list, in any state related to that list, acts as the list. -/
theorem ActsAsList.of_rel {A : IterApi I X} {ct : X → X} {offered : Ask → Prop}
    (Rel : I → List X → Prop)
    (hnext : ∀ it l, Rel it l → ∃ it', A.next it = .ok (l.head?, it') ∧ Rel it' l.tail)
    (hclone : ∀ it l, Rel it l → Rel (A.clone it) (l.map ct))
    (hask : ∀ it l q, offered q → Rel it l → A.ask q it = (listIter ct).ask q l)
    {it : I} {l : List X} (h : Rel it l) : ActsAsList A ct offered it l := by
  have key : ∀ (ops : List PoolOp), (∀ op ∈ ops, op.Within offered) →
      ∀ (p : List (Option I)) (p' : List (Option (List X))),
        List.Forall₂ (fun a b => Option.Rel Rel a b) p p' →
        A.poolRun p ops = (listIter ct).poolRun p' ops := by
    intro ops
    induction ops with
    | nil => intro _ p p' _; rfl
    | cons op ops ih =>
      intro hw p p' hp
      have hlen := hp.length_eq
      have look : ∀ i : Nat, (∃ it l, p[i]? = some (some it) ∧ p'[i]? = some (some l) ∧ Rel it l) ∨
          (p[i]? = some none ∧ p'[i]? = some none) ∨ (p[i]? = none ∧ p'[i]? = none) := by
        intro i
        by_cases hi : i < p.length
        · have hr := (List.forall₂_iff_get.1 hp).2 i hi (by omega)
          rw [List.getElem?_eq_getElem hi, List.getElem?_eq_getElem (by omega : i < p'.length)]
          simp only [List.get_eq_getElem] at hr
          generalize p[i] = a at hr
          generalize p'[i]'(by omega) = b at hr
          cases hr with
          | some h => exact Or.inl ⟨_, _, rfl, rfl, h⟩
          | none => exact Or.inr (Or.inl ⟨rfl, rfl⟩)
        · exact Or.inr (Or.inr ⟨by simp; omega, by simp; omega⟩)
      have set : ∀ (i : Nat) a b, Option.Rel Rel a b →
          List.Forall₂ (fun a b => Option.Rel Rel a b) (p.set i a) (p'.set i b) := by
        intro i a b hab
        rw [List.forall₂_iff_get]
        refine ⟨by simp [hlen], fun j h1 h2 => ?_⟩
        simp only [List.length_set] at h1 h2
        simp only [List.get_eq_getElem, List.getElem_set]
        split
        · exact hab
        · exact (List.forall₂_iff_get.1 hp).2 j h1 h2
      have hw' : ∀ op ∈ ops, op.Within offered := fun o ho => hw o (List.mem_cons_of_mem _ ho)
      have hop := hw op List.mem_cons_self
      unfold IterApi.poolRun
      cases op with
      | next i =>
        rcases look i with ⟨it, l, h1, h2, hr⟩ | ⟨h1, h2⟩ | ⟨h1, h2⟩
        · obtain ⟨it', hn, hr'⟩ := hnext it l hr
          simp only [IterApi.poolStep, h1, h2, hn, listIter, Res.ok_bind, Res.pure_eq]
          rw [ih hw' _ _ (set i _ _ (.some hr'))]
          rfl
        · simp only [IterApi.poolStep, h1, h2, Res.ok_bind]
          rw [ih hw' _ _ hp]
        · simp only [IterApi.poolStep, h1, h2, Res.ok_bind]
          rw [ih hw' _ _ hp]
      | clone i =>
        rcases look i with ⟨it, l, h1, h2, hr⟩ | ⟨h1, h2⟩ | ⟨h1, h2⟩
        · simp only [IterApi.poolStep, h1, h2, Res.ok_bind]
          rw [ih hw' _ (p' ++ [some ((listIter ct).clone l)])
            (List.rel_append (R := fun a b => Option.Rel Rel a b) hp
              (.cons (.some (hclone it l hr)) .nil))]
        · simp only [IterApi.poolStep, h1, h2, Res.ok_bind]
          rw [ih hw' _ _ hp]
        · simp only [IterApi.poolStep, h1, h2, Res.ok_bind]
          rw [ih hw' _ _ hp]
      | ask i q =>
        rcases look i with ⟨it, l, h1, h2, hr⟩ | ⟨h1, h2⟩ | ⟨h1, h2⟩
        · have ha := hask it l q hop hr
          simp only [IterApi.poolStep, h1, h2, ha]
          obtain ⟨a, hl⟩ : ∃ a, (listIter ct).ask q l = .ok a := by
            cases q <;> exact ⟨_, rfl⟩
          rw [hl]
          simp only [Res.ok_bind, Res.pure_eq]
          split
          · rw [ih hw' _ _ (set i _ _ .none)]
          · rw [ih hw' _ _ hp]
        · simp only [IterApi.poolStep, h1, h2, Res.ok_bind]
          rw [ih hw' _ _ hp]
        · simp only [IterApi.poolStep, h1, h2, Res.ok_bind]
          rw [ih hw' _ _ hp]
  intro ops hw
  exact key ops hw _ _ (.cons (.some h) .nil)

omit [Target] in
theorem foldl_snoc {α β : Type} (f : α → β) (l : List α) (acc : List β) :
    l.foldl (fun acc e => acc ++ [f e]) acc = acc ++ l.map f := by
  induction l generalizing acc with
  | nil => simp
  | cons e l ih => simp [ih]

/-- The iterator over `es` has `l` left. -/
def MapIter.At (it : MapIter K V) (l : List (K × V)) : Prop :=
  it.index ≤ it.entries.length ∧ it.entries.drop it.index = l

omit [Target] in
theorem MapIter.At.next {it : MapIter K V} {l : List (K × V)} (h : it.At l) :
    it.next.1 = l.head? ∧ it.next.2.At l.tail := by
  obtain ⟨h1, rfl⟩ := h
  unfold MapIter.next
  rw [List.head?_drop]
  by_cases hi : it.index < it.entries.length
  · rw [List.getElem?_eq_getElem hi]
    exact ⟨rfl, by simp only; omega, by simp⟩
  · have : it.entries[it.index]? = none := by simp; omega
    rw [this]
    refine ⟨rfl, h1, ?_⟩
    show it.entries.drop it.index = _
    rw [List.drop_eq_nil_of_le (by omega)]; rfl

theorem MapIter.At.len {it : MapIter K V} {l : List (K × V)} (h : it.At l) (oc : Bool) :
    it.len oc = .ok l.length := by
  obtain ⟨h1, rfl⟩ := h
  unfold MapIter.len
  rw [usub_ok h1, List.length_drop]

omit [Target] in
theorem MapIter.At.fold {it : MapIter K V} {l : List (K × V)} (h : it.At l) {B : Type}
    (f : B → K × V → B) (b : B) : it.fold f b = l.foldl f b := by
  obtain ⟨h1, rfl⟩ := h
  exact MapIter.fold_eq f it.entries _ it.index b rfl

omit [Target] in
theorem SetIter.describes :
    Describes (fun it : SetIter T => .ok it.next) (fun it => it.index ≤ it.entries.length)
      (fun it => (it.entries.drop it.index).map (·.1)) := by
  intro it h1
  refine ⟨it.next.2, ?_⟩
  unfold SetIter.next
  by_cases hi : it.index < it.entries.length
  · rw [List.getElem?_eq_getElem hi]
    refine ⟨?_, ?_, ?_⟩
    · simp [List.head?_drop, List.getElem?_eq_getElem hi]
    · simp [← List.map_tail]
    · simp only; omega
  · have h0 : it.entries[it.index]? = none := by simp; omega
    have h2 : it.entries.drop it.index = [] := List.drop_eq_nil_of_le (by omega)
    simp [h0, h2, h1]

omit [Target] in
theorem SetIntoIter.describes :
    Describes (fun it : SetIntoIter T => .ok it.next) (fun _ => True)
      (fun it => it.rest.map (·.1)) := by
  intro it _
  refine ⟨it.next.2, ?_⟩
  unfold SetIntoIter.next
  rcases it with ⟨_ | ⟨e, es⟩⟩ <;> simp

omit [Target] in
/-- A set-operation iterator described by a list acts as that list. -/
theorem BinIter.actsAsList {next : BinIter T → Res (Option T × BinIter T)}
    {inv : BinIter T → Prop} {rest : BinIter T → List T} (h : Describes next inv rest)
    (hdec : ∀ s x s', next s = .ok (some x, s') → s'.size < s.size)
    (hint : BinIter T → Nat × Option Nat) {it : BinIter T} (hi : inv it) :
    ActsAsList (binIterApi next (drain next BinIter.size hdec) hint) id
      (fun q => q = .count ∨ q = .rest) it (rest it) := by
  refine ActsAsList.of_rel (fun it l => inv it ∧ rest it = l) ?_ ?_ ?_ ⟨hi, rfl⟩
  · rintro it l ⟨h1, rfl⟩
    obtain ⟨it', h2, h3, h4⟩ := h it h1
    exact ⟨it', h2, h4, h3⟩
  · rintro it l ⟨h1, rfl⟩
    exact ⟨h1, by simp [binIterApi, BinIter.clone]⟩
  · rintro it l q hq ⟨h1, h2⟩
    have hd := h.drain BinIter.size hdec l it h1 h2
    rcases hq with rfl | rfl <;> simp [binIterApi, listIter, hd, Res.map]

end FC
