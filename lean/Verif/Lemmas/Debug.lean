import Verif.Model.Debug
import Verif.Spec.Debug

/-
Lemmas on the `Debug` builders.
-/

set_option autoImplicit false

namespace FC
variable [Target]

omit [Target] in
theorem entry_foldl_none {α : Type} (text : α → Option String) (items : List α) (h : Bool) :
    (items.foldl (fun (b : Builder) x => b.entry (text x)) ⟨none, h⟩).out = none := by
  induction items generalizing h with
  | nil => rfl
  | cons x xs ih => exact ih true

omit [Target] in
theorem intercalate_snoc (done : List String) (t : String) :
    ", ".intercalate (done ++ [t])
      = if done.isEmpty then t else ", ".intercalate done ++ ", " ++ t := by
  cases done with
  | nil => simp
  | cons d ds =>
    rw [String.intercalate_append_of_ne_nil (by simp) (by simp)]
    simp

omit [Target] in
/-- The builder after some texts were written. -/
theorem entry_foldl {α : Type} (text : α → Option String) (items : List α) (opening : String)
    (done : List String) :
    (items.foldl (fun (b : Builder) x => b.entry (text x))
        ⟨some (opening ++ ", ".intercalate done), !done.isEmpty⟩).out
      = (items.mapM text).map (fun ts => opening ++ ", ".intercalate (done ++ ts)) := by
  induction items generalizing done with
  | nil => simp
  | cons x xs ih =>
    rw [List.foldl_cons, List.mapM_cons]
    cases hx : text x with
    | none =>
      have h : Builder.entry ⟨some (opening ++ ", ".intercalate done), !done.isEmpty⟩ none
          = ⟨none, true⟩ := rfl
      rw [h, entry_foldl_none]
      rfl
    | some t =>
      have h : Builder.entry ⟨some (opening ++ ", ".intercalate done), !done.isEmpty⟩ (some t)
          = ⟨some (opening ++ ", ".intercalate (done ++ [t])), !(done ++ [t]).isEmpty⟩ := by
        unfold Builder.entry
        rw [intercalate_snoc]
        cases done with
        | nil => simp
        | cons d ds => simp [String.append_assoc]
      rw [h, ih (done ++ [t])]
      cases hxs : xs.mapM text <;> simp [hxs]

omit [Target] in
theorem prints_foldl {α : Type} (text : α → Option String) (items : List α)
    (opening closing : String) :
    Prints opening closing text items
      ((items.foldl (fun (b : Builder) x => b.entry (text x)) (Builder.start opening)).finish
        closing) := by
  have h := entry_foldl text items opening []
  simp only [String.intercalate_nil, String.append_empty, List.isEmpty_nil, Bool.not_true,
    List.nil_append] at h
  unfold Prints Builder.finish Builder.start listing
  rw [h]
  cases items.mapM text <;> rfl

omit [Target] in
theorem debugList_prints {α : Type} (fa : Fmt α) (items : List α) :
    Prints "[" "]" fa items (debugList fa items) := prints_foldl fa items "[" "]"

omit [Target] in
theorem debugMap_prints {K V : Type} (fk : Fmt K) (fv : Fmt V) (pairs : List (K × V)) :
    Prints "{" "}" (entryText fk fv) pairs (debugMap fk fv pairs) := by
  have h := prints_foldl (entryText fk fv) pairs "{" "}"
  have he : (fun (b : Builder) (e : K × V) => b.mapEntry (fk e.1) (fv e.2))
      = fun b e => b.entry (entryText fk fv e) := by
    funext b e
    unfold Builder.mapEntry entryText
    cases fk e.1 <;> cases fv e.2 <;> rfl
  unfold debugMap
  rw [he]
  exact h

omit [Target] in
/-- Printing does not depend on how the items are represented. -/
theorem Prints.map {α β : Type} {opening closing : String} {text : β → Option String} (f : α → β)
    {items : List α} {out : Option String} :
    Prints opening closing (fun x => text (f x)) items out ↔
      Prints opening closing text (items.map f) out := by
  unfold Prints
  rw [List.mapM_map]
  exact Iff.rfl

omit [Target] in
theorem Prints.congr {α : Type} {opening closing : String} {text text' : α → Option String}
    {items : List α} {out : Option String} (h : ∀ x ∈ items, text x = text' x)
    (hp : Prints opening closing text items out) : Prints opening closing text' items out := by
  have hm : items.mapM text = items.mapM text' := by
    clear hp
    induction items with
    | nil => rfl
    | cons x xs ih =>
      rw [List.mapM_cons, List.mapM_cons, h x (by simp), ih (fun y hy => h y (by simp [hy]))]
  unfold Prints at *
  rw [← hm]
  exact hp

end FC
