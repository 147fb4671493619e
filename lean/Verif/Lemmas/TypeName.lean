import Verif.Spec.TypeName

set_option autoImplicit false

namespace FC

theorem colon_split {a b xs ys : List Char} (ha : ':' ∉ a) (hb : ':' ∉ b)
    (hx : xs = [] ∨ ∃ r, xs = ':' :: r) (hy : ys = [] ∨ ∃ r, ys = ':' :: r)
    (h : a ++ xs = b ++ ys) : a = b ∧ xs = ys := by
  induction a generalizing b with
  | nil =>
    cases b with
    | nil => exact ⟨rfl, h⟩
    | cons c b =>
      rcases hx with rfl | ⟨r, rfl⟩
      · simp at h
      · simp only [List.nil_append, List.cons_append, List.cons.injEq] at h
        exact absurd (h.1 ▸ List.mem_cons_self) hb
  | cons c a ih =>
    cases b with
    | nil =>
      rcases hy with rfl | ⟨r, rfl⟩
      · simp at h
      · simp only [List.nil_append, List.cons_append, List.cons.injEq] at h
        exact absurd (h.1 ▸ List.mem_cons_self) ha
    | cons d b =>
      simp only [List.cons_append, List.cons.injEq] at h
      obtain ⟨rfl, h⟩ := h
      obtain ⟨rfl, rfl⟩ := ih (fun hm => ha (List.mem_cons_of_mem _ hm))
        (fun hm => hb (List.mem_cons_of_mem _ hm)) h
      exact ⟨rfl, rfl⟩

theorem segs_head (ss : List String) :
    ss.flatMap (fun s => ':' :: ':' :: s.toList) = [] ∨
      ∃ r, ss.flatMap (fun s => ':' :: ':' :: s.toList) = ':' :: r := by
  cases ss with
  | nil => exact .inl rfl
  | cons s ss => exact .inr ⟨_, by simp only [List.flatMap_cons, List.cons_append]; rfl⟩

theorem segs_inj (ss ts : List String) (hs : ∀ s ∈ ss, ':' ∉ s.toList) (ht : ∀ s ∈ ts, ':' ∉ s.toList)
    (h : ss.flatMap (fun s => ':' :: ':' :: s.toList) = ts.flatMap (fun s => ':' :: ':' :: s.toList)) :
    ss = ts := by
  induction ss generalizing ts with
  | nil =>
    cases ts with
    | nil => rfl
    | cons t ts => simp at h
  | cons s ss ih =>
    cases ts with
    | nil => simp at h
    | cons t ts =>
      simp only [List.flatMap_cons, List.cons_append, List.cons.injEq, true_and] at h
      obtain ⟨h1, h2⟩ := colon_split (hs s List.mem_cons_self) (ht t List.mem_cons_self)
        (segs_head ss) (segs_head ts) h
      rw [String.toList_inj.mp h1, ih ts (fun x hx => hs x (List.mem_cons_of_mem _ hx))
        (fun x hx => ht x (List.mem_cons_of_mem _ hx)) h2]

theorem pathText_mem_colon (c : Crate) (ms : List String) (n : String) : ':' ∈ pathText c ms n := by
  unfold pathText
  simp

theorem u32_text : RTy.u32.text = ['u', '3', '2'] := by
  unfold RTy.u32 RTy.text Prim.text; decide

theorem string_text : RTy.string.text = "alloc::string::String".toList := by
  unfold RTy.string RTy.text; decide

theorem Prim.text_inj {p q : Prim} (h : p.text.toList = q.text.toList) : p = q := by
  have h := String.toList_inj.mp h
  revert h
  cases p <;> cases q <;> decide

theorem text_special (t : RTy) : (∃ p, t = .prim p) ∨ (∃ c ms n, t = .adt c ms n []) ∨
    '<' ∈ t.text ∨ '&' ∈ t.text ∨ '*' ∈ t.text ∨ '[' ∈ t.text ∨ '(' ∈ t.text ∨ ' ' ∈ t.text := by
  cases t with
  | prim p => exact .inl ⟨p, rfl⟩
  | adt c ms n as =>
    cases as with
    | nil => exact .inr (.inl ⟨c, ms, n, rfl⟩)
    | cons a as => right; right; left; unfold RTy.text; simp [RTy.texts, angleText]
  | ref m t => cases m <;> (right; right; right; left; unfold RTy.text; simp)
  | ptr m t => cases m <;> (right; right; right; right; left; unfold RTy.text; simp)
  | slice t => right; right; right; right; right; left; unfold RTy.text; simp
  | array t n => right; right; right; right; right; left; unfold RTy.text; simp
  | tuple ts =>
    right; right; right; right; right; right; left
    match ts with
    | [] => unfold RTy.text; simp
    | [t] => unfold RTy.text; simp
    | t :: u :: ts => unfold RTy.text; simp
  | fn h as r => right; right; right; right; right; right; left; unfold RTy.text; simp
  | dyn c ms n as => right; right; right; right; right; right; right; unfold RTy.text; simp

theorem text_u32 {t : RTy} (h : t.text = RTy.u32.text) : t = RTy.u32 := by
  rw [u32_text] at h
  rcases text_special t with ⟨p, rfl⟩ | ⟨c, ms, n, rfl⟩ | hs
  · rw [← u32_text] at h
    unfold RTy.u32 RTy.text at h
    rw [Prim.text_inj h]; rfl
  · unfold RTy.text at h
    have hm := pathText_mem_colon c ms n
    simp only [RTy.texts, angleText, List.append_nil] at h
    rw [h] at hm
    simp at hm
  · rw [h] at hs
    simp at hs

theorem text_string {t : RTy} (hn : t.Named) (h : t.text = RTy.string.text) :
    t = RTy.string ∨ t.Impostor := by
  rw [string_text] at h
  rcases text_special t with ⟨p, rfl⟩ | ⟨c, ms, n, rfl⟩ | hs
  · exfalso
    unfold RTy.text at h
    have h := String.toList_inj.mp h
    revert h
    cases p <;> decide
  · unfold RTy.text at h
    simp only [RTy.texts, angleText, List.append_nil] at h
    have hlt : '<' ∉ pathText c ms n := by rw [h]; decide
    unfold pathText at h hlt
    obtain ⟨h1, h2, h3⟩ := hn
    have hc : ':' ∉ c.name.toList := fun hm => hlt (List.mem_append_left _ (h1 hm))
    have hss : ∀ s ∈ ms ++ [n], ':' ∉ s.toList := by
      intro s hs hm
      refine hlt (List.mem_append_right _ (List.mem_flatMap.mpr ⟨s, hs, ?_⟩))
      have : PathPart s := by
        rcases List.mem_append.mp hs with hs | hs
        · exact h2 s hs
        · rw [List.mem_singleton.mp hs]; exact h3
      exact List.mem_cons_of_mem _ (List.mem_cons_of_mem _ (this hm))
    have htgt : "alloc::string::String".toList = "alloc".toList ++
        ["string", "String"].flatMap (fun s => ':' :: ':' :: s.toList) := by decide
    rw [htgt] at h
    obtain ⟨e1, e2⟩ := colon_split hc (by decide) (segs_head _) (segs_head _) h
    have e2 := segs_inj _ _ hss (by decide) e2
    have e1 := String.toList_inj.mp e1
    have e3 : ms = ["string"] ∧ n = "String" := by
      have : ms ++ [n] = ["string"] ++ ["String"] := e2
      obtain ⟨a, b⟩ := List.append_inj' this rfl
      exact ⟨a, by simpa using b⟩
    obtain ⟨rfl, rfl⟩ := e3
    by_cases hcs : c = stdAlloc
    · exact .inl (by rw [hcs]; rfl)
    · exact .inr ⟨c, e1, hcs, rfl⟩
  · exfalso
    rw [h] at hs
    revert hs
    decide

theorem impostor_text {t : RTy} (h : t.Impostor) : t.text = RTy.string.text := by
  obtain ⟨c, hc, _, rfl⟩ := h
  unfold RTy.string RTy.text pathText
  rw [hc]; rfl

theorem impostor_ne {t : RTy} (h : t.Impostor) : t ≠ RTy.string ∧ t ≠ RTy.u32 := by
  obtain ⟨c, _, hc, rfl⟩ := h
  unfold RTy.string RTy.u32
  constructor
  · intro h
    injection h with h
    exact hc h
  · intro h; cases h

end FC
