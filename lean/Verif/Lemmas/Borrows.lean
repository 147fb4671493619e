import Verif.Spec.Borrows
import Verif.Lemmas.Table

/-
Lemmas about the stacks of references.
-/

set_option autoImplicit false

namespace FC

/-! ### Stacks -/

theorem readStack_some {t : Nat} {s : List Borrow} (ht : t ∈ s.map Borrow.tag) :
    ∃ r, readStack t s = some r ∧ r.Sublist s ∧ (∀ x ∈ s, x.perm = .readOnly → x ∈ r) ∧
      r.getLast? = s.getLast? ∧ t ∈ r.map Borrow.tag := by
  induction s with
  | nil => simp at ht
  | cons b bs ih =>
    by_cases hb : b.tag = t
    · refine ⟨b :: bs, by simp [readStack, hb], List.Sublist.refl _, fun x hx _ => hx, rfl, ?_⟩
      simp [hb]
    · have ht' : t ∈ bs.map Borrow.tag := by
        simp only [List.map_cons, List.mem_cons] at ht
        rcases ht with h | h
        · exact absurd h.symm hb
        · exact h
      obtain ⟨r, hr, hsub, hkeep, hlast, hmem⟩ := ih ht'
      have hrne : r ≠ [] := by rintro rfl; simp at hmem
      have hbne : bs ≠ [] := by rintro rfl; simp at ht'
      by_cases hp : b.perm = .readOnly
      · refine ⟨b :: r, by simp [readStack, hb, hr, hp], hsub.cons_cons b, ?_, ?_, ?_⟩
        · intro x hx hxp
          rcases List.mem_cons.mp hx with rfl | hx
          · exact List.mem_cons_self
          · exact List.mem_cons_of_mem _ (hkeep x hx hxp)
        · rw [List.getLast?_cons, List.getLast?_cons, hlast]
        · simp only [List.map_cons, List.mem_cons]; exact Or.inr hmem
      · refine ⟨r, by simp [readStack, hb, hr, hp], hsub.cons b, ?_, ?_, hmem⟩
        · intro x hx hxp
          rcases List.mem_cons.mp hx with rfl | hx
          · exact absurd hxp hp
          · exact hkeep x hx hxp
        · rw [hlast, List.getLast?_cons]
          cases hl : bs.getLast? with
          | none => exact absurd (List.getLast?_eq_none_iff.mp hl) hbne
          | some y => rfl

theorem writeStack_some {t : Nat} {s : List Borrow} (hn : (s.map Borrow.tag).Nodup)
    (ht : ⟨t, .unique⟩ ∈ s) :
    ∃ r, writeStack t s = some r ∧ r.Sublist s ∧ r.getLast? = s.getLast? ∧ ⟨t, .unique⟩ ∈ r := by
  induction s with
  | nil => simp at ht
  | cons b bs ih =>
    rw [List.map_cons, List.nodup_cons] at hn
    rcases List.mem_cons.mp ht with rfl | ht'
    · exact ⟨_, by simp [writeStack], List.Sublist.refl _, rfl, ht⟩
    · have hb : b.tag ≠ t := by
        rintro rfl
        exact hn.1 (List.mem_map.mpr ⟨_, ht', rfl⟩)
      obtain ⟨r, hr, hsub, hlast, hmem⟩ := ih hn.2 ht'
      have hbne : bs ≠ [] := by rintro rfl; simp at ht'
      refine ⟨r, by simp [writeStack, hb, hr], hsub.cons b, ?_, hmem⟩
      rw [hlast, List.getLast?_cons]
      cases hl : bs.getLast? with
      | none => exact absurd (List.getLast?_eq_none_iff.mp hl) hbne
      | some y => rfl

theorem writeStack_none {t : Nat} {s : List Borrow} (hn : (s.map Borrow.tag).Nodup)
    (ht : ⟨t, .readOnly⟩ ∈ s) : writeStack t s = none := by
  induction s with
  | nil => rfl
  | cons b bs ih =>
    rw [List.map_cons, List.nodup_cons] at hn
    rcases List.mem_cons.mp ht with rfl | ht'
    · simp [writeStack]
    · have hb : b.tag ≠ t := by
        rintro rfl
        exact hn.1 (List.mem_map.mpr ⟨_, ht', rfl⟩)
      simp [writeStack, hb, ih hn.2 ht']

/-! ### Cells -/

/-- The owner is at the bottom, and tags are used once. -/
structure Cell.Good (p : Cell) : Prop where
  owner : p.stack.getLast? = some ⟨0, .unique⟩
  nodup : (p.stack.map Borrow.tag).Nodup
  fresh : ∀ x ∈ p.stack, x.tag < p.next

theorem Cell.good_owned : Cell.owned.Good := ⟨rfl, by decide, by decide⟩

theorem Cell.Good.mem_owner {p : Cell} (h : p.Good) : ⟨0, .unique⟩ ∈ p.stack :=
  List.mem_of_getLast? h.owner

theorem Cell.Good.sub {p : Cell} (h : p.Good) {s : List Borrow} (hsub : s.Sublist p.stack)
    (hlast : s.getLast? = p.stack.getLast?) : (Cell.mk s p.next).Good :=
  ⟨hlast.trans h.owner, h.nodup.sublist (hsub.map _), fun x hx => h.fresh x (hsub.subset hx)⟩

theorem Cell.Good.push {p : Cell} (h : p.Good) (π : Perm) :
    (Cell.mk (⟨p.next, π⟩ :: p.stack) (p.next + 1)).Good := by
  refine ⟨?_, ?_, ?_⟩
  · show (⟨p.next, π⟩ :: p.stack).getLast? = _
    rw [List.getLast?_cons, h.owner]; rfl
  · show ((⟨p.next, π⟩ :: p.stack).map Borrow.tag).Nodup
    rw [List.map_cons, List.nodup_cons]
    refine ⟨?_, h.nodup⟩
    intro hm
    obtain ⟨x, hx, hxt⟩ := List.mem_map.mp hm
    have := h.fresh x hx
    have hxt' : x.tag = p.next := hxt
    omega
  · intro x hx
    rcases List.mem_cons.mp hx with rfl | hx
    · exact Nat.lt_succ_self _
    · exact Nat.lt_succ_of_lt (h.fresh x hx)

/-- References made as `&` are kept. -/
def Cell.Keeps (p p' : Cell) : Prop := ∀ x ∈ p.stack, x.perm = .readOnly → x ∈ p'.stack

theorem Cell.Good.read {p : Cell} (h : p.Good) {t : Nat} (ht : t ∈ p.stack.map Borrow.tag) :
    ∃ p', p.read t = .ok p' ∧ p'.Good ∧ p.Keeps p' ∧ t ∈ p'.stack.map Borrow.tag := by
  obtain ⟨r, hr, hsub, hkeep, hlast, hmem⟩ := readStack_some ht
  exact ⟨_, by simp only [Cell.read, hr], h.sub hsub hlast, hkeep, hmem⟩

theorem Cell.Good.write {p : Cell} (h : p.Good) {t : Nat} (ht : ⟨t, .unique⟩ ∈ p.stack) :
    ∃ p', p.write t = .ok p' ∧ p'.Good := by
  obtain ⟨r, hr, hsub, hlast, _⟩ := writeStack_some h.nodup ht
  exact ⟨_, by simp only [Cell.write, hr], h.sub hsub hlast⟩

theorem Cell.Good.write_shared {p : Cell} (h : p.Good) {t : Nat}
    (ht : ⟨t, .readOnly⟩ ∈ p.stack) : p.write t = .ub := by
  simp only [Cell.write, writeStack_none h.nodup ht]

theorem Cell.Good.share {p : Cell} (h : p.Good) {t : Nat} (ht : t ∈ p.stack.map Borrow.tag) :
    ∃ r p', p.share t = .ok (r, p') ∧ p'.Good ∧ p.Keeps p' ∧ ⟨r, .readOnly⟩ ∈ p'.stack := by
  obtain ⟨s, hs, hsub, hkeep, hlast, _⟩ := readStack_some ht
  refine ⟨p.next, _, by simp only [Cell.share, hs]; rfl, ?_, ?_, List.mem_cons_self⟩
  · exact (h.sub hsub hlast).push .readOnly
  · exact fun x hx hp => List.mem_cons_of_mem _ (hkeep x hx hp)

theorem Cell.Good.reserve {p : Cell} (h : p.Good) {t : Nat} (ht : ⟨t, .unique⟩ ∈ p.stack) :
    ∃ r p', p.reserve t = .ok (r, p') ∧ p'.Good ∧ ⟨r, .unique⟩ ∈ p'.stack := by
  obtain ⟨s, hs, hsub, hlast, _⟩ := writeStack_some h.nodup ht
  refine ⟨p.next, _, by simp only [Cell.reserve, hs]; rfl, ?_, List.mem_cons_self⟩
  exact (h.sub hsub hlast).push .unique

theorem mem_tags {s : List Borrow} {t : Nat} {π : Perm} (h : ⟨t, π⟩ ∈ s) :
    t ∈ s.map Borrow.tag := List.mem_map.mpr ⟨_, h, rfl⟩

theorem Cell.Good.shareN {n : Nat} {p : Cell} (h : p.Good) {t : Nat}
    (ht : t ∈ p.stack.map Borrow.tag) :
    ∃ r p', Cell.shareN n t p = .ok (r, p') ∧ p'.Good ∧ p.Keeps p' ∧
      (0 < n → ⟨r, .readOnly⟩ ∈ p'.stack) := by
  induction n generalizing p t with
  | zero => exact ⟨t, p, rfl, h, fun _ hx _ => hx, fun h0 => absurd h0 (Nat.lt_irrefl 0)⟩
  | succ n ih =>
    obtain ⟨r, p', hr, hg, hk, hm⟩ := h.share ht
    obtain ⟨r', p'', hr', hg', hk', hm'⟩ := ih hg (mem_tags hm)
    refine ⟨r', p'', by simp only [Cell.shareN, hr, Res.ok_bind, hr'], hg', ?_, fun _ => ?_⟩
    · exact fun x hx hp => hk' x (hk x hx hp) hp
    · cases n with
      | zero =>
        simp only [Cell.shareN, Res.ok.injEq, Prod.mk.injEq] at hr'
        obtain ⟨rfl, rfl⟩ := hr'
        exact hm
      | succ n => exact hm' (Nat.succ_pos _)

theorem Cell.Good.reserveN {n : Nat} {p : Cell} (h : p.Good) {t : Nat}
    (ht : ⟨t, .unique⟩ ∈ p.stack) :
    ∃ r p', Cell.reserveN n t p = .ok (r, p') ∧ p'.Good ∧ ⟨r, .unique⟩ ∈ p'.stack := by
  induction n generalizing p t with
  | zero => exact ⟨t, p, rfl, h, ht⟩
  | succ n ih =>
    obtain ⟨r, p', hr, hg, hm⟩ := h.reserve ht
    obtain ⟨r', p'', hr', hg', hm'⟩ := ih hg hm
    exact ⟨r', p'', by simp only [Cell.reserveN, hr, Res.ok_bind, hr'], hg', hm'⟩

/-! ### All places -/

/-- Every place is in order. -/
def Cells.Good (b : Cells) : Prop := ∀ i, (b i).Good

/-- References made as `&` are kept everywhere. -/
def Cells.Keeps (b b' : Cells) : Prop := ∀ i, (b i).Keeps (b' i)

theorem Cells.Keeps.refl (b : Cells) : b.Keeps b := fun _ _ hx _ => hx

theorem Cells.Keeps.trans {a b c : Cells} (h : a.Keeps b) (h' : b.Keeps c) : a.Keeps c :=
  fun i x hx hp => h' i x (h i x hx hp) hp

@[simp] theorem Cells.set_same (b : Cells) (i : Nat) (p : Cell) : b.set i p i = p := by
  simp [Cells.set]

theorem Cells.Good.set {b : Cells} (h : b.Good) {i : Nat} {p : Cell} (hp : p.Good) :
    (b.set i p).Good := by
  intro j
  unfold Cells.set
  split
  · exact hp
  · exact h j

theorem Cells.Keeps.set {b : Cells} {i : Nat} {p : Cell} (hp : (b i).Keeps p) :
    b.Keeps (b.set i p) := by
  intro j
  unfold Cells.set
  split
  · next hj => subst hj; exact hp
  · exact fun _ hx _ => hx

theorem Cells.Good.look {vs : List (Nat × Nat)} {b : Cells} (h : b.Good) :
    ∃ b', b.look vs = .ok b' ∧ b'.Good ∧ b.Keeps b' := by
  induction vs generalizing b with
  | nil => exact ⟨b, rfl, h, Cells.Keeps.refl b⟩
  | cons v vs ih =>
    obtain ⟨i, n⟩ := v
    obtain ⟨r, p, hr, hg, hk, _⟩ := (h i).shareN (n := n) (mem_tags (h i).mem_owner)
    obtain ⟨b', hb', hg', hk'⟩ := ih (h.set (i := i) hg)
    exact ⟨b', by simp only [Cells.look, hr, Res.ok_bind, hb'], hg',
      (Cells.Keeps.set hk).trans hk'⟩

theorem Cells.Good.lookMut {vs : List (Nat × Nat)} {b : Cells} (h : b.Good) :
    ∃ b', b.lookMut vs = .ok b' ∧ b'.Good := by
  induction vs generalizing b with
  | nil => exact ⟨b, rfl, h⟩
  | cons v vs ih =>
    obtain ⟨i, n⟩ := v
    obtain ⟨r, p, hr, hg, _⟩ := (h i).reserveN (n := n) (h i).mem_owner
    obtain ⟨b', hb', hg'⟩ := ih (h.set (i := i) hg)
    exact ⟨b', by simp only [Cells.lookMut, hr, Res.ok_bind, hb'], hg'⟩

theorem Cells.Good.handOut {b : Cells} (h : b.Good) (w : Walk) (i : Nat) :
    ∃ t b', b.handOut w i = .ok (t, b') ∧ b'.Good ∧ b.Keeps b' ∧ ⟨t, .readOnly⟩ ∈ (b' i).stack := by
  obtain ⟨b₁, hb₁, hg₁, hk₁⟩ := h.look (vs := w.visited)
  obtain ⟨r, p, hr, hg, hk, hm⟩ := (hg₁ i).shareN (n := w.depth + 1) (mem_tags (hg₁ i).mem_owner)
  refine ⟨r, b₁.set i p, by simp only [Cells.handOut, hb₁, Res.ok_bind, hr, Res.pure_eq],
    hg₁.set hg, hk₁.trans (Cells.Keeps.set hk), ?_⟩
  rw [Cells.set_same]
  exact hm (Nat.succ_pos _)

theorem Cells.Good.handOutMut {b : Cells} (h : b.Good) (w : Walk) (i : Nat) :
    ∃ t b', b.handOutMut w i = .ok (t, b') ∧ b'.Good ∧ ⟨t, .unique⟩ ∈ (b' i).stack ∧
      (b' i).stack.head? = some ⟨t, .unique⟩ := by
  obtain ⟨b₁, hb₁, hg₁⟩ := h.lookMut (vs := w.visited)
  obtain ⟨r, p, hr, hg, hm⟩ := (hg₁ i).reserveN (n := w.depth + 1) (hg₁ i).mem_owner
  refine ⟨r, b₁.set i p, by simp only [Cells.handOutMut, hb₁, Res.ok_bind, hr, Res.pure_eq],
    hg₁.set hg, ?_, ?_⟩
  · rw [Cells.set_same]; exact hm
  · rw [Cells.set_same]
    clear hg hm hb₁
    revert hr
    generalize b₁ i = q
    generalize (0 : Nat) = t
    intro hr
    generalize hn : w.depth + 1 = n at hr
    have hpos : 0 < n := by omega
    clear hn
    induction n generalizing q t with
    | zero => exact absurd hpos (Nat.lt_irrefl 0)
    | succ n ih =>
      simp only [Cell.reserveN, Res.bind_eq_ok] at hr
      obtain ⟨x, hx, hr⟩ := hr
      cases n with
      | zero =>
        simp only [Cell.reserveN, Res.ok.injEq] at hr
        cases hr
        simp only [Cell.reserve] at hx
        split at hx
        · cases hx; rfl
        · cases hx
      | succ n => exact ih _ _ hr (Nat.succ_pos _)

theorem Cells.Good.useRead {b : Cells} (h : b.Good) {i t : Nat} (π : Perm)
    (ht : ⟨t, π⟩ ∈ (b i).stack) :
    ∃ b', b.use (Cell.read t) i = .ok b' ∧ b'.Good ∧ b.Keeps b' := by
  obtain ⟨p, hp, hg, hk, _⟩ := (h i).read (mem_tags ht)
  exact ⟨_, by simp only [Cells.use, hp, Res.ok_bind, Res.pure_eq], h.set hg, Cells.Keeps.set hk⟩

/-- The reference made last, if it is a mutable one, can be read and then written through. -/
theorem Cells.Good.useMut {b : Cells} (h : b.Good) {i t : Nat}
    (ht : (b i).stack.head? = some ⟨t, .unique⟩) :
    ∃ b₁ b₂, b.use (Cell.read t) i = .ok b₁ ∧ b₁.use (Cell.write t) i = .ok b₂ ∧ b₂.Good := by
  obtain ⟨s, hs⟩ : ∃ s, (b i).stack = ⟨t, .unique⟩ :: s := by
    cases hst : (b i).stack with
    | nil => rw [hst] at ht; simp at ht
    | cons x s => rw [hst] at ht; simp at ht; exact ⟨s, by rw [ht]⟩
  have hread : (b i).read t = .ok (b i) := by
    simp only [Cell.read, hs, readStack, if_true]
    rw [← hs]
  obtain ⟨p, hp, hg⟩ := (h i).write (t := t) (by rw [hs]; exact List.mem_cons_self)
  refine ⟨b.set i (b i), (b.set i (b i)).set i p, ?_, ?_, (h.set (h i)).set hg⟩
  · simp only [Cells.use, hread, Res.ok_bind, Res.pure_eq]
  · simp only [Cells.use, Cells.set_same, hp, Res.ok_bind, Res.pure_eq]

/-- The shared references the user holds are alive. -/
def Cells.Holds (b : Cells) (held : List (Nat × Nat)) : Prop :=
  ∀ it ∈ held, ⟨it.2, .readOnly⟩ ∈ (b it.1).stack

theorem Cells.Holds.keep {b b' : Cells} {held : List (Nat × Nat)} (h : b.Holds held)
    (hk : b.Keeps b') : b'.Holds held := fun it hit => hk it.1 _ (h it hit) rfl

theorem Cells.Good.handOutAll {is : List Nat} {b : Cells} (h : b.Good) (w : Walk) :
    ∃ x, b.handOutAll w is = .ok x ∧ x.2.Good ∧ b.Keeps x.2 ∧ x.2.Holds x.1 := by
  induction is generalizing b with
  | nil => exact ⟨_, rfl, h, Cells.Keeps.refl b, fun _ hit => absurd hit List.not_mem_nil⟩
  | cons i is ih =>
    obtain ⟨t, b₁, hb₁, hg₁, hk₁, hm₁⟩ := h.handOut w i
    obtain ⟨b₂, hb₂, hg₂, hk₂⟩ := hg₁.useRead .readOnly hm₁
    obtain ⟨x, hx, hg, hk, hh⟩ := ih hg₂
    refine ⟨((i, t) :: x.1, x.2), by simp only [Cells.handOutAll, hb₁, Res.ok_bind, hb₂, hx,
      Res.pure_eq], hg, hk₁.trans (hk₂.trans hk), ?_⟩
    intro it hit
    rcases List.mem_cons.mp hit with rfl | hit
    · exact hk _ _ (hk₂ _ _ hm₁ rfl) rfl
    · exact hh it hit

theorem Cells.Good.handOutMany {is : List Nat} {b : Cells} (h : b.Good) (w : Walk) :
    ∃ x, b.handOutMany w is = .ok x ∧ x.2.Good ∧ b.Keeps x.2 ∧ x.1.length = is.length ∧
      x.2.Holds (is.zip x.1) := by
  induction is generalizing b with
  | nil => exact ⟨_, rfl, h, Cells.Keeps.refl b, rfl, fun _ hit => absurd hit List.not_mem_nil⟩
  | cons i is ih =>
    obtain ⟨t, b₁, hb₁, hg₁, hk₁, hm₁⟩ := h.handOut w i
    obtain ⟨x, hx, hg, hk, hl, hh⟩ := ih hg₁
    refine ⟨(t :: x.1, x.2), by simp only [Cells.handOutMany, hb₁, Res.ok_bind, hx,
      Res.pure_eq], hg, hk₁.trans hk, by simp [hl], ?_⟩
    intro it hit
    rcases List.mem_cons.mp hit with rfl | hit
    · exact hk _ _ hm₁ rfl
    · exact hh it hit

theorem Cells.Good.readAll {rs : List (Nat × Nat)} {b : Cells} (h : b.Good) (hh : b.Holds rs) :
    ∃ b', b.useAll Cell.read rs = .ok b' ∧ b'.Good ∧ b.Keeps b' := by
  induction rs generalizing b with
  | nil => exact ⟨b, rfl, h, Cells.Keeps.refl b⟩
  | cons r rs ih =>
    obtain ⟨i, t⟩ := r
    obtain ⟨b₁, hb₁, hg₁, hk₁⟩ := h.useRead .readOnly (hh (i, t) List.mem_cons_self)
    obtain ⟨b₂, hb₂, hg₂, hk₂⟩ := ih hg₁
      (Cells.Holds.keep (fun it hit => hh it (List.mem_cons_of_mem _ hit)) hk₁)
    exact ⟨b₂, by simp only [Cells.useAll, hb₁, Res.ok_bind, hb₂], hg₂, hk₁.trans hk₂⟩

/-! ### Histories -/

variable {M K V Q : Type}

/-- The operation returns mutable references out of `get_many_mut`. -/
def MapApi.ManyHere (A : MapApi M K V Q) (m : M) (o : MapOp V Q) : Prop :=
  ∃ qvs rs, o = .getManyMut qvs ∧ A.getManyMut m (qvs.map (·.1)) = .ok (some rs) ∧ rs ≠ []

theorem MapApi.borrowStep_ok (A : MapApi M K V Q) (w : Walk) (s : BorrowState M) (o : MapOp V Q)
    {r : Out K V × M} (hr : A.step s.map o = .ok r) (hg : s.places.Good)
    (hh : s.places.Holds s.held) (hno : ¬ A.ManyHere s.map o) :
    ∃ x, A.borrowStep w s o = .ok x ∧ x.1.Good ∧ x.1.Holds x.2 := by
  have hnil : ∀ b : Cells, b.Holds [] := fun _ _ hit => absurd hit List.not_mem_nil
  obtain ⟨bl, hbl, hgl, hkl⟩ := hg.look (vs := w.visited)
  obtain ⟨bm, hbm, hgm⟩ := hg.lookMut (vs := w.visited)
  have all : ∀ is, ∃ x, s.places.handOutAll w is = .ok x ∧ x.2.Good ∧ x.2.Holds (s.held ++ x.1) := by
    intro is
    obtain ⟨x, hx, hgx, hkx, hhx⟩ := hg.handOutAll (is := is) w
    refine ⟨x, hx, hgx, fun it hit => ?_⟩
    rcases List.mem_append.mp hit with hit | hit
    · exact hh.keep hkx it hit
    · exact hhx it hit
  have muts : ∀ i, ∃ x b₁ b₂, s.places.handOutMut w i = .ok x ∧ x.2.use (Cell.read x.1) i = .ok b₁ ∧
      b₁.use (Cell.write x.1) i = .ok b₂ ∧ b₂.Good := by
    intro i
    obtain ⟨t, b', hb', hg', _, hhd⟩ := hg.handOutMut w i
    obtain ⟨b₁, b₂, h₁, h₂, hg₂⟩ := hg'.useMut hhd
    exact ⟨(t, b'), b₁, b₂, hb', h₁, h₂, hg₂⟩
  cases o with
  | get q =>
    simp only [MapApi.step, Res.bind_eq_ok] at hr
    obtain ⟨y, hy, _⟩ := hr
    cases y with
    | none => exact ⟨_, by simp only [MapApi.borrowStep, hy, Res.ok_bind, hbl, Res.pure_eq]; rfl,
        hgl, hh.keep hkl⟩
    | some r =>
      obtain ⟨x, hx, hgx, hhx⟩ := all [r.idx]
      exact ⟨_, by simp only [MapApi.borrowStep, hy, Res.ok_bind, hx, Res.pure_eq]; rfl, hgx, hhx⟩
  | getKeyValue q =>
    simp only [MapApi.step, Res.bind_eq_ok] at hr
    obtain ⟨y, hy, _⟩ := hr
    cases y with
    | none => exact ⟨_, by simp only [MapApi.borrowStep, hy, Res.ok_bind, hbl, Res.pure_eq]; rfl,
        hgl, hh.keep hkl⟩
    | some r =>
      obtain ⟨x, hx, hgx, hhx⟩ := all [r.2.idx]
      exact ⟨_, by simp only [MapApi.borrowStep, hy, Res.ok_bind, hx, Res.pure_eq]; rfl, hgx, hhx⟩
  | containsKey q =>
    exact ⟨_, by simp only [MapApi.borrowStep, Res.ok_bind, hbl, Res.pure_eq]; rfl, hgl, hh.keep hkl⟩
  | index q =>
    simp only [MapApi.step, Res.bind_eq_ok] at hr
    obtain ⟨r, hy, _⟩ := hr
    obtain ⟨x, hx, hgx, hhx⟩ := all [r.idx]
    exact ⟨_, by simp only [MapApi.borrowStep, hy, Res.ok_bind, hx, Res.pure_eq]; rfl, hgx, hhx⟩
  | len =>
    exact ⟨_, by simp only [MapApi.borrowStep, Res.ok_bind, hbl, Res.pure_eq]; rfl, hgl, hh.keep hkl⟩
  | keys =>
    exact ⟨_, by simp only [MapApi.borrowStep, Res.ok_bind, hbl, Res.pure_eq]; rfl, hgl, hh.keep hkl⟩
  | iter =>
    obtain ⟨x, hx, hgx, hhx⟩ := all (List.range (A.len s.map))
    exact ⟨_, by simp only [MapApi.borrowStep, Res.ok_bind, hx, Res.pure_eq]; rfl, hgx, hhx⟩
  | values =>
    obtain ⟨x, hx, hgx, hhx⟩ := all (List.range (A.len s.map))
    exact ⟨_, by simp only [MapApi.borrowStep, Res.ok_bind, hx, Res.pure_eq]; rfl, hgx, hhx⟩
  | getMut q v =>
    simp only [MapApi.step, Res.bind_eq_ok] at hr
    obtain ⟨y, hy, _⟩ := hr
    cases y with
    | none => exact ⟨_, by simp only [MapApi.borrowStep, hy, Res.ok_bind, hbm, Res.pure_eq]; rfl,
        hgm, hnil _⟩
    | some r =>
      obtain ⟨x, b₁, b₂, h0, h1, h2, hg2⟩ := muts r.idx
      exact ⟨_, by simp only [MapApi.borrowStep, hy, Res.ok_bind, h0, h1, h2, Res.pure_eq]; rfl, hg2,
        hnil _⟩
  | indexMut q v =>
    simp only [MapApi.step, Res.bind_eq_ok] at hr
    obtain ⟨r, hy, _⟩ := hr
    obtain ⟨x, b₁, b₂, h0, h1, h2, hg2⟩ := muts r.idx
    exact ⟨_, by simp only [MapApi.borrowStep, hy, Res.ok_bind, h0, h1, h2, Res.pure_eq]; rfl, hg2,
      hnil _⟩
  | getManyMut qvs =>
    simp only [MapApi.step, Res.bind_eq_ok] at hr
    obtain ⟨y, hy, _⟩ := hr
    cases y with
    | none => exact ⟨_, by simp only [MapApi.borrowStep, hy, Res.ok_bind, hbl, Res.pure_eq]; rfl,
        hgl, hnil _⟩
    | some rs =>
      have hrs : rs = [] := by
        by_contra hne
        exact hno ⟨qvs, rs, rfl, hy, hne⟩
      subst hrs
      exact ⟨_, by simp only [MapApi.borrowStep, hy, Res.ok_bind, List.map_nil, Cells.handOutMany,
        List.zip_nil_left, Cells.useAll, Res.pure_eq]; rfl, hg, hnil _⟩

theorem MapApi.borrowStep_many (A : MapApi M K V Q) (w : Walk) (s : BorrowState M) (o : MapOp V Q)
    (hg : s.places.Good) (hmany : A.ManyHere s.map o) : A.borrowStep w s o = .ub := by
  obtain ⟨qvs, rs, rfl, hrs, hne⟩ := hmany
  obtain ⟨x, hx, hgx, _, hlx, hhx⟩ := hg.handOutMany (is := rs.map Ref.idx) w
  obtain ⟨b, hb, hgb, hkb⟩ := hgx.readAll hhx
  have hw : b.useAll Cell.write ((rs.map Ref.idx).zip x.1) = .ub := by
    cases rs with
    | nil => exact absurd rfl hne
    | cons r rs =>
      cases hx1 : x.1 with
      | nil => rw [hx1] at hlx; simp at hlx
      | cons t ts =>
        have hm : ⟨t, .readOnly⟩ ∈ (b r.idx).stack := by
          refine (hhx.keep hkb) (r.idx, t) ?_
          rw [hx1]
          simp
        simp only [List.map_cons, List.zip_cons_cons, Cells.useAll, Cells.use,
          (hgb r.idx).write_shared hm, Res.ub_bind]
  simp only [MapApi.borrowStep, hrs, Res.ok_bind, hx, hb, hw, Res.ub_bind]

theorem MapApi.run_append {A : MapApi M K V Q} {m : M} {pre : List (MapOp V Q)}
    (post : List (MapOp V Q)) :
    A.run m (pre ++ post) = A.run m pre >>= fun r => A.run r.2 post >>= fun r' =>
      .ok (r.1 ++ r'.1, r'.2) := by
  induction pre generalizing m with
  | nil =>
    simp only [List.nil_append, MapApi.run, Res.ok_bind]
    cases A.run m post <;> rfl
  | cons o pre ih =>
    simp only [List.cons_append, MapApi.run]
    cases h : A.step m o with
    | ok r =>
      simp only [Res.ok_bind, ih]
      cases A.run r.2 pre with
      | ok r' =>
        simp only [Res.ok_bind, Res.pure_eq]
        cases A.run r'.2 post <;> rfl
      | panic => rfl
      | ub => rfl
    | panic => rfl
    | ub => rfl

theorem HandsOutMany.tail {A : MapApi M K V Q} {m : M} {o : MapOp V Q} {ops : List (MapOp V Q)}
    {r : Out K V × M} (hr : A.step m o = .ok r) (h : HandsOutMany A r.2 ops) :
    HandsOutMany A m (o :: ops) := by
  obtain ⟨pre, qvs, post, outs, m', rs, rfl, hpre, hrs, hne⟩ := h
  exact ⟨o :: pre, qvs, post, r.1 :: outs, m', rs, rfl,
    by simp only [MapApi.run, hr, Res.ok_bind, hpre, Res.pure_eq], hrs, hne⟩

theorem HandsOutMany.head {A : MapApi M K V Q} {m : M} {o : MapOp V Q} {ops : List (MapOp V Q)}
    (h : A.ManyHere m o) : HandsOutMany A m (o :: ops) := by
  obtain ⟨qvs, rs, rfl, hrs, hne⟩ := h
  exact ⟨[], qvs, ops, [], m, rs, rfl, rfl, hrs, hne⟩

theorem HandsOutMany.cons {A : MapApi M K V Q} {m : M} {o : MapOp V Q} {ops : List (MapOp V Q)}
    (h : HandsOutMany A m (o :: ops)) :
    A.ManyHere m o ∨ ∃ r, A.step m o = .ok r ∧ HandsOutMany A r.2 ops := by
  obtain ⟨pre, qvs, post, outs, m', rs, hops, hpre, hrs, hne⟩ := h
  cases pre with
  | nil =>
    simp only [List.nil_append, List.cons.injEq] at hops
    simp only [MapApi.run, Res.ok.injEq, Prod.mk.injEq] at hpre
    obtain ⟨rfl, rfl⟩ := hpre
    exact Or.inl ⟨qvs, rs, hops.1, hrs, hne⟩
  | cons o' pre =>
    simp only [List.cons_append, List.cons.injEq] at hops
    obtain ⟨rfl, rfl⟩ := hops
    simp only [MapApi.run, Res.bind_eq_ok, Res.pure_eq, Res.ok.injEq, Prod.mk.injEq] at hpre
    obtain ⟨r, hr, r', hr', _, rfl⟩ := hpre
    exact Or.inr ⟨r, hr, pre, qvs, post, r'.1, r'.2, rs, rfl, hr', hrs, hne⟩

theorem MapApi.borrowRun_ok (A : MapApi M K V Q) (walk : Nat → Walk) (prog : List (BorrowOp V Q))
    (n : Nat) (s : BorrowState M) (hg : s.places.Good) (hh : s.places.Holds s.held)
    (hno : ¬ HandsOutMany A s.map (opsOf prog)) :
    A.borrowRun walk n s prog = A.run s.map (opsOf prog) := by
  induction prog generalizing n s with
  | nil => rfl
  | cons p prog ih =>
    cases p with
    | again j =>
      simp only [MapApi.borrowRun, opsOf]
      cases hj : s.held[j]? with
      | none => exact ih (n + 1) s hg hh hno
      | some it =>
        obtain ⟨i, t⟩ := it
        obtain ⟨b, hb, hgb, hkb⟩ := hg.useRead .readOnly (hh (i, t) (List.mem_of_getElem? hj))
        simp only [hb, Res.ok_bind]
        exact ih (n + 1) { s with places := b } hgb (hh.keep hkb) hno
    | op o =>
      simp only [MapApi.borrowRun, opsOf, MapApi.run]
      cases hr : A.step s.map o with
      | panic => rfl
      | ub => rfl
      | ok r =>
        have hhere : ¬ A.ManyHere s.map o := fun h => hno (HandsOutMany.head h)
        obtain ⟨x, hx, hgx, hhx⟩ := A.borrowStep_ok (walk n) s o hr hg hh hhere
        simp only [Res.ok_bind, hx]
        rw [ih (n + 1) ⟨r.2, x.1, x.2⟩ hgx hhx (fun h => hno (HandsOutMany.tail hr h))]

theorem MapApi.borrowRun_ub (A : MapApi M K V Q) (walk : Nat → Walk) (prog : List (BorrowOp V Q))
    (n : Nat) (s : BorrowState M) (hg : s.places.Good) (hh : s.places.Holds s.held)
    (hmany : HandsOutMany A s.map (opsOf prog)) :
    A.borrowRun walk n s prog = .ub := by
  induction prog generalizing n s with
  | nil =>
    obtain ⟨pre, _, _, _, _, _, hops, _⟩ := hmany
    cases pre <;> simp [opsOf] at hops
  | cons p prog ih =>
    cases p with
    | again j =>
      simp only [MapApi.borrowRun]
      cases hj : s.held[j]? with
      | none => exact ih (n + 1) s hg hh hmany
      | some it =>
        obtain ⟨i, t⟩ := it
        obtain ⟨b, hb, hgb, hkb⟩ := hg.useRead .readOnly (hh (i, t) (List.mem_of_getElem? hj))
        simp only [hb, Res.ok_bind]
        exact ih (n + 1) { s with places := b } hgb (hh.keep hkb) hmany
    | op o =>
      simp only [MapApi.borrowRun]
      by_cases hhere : A.ManyHere s.map o
      · have hst : ∃ r, A.step s.map o = .ok r := by
          obtain ⟨qvs, rs, rfl, hrs, _⟩ := hhere
          exact ⟨_, by simp only [MapApi.step, hrs, Res.ok_bind, Res.pure_eq]; rfl⟩
        obtain ⟨r, hr⟩ := hst
        simp only [hr, Res.ok_bind, A.borrowStep_many (walk n) s o hg hhere, Res.ub_bind]
      · rcases HandsOutMany.cons hmany with h | ⟨r, hr, h⟩
        · exact absurd h hhere
        · obtain ⟨x, hx, hgx, hhx⟩ := A.borrowStep_ok (walk n) s o hr hg hh hhere
          simp only [hr, Res.ok_bind, hx, ih (n + 1) ⟨r.2, x.1, x.2⟩ hgx hhx h, Res.ub_bind]

/-! ### In terms of the reference dictionary -/

theorem Dict.run_append {eq : Q → Q → Bool} {borrow : K → Q} {d : List (K × V)}
    {pre : List (MapOp V Q)} (post : List (MapOp V Q)) :
    Dict.run eq borrow d (pre ++ post) = Dict.run eq borrow d pre >>= fun r =>
      Dict.run eq borrow r.2 post >>= fun r' => .ok (r.1 ++ r'.1, r'.2) := by
  induction pre generalizing d with
  | nil =>
    simp only [List.nil_append, Dict.run, Res.ok_bind]
    cases Dict.run eq borrow d post <;> rfl
  | cons o pre ih =>
    simp only [List.cons_append, Dict.run]
    cases h : Dict.step eq borrow d o with
    | ok r =>
      simp only [Res.ok_bind, ih]
      cases Dict.run eq borrow r.2 pre with
      | ok r' =>
        simp only [Res.ok_bind, Res.pure_eq]
        cases Dict.run eq borrow r'.2 post <;> rfl
      | panic => rfl
      | ub => rfl
    | panic => rfl
    | ub => rfl

theorem forall₂_concat {α β : Type} {R : α → β → Prop} {l : List α} {l' : List β} {x : α} {y : β}
    (h : List.Forall₂ R (l ++ [x]) (l' ++ [y])) : R x y := by
  have h' := List.rel_reverse h
  simp only [List.reverse_append, List.reverse_cons, List.reverse_nil, List.nil_append,
    List.singleton_append, List.forall₂_cons] at h'
  exact h'.1

/-- In both worlds, what a `get_many_mut` after a history returns. -/
theorem Refines.many {A : MapApi M K V Q} {eq : Q → Q → Bool} {borrow : K → Q} {m : M}
    {d : List (K × V)} (h : Refines A eq borrow m d) {pre : List (MapOp V Q)} {qvs : List (Q × V)}
    {outs : List (Out K V)} {m' : M} (hpre : A.run m pre = .ok (outs, m')) :
    ∃ outs' d' o d'' o' m'', Dict.run eq borrow d pre = .ok (outs', d') ∧
      Dict.step eq borrow d' (.getManyMut qvs) = .ok (o, d'') ∧
      A.step m' (.getManyMut qvs) = .ok (o', m'') ∧ o.Agree o' := by
  have h1 := h pre
  have h2 := h (pre ++ [.getManyMut qvs])
  cases hd : Dict.run eq borrow d pre with
  | panic => rw [hd] at h1; simp [hpre] at h1
  | ub => rw [hd] at h1; exact h1.elim
  | ok r =>
    rw [Dict.run_append, hd, MapApi.run_append, hpre] at h2
    simp only [Res.ok_bind, Dict.run, MapApi.run] at h2
    have hst : ∃ x, Dict.step eq borrow r.2 (.getManyMut qvs) = .ok x := by
      simp only [Dict.step]
      split
      · exact ⟨_, rfl⟩
      · exact ⟨_, rfl⟩
    obtain ⟨x, hx⟩ := hst
    rw [hx] at h2
    simp only [Res.ok_bind, Res.pure_eq, Res.bind_eq_ok, Res.ok.injEq, Prod.mk.injEq] at h2
    obtain ⟨outs', m'', ⟨y, ⟨z, hz, w, rfl, rfl⟩, rfl, rfl⟩, hag⟩ := h2
    exact ⟨r.1, r.2, x.1, x.2, z.1, z.2, rfl, hx, hz, forall₂_concat hag⟩

theorem Refines.handsOut {A : MapApi M K V Q} {eq : Q → Q → Bool} {borrow : K → Q} {m : M}
    {d : List (K × V)} (h : Refines A eq borrow m d) (ops : List (MapOp V Q)) :
    HandsOutMany A m ops ↔ Dict.HandsOutMany eq borrow d ops := by
  constructor
  · rintro ⟨pre, qvs, post, outs, m', rs, rfl, hpre, hrs, hne⟩
    obtain ⟨outs', d', o, d'', o', m'', hd, hs, hs', hag⟩ := h.many (qvs := qvs) hpre
    have ho' : o' = .many (some (rs.map Ref.val)) := by
      simp only [MapApi.step, hrs, Res.ok_bind, Res.pure_eq, Res.ok.injEq, Prod.mk.injEq] at hs'
      exact hs'.1.symm
    have ho : o = .many (some (rs.map Ref.val)) := by
      rw [ho'] at hag
      cases o <;> first | exact hag | simp [Out.Agree] at hag
    refine ⟨pre, qvs, post, outs', d', rs.map Ref.val, d'', rfl, hd, ho ▸ hs, by simpa using hne⟩
  · rintro ⟨pre, qvs, post, outs', d', vs, d'', rfl, hd, hs, hne⟩
    have h1 := h pre
    rw [hd] at h1
    obtain ⟨outs, m', hpre, _⟩ := h1
    obtain ⟨outs₂, d₂, o, d₃, o', m'', hd₂, hs₂, hs', hag⟩ := h.many (qvs := qvs) hpre
    rw [hd] at hd₂
    simp only [Res.ok.injEq, Prod.mk.injEq] at hd₂
    obtain ⟨rfl, rfl⟩ := hd₂
    rw [hs] at hs₂
    simp only [Res.ok.injEq, Prod.mk.injEq] at hs₂
    obtain ⟨rfl, rfl⟩ := hs₂
    have ho' : o' = .many (some vs) := by
      cases o' <;> first | exact hag.symm | simp [Out.Agree] at hag
    simp only [MapApi.step, Res.bind_eq_ok] at hs'
    obtain ⟨y, hy, hs'⟩ := hs'
    cases y with
    | none => simp [ho'] at hs'
    | some rs =>
      refine ⟨pre, qvs, post, outs, m', rs, rfl, hpre, hy, ?_⟩
      rintro rfl
      simp only [Res.pure_eq, Res.ok.injEq, Prod.mk.injEq, ho', List.map_nil, Out.many.injEq,
        Option.some.injEq] at hs'
      exact hne hs'.1.symm

theorem Refines.borrows {A : MapApi M K V Q} {eq : Q → Q → Bool} {borrow : K → Q} {m : M}
    {d : List (K × V)} (h : Refines A eq borrow m d) : BorrowRefines A eq borrow m d := by
  have hg : (BorrowState.start m).places.Good := fun _ => Cell.good_owned
  have hh : (BorrowState.start m).places.Holds (BorrowState.start m).held :=
    fun _ hit => absurd hit List.not_mem_nil
  intro walk prog
  constructor
  · intro hno
    have hno' : ¬ HandsOutMany A m (opsOf prog) := fun hm => hno ((h.handsOut _).mp hm)
    have e := A.borrowRun_ok walk prog 0 (.start m) hg hh hno'
    have := h (opsOf prog)
    rw [e]
    exact this
  · intro hm
    exact A.borrowRun_ub walk prog 0 (.start m) hg hh ((h.handsOut _).mpr hm)

end FC
