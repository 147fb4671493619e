import Verif.Spec.IntTraits
import Verif.Lemmas.UserCode

/-
Memory safety of maps over integer types of the caller's own.
-/

set_option autoImplicit false

namespace FC
variable {σ X M K V Q α : Type}

/-! ### Histories on any map that looks entries up -/

/-- What is needed of a map. `OK` are the well-formed maps. `U` is granted when a lookup goes wrong,
`W` when two references alias. A lookup for `q` finds a stored entry that `R` allows, at a place
`At` allows; probes found different are in the relation `D`, and then have no place in common. -/
structure CallApi.Sound (A : CallApi σ M K V Q) (OK : M → Prop) (U p : Prop) (R : Q → K → Prop)
    (At : M → Q → Nat → Prop) (D : Q → Q → Prop) (W : Prop) : Prop where
  lookup : ∀ m, OK m → ∀ q, Behaves U p (A.lookup m q)
    (fun o => ∀ r ∈ o, (A.entries m)[r.2.idx]? = some (r.1, r.2.val) ∧ R q r.1 ∧ At m q r.2.idx)
  same : ∀ a b, Behaves U p (A.same a b) (fun r => r = false → D a b)
  apart : ∀ m a b i, OK m → D a b → At m a i → At m b i → W
  write : ∀ m i v, OK m → OK (A.write m i v)
  entries : ∀ m i v, A.entries (A.write m i v) = Loose.assign (A.entries m) i v

section
variable {A : CallApi σ M K V Q} {OK : M → Prop} {U p W : Prop} {R : Q → K → Prop}
  {At : M → Q → Nat → Prop} {D : Q → Q → Prop}

theorem CallApi.Sound.writes (h : A.Sound OK U p R At D W) (l : List (Ref V × V)) {m : M} (hm : OK m) :
    OK (l.foldl (fun m rv => A.write m rv.1.idx rv.2) m) ∧
    A.entries (l.foldl (fun m rv => A.write m rv.1.idx rv.2) m)
      = (l.map (fun rv => (rv.1.idx, rv.2))).foldl (fun d iv => Loose.assign d iv.1 iv.2)
          (A.entries m) := by
  induction l generalizing m with
  | nil => exact ⟨hm, rfl⟩
  | cons rv l ih =>
    obtain ⟨a, b⟩ := ih (h.write _ rv.1.idx rv.2 hm)
    refine ⟨a, ?_⟩
    simp only [List.foldl_cons, List.map_cons]
    rw [b, h.entries]

theorem CallApi.Sound.getAll (h : A.Sound OK U p R At D W) {m : M} (hm : OK m) (qs : List Q) :
    Behaves U p (A.getAll m qs)
      (fun o => ∀ rs ∈ o, List.Forall₂ (fun q r => ∃ k, (A.entries m)[r.idx]? = some (k, r.val) ∧
        R q k ∧ At m q r.idx) qs rs) := by
  induction qs with
  | nil =>
    refine .pure ?_
    intro rs h
    cases h
    exact .nil
  | cons q qs ih =>
    unfold CallApi.getAll
    refine (h.lookup m hm q).bind (fun o ho => ?_)
    cases o with
    | none => exact .pure (by simp)
    | some r =>
      refine ih.bind (fun o' ho' => ?_)
      cases o' with
      | none => exact .pure (by simp)
      | some rs =>
        refine .pure ?_
        intro rs' h
        cases h
        exact .cons ⟨r.1, ho r rfl⟩ (ho' rs rfl)

theorem CallApi.Sound.anyList (h : A.Sound OK U p R At D W) (k : Q) (l : List Q) :
    Behaves U p (Call.anyList (fun s => A.same s k) l) (fun b => b = false → ∀ s ∈ l, D s k) := by
  induction l with
  | nil => exact .pure (by simp)
  | cons a l ih =>
    unfold Call.anyList
    refine (h.same a k).bind (fun b hb => .ite (fun h => .pure (by simp)) (fun h => ?_))
    refine ih.mono id id (fun b' hb' h' s hs => ?_)
    rcases List.mem_cons.1 hs with rfl | hs
    · exact hb (by simpa using h)
    · exact hb' h' s hs

theorem CallApi.Sound.hasDup (h : A.Sound OK U p R At D W) (ks : List Q) :
    ∀ seen : List Q, Behaves U p (A.hasDup seen ks)
      (fun b => b = false → seen.Pairwise D → (seen ++ ks).Pairwise D) := by
  induction ks with
  | nil => exact fun seen => .pure (by simp)
  | cons k ks ih =>
    intro seen
    unfold CallApi.hasDup
    refine (h.anyList k seen).bind (fun b hb => .ite (fun h => .pure (by simp)) (fun h => ?_))
    refine (ih (seen ++ [k])).mono id id (fun b' hb' h' hseen => ?_)
    have := hb' h' (List.pairwise_append.2 ⟨hseen, by simp, by simpa using hb (by simpa using h)⟩)
    simpa using this

theorem CallApi.Sound.nodup (h : A.Sound OK U p R At D W) {m : M} (hm : OK m) {qs : List Q}
    {rs : List (Ref V)} (hp : qs.Pairwise D)
    (hf : List.Forall₂ (fun q r => ∃ k, (A.entries m)[r.idx]? = some (k, r.val) ∧
        R q k ∧ At m q r.idx) qs rs) (hn : ¬ (rs.map Ref.idx).Nodup) : W ∧ 2 ≤ qs.length := by
  induction hf with
  | nil => exact absurd (by simp) hn
  | @cons q r qs rs hq hf ih =>
    obtain ⟨hpq, hp⟩ := List.pairwise_cons.1 hp
    rw [List.map_cons, List.nodup_cons, not_and_or] at hn
    rcases hn with hn | hn
    · obtain ⟨r', hr', hidx⟩ := List.mem_map.1 (not_not.1 hn)
      obtain ⟨q', hq', k', hk', _, hc'⟩ := forall₂_mem_right hf hr'
      obtain ⟨k, _, _, hc⟩ := hq
      refine ⟨h.apart m q q' _ hm (hpq q' hq') hc (hidx ▸ hc'), ?_⟩
      have := List.length_pos_of_mem hq'
      simp only [List.length_cons]
      omega
    · have := ih hp hn
      exact ⟨this.1, by simp only [List.length_cons]; omega⟩

theorem CallApi.Sound.step (h : A.Sound OK U p R At D W) {m : M} (hm : OK m) (op : MapOp V Q) :
    Behaves (U ∨ (W ∧ op.isMany)) (p ∨ op.isIndex) (A.step m op)
      (fun r => OK r.2 ∧ Loose.Step R (A.entries m) op r.1 (A.entries r.2)) := by
  have hl : ∀ q, Behaves (U ∨ (W ∧ op.isMany)) (p ∨ op.isIndex) (A.lookup m q)
      (fun o => ∀ r ∈ o, (A.entries m)[r.2.idx]? = some (r.1, r.2.val) ∧ R q r.1) :=
    fun q => (h.lookup m hm q).mono Or.inl Or.inl (fun _ h r hr => ⟨(h r hr).1, (h r hr).2.1⟩)
  cases op with
  | get q =>
    refine (hl q).bind (fun o ho => .pure ⟨hm, ?_⟩)
    cases o with
    | none => exact .getNone q
    | some r => exact .get q _ (List.mem_of_getElem? (ho r rfl).1) (ho r rfl).2
  | getKeyValue q =>
    refine (hl q).bind (fun o ho => .pure ⟨hm, ?_⟩)
    cases o with
    | none => exact .kvNone q
    | some r => exact .kv q _ (List.mem_of_getElem? (ho r rfl).1) (ho r rfl).2
  | containsKey q =>
    refine (hl q).bind (fun o ho => .pure ⟨hm, .contains q _ ?_⟩)
    intro h
    cases o with
    | none => cases h
    | some r => exact ⟨_, List.mem_of_getElem? (ho r rfl).1, (ho r rfl).2⟩
  | index q =>
    refine (hl q).bind (fun o ho => ?_)
    cases o with
    | none => exact .lift_panic (Or.inr trivial)
    | some r => exact .pure ⟨hm, .index q _ (List.mem_of_getElem? (ho r rfl).1) (ho r rfl).2⟩
  | len => exact .pure ⟨hm, .len⟩
  | iter => exact .pure ⟨hm, .iter⟩
  | keys => exact .pure ⟨hm, .keys⟩
  | values => exact .pure ⟨hm, .values⟩
  | getMut q v =>
    refine (hl q).bind (fun o ho => ?_)
    cases o with
    | none => exact .pure ⟨hm, .getMutNone q v⟩
    | some r =>
      refine .pure ⟨h.write _ _ _ hm, ?_⟩
      simp only [h.entries]
      exact .getMut q v _ _ (ho r rfl).1 (ho r rfl).2
  | indexMut q v =>
    refine (hl q).bind (fun o ho => ?_)
    cases o with
    | none => exact .lift_panic (Or.inr trivial)
    | some r =>
      refine .pure ⟨h.write _ _ _ hm, ?_⟩
      simp only [h.entries]
      exact .indexMut q v _ _ (ho r rfl).1 (ho r rfl).2
  | getManyMut qvs =>
    have hmany : Behaves U p (A.getManyMut m (qvs.map (·.1)))
        (fun o => ∀ rs ∈ o, (qvs.map (·.1)).Pairwise D ∧
          List.Forall₂ (fun q r => ∃ k, (A.entries m)[r.idx]? = some (k, r.val) ∧
            R q k ∧ At m q r.idx) (qvs.map (·.1)) rs) := by
      unfold CallApi.getManyMut
      refine Behaves.bind (f := fun b => if b = true then pure none else A.getAll m _)
        (h.hasDup (qvs.map (·.1)) []) (fun b hb => .ite (fun _ => .pure ?_) (fun hnb => ?_))
      · intro rs h
        cases h
      refine (h.getAll hm _).mono id id (fun o ho rs hrs => ⟨?_, ho rs hrs⟩)
      simpa using hb (by simpa using hnb) .nil
    refine (hmany.mono Or.inl Or.inl (fun _ h => h)).bind (fun o ho => ?_)
    cases o with
    | none => exact .pure ⟨hm, .manyNone qvs⟩
    | some rs =>
      obtain ⟨hpw, hf⟩ := ho rs rfl
      refine .ite (fun hnd => .pure ?_) (fun hnd => .lift_ub (Or.inr ?_))
      · obtain ⟨hok, hen⟩ := h.writes (rs.zip (qvs.map (·.2))) hm
        refine ⟨hok, ?_⟩
        simp only [hen]
        have hz : (rs.zip (qvs.map (·.2))).map (fun rv => (rv.1.idx, rv.2))
            = (rs.map Ref.idx).zip (qvs.map (·.2)) := by
          rw [List.zip_map_left]; rfl
        rw [hz]
        obtain ⟨es, hes, hR, hvals⟩ : ∃ es : List (K × V),
            List.Forall₂ (fun i e => (A.entries m)[i]? = some e) (rs.map Ref.idx) es ∧
            List.Forall₂ (fun q e => R q e.1) (qvs.map (·.1)) es ∧
            es.map (·.2) = rs.map Ref.val := by
          clear ho hpw hnd hok hen hz
          generalize qvs.map (·.1) = qs at hf
          induction hf with
          | nil => exact ⟨[], .nil, .nil, rfl⟩
          | cons h _ ih =>
            obtain ⟨es, a, b, c⟩ := ih
            obtain ⟨k, hk, hmm, _⟩ := h
            exact ⟨(k, _) :: es, .cons hk a, .cons hmm b, by simp [c]⟩
        rw [← hvals]
        exact .many qvs _ es hnd hes (List.forall₂_map_left_iff.1 hR)
      · have := h.nodup hm hpw hf hnd
        exact ⟨this.1, by simpa [MapOp.isMany] using this.2⟩

theorem CallApi.Sound.run (h : A.Sound OK U p R At D W) (ops : List (MapOp V Q)) :
    ∀ m : M, OK m → Behaves (U ∨ (W ∧ ∃ op ∈ ops, op.isMany)) (p ∨ ∃ op ∈ ops, op.isIndex)
      (A.run m ops) (fun r => OK r.2 ∧ Loose.Run R (A.entries m) ops r.1) := by
  induction ops with
  | nil => exact fun m hm => .pure ⟨hm, .nil _⟩
  | cons op ops ih =>
    intro m hm
    unfold CallApi.run
    refine ((h.step hm op).mono (Or.imp id (fun ⟨a, b⟩ => ⟨a, op, by simp, b⟩))
      (Or.imp id (fun h => ⟨op, by simp, h⟩)) (fun _ h => h)).bind (fun r hr => ?_)
    exact ((ih r.2 hr.1).mono (Or.imp id (fun ⟨a, o, h1, h2⟩ => ⟨a, o, by simp [h1], h2⟩))
      (Or.imp id (fun ⟨o, h1, h2⟩ => ⟨o, by simp [h1], h2⟩)) (fun _ h => h)).bind
      (fun rs hrs => .pure ⟨hrs.1, .cons hr.2 hrs.2⟩)

theorem CallApi.Sound.session (h : A.Sound OK U p R At D W) {build : Call σ M} {payload : List (K × V)}
    (hb : Behaves U p build (fun m => OK m ∧ (A.entries m).Perm payload)) (ops : List (MapOp V Q)) :
    Behaves (U ∨ (W ∧ ∃ op ∈ ops, op.isMany)) (p ∨ ∃ op ∈ ops, op.isIndex) (A.session build ops)
      (fun outs => ∃ d : List (K × V), d.Perm payload ∧ Loose.Run R d ops outs) := by
  unfold CallApi.session
  refine (hb.mono Or.inl Or.inl (fun _ h => h)).bind (fun m hm => ?_)
  exact (h.run ops m hm.1).bind (fun r hr => .pure ⟨_, hm.2, hr.2⟩)

end

/-! ### Index types of the caller's own -/

theorem Behaves.trivial' {c : Call σ α} : Behaves True True c (fun _ => True) := by
  intro s
  cases c s <;> trivial

/-- Both of two things hold of what a computation returns. -/
theorem Behaves.also {u p : Prop} {c : Call σ α} {post post' : α → Prop} (h : Behaves u p c post)
    (h' : Behaves True True c post') : Behaves u p c (fun a => post a ∧ post' a) :=
  (h.and h').mono (fun h => h.1) (fun h => h.1) (fun _ h => h)

theorem IdxCode.Safe.mk! {I : IdxCode σ X} (hI : I.Safe) (n : Int) :
    Behaves False True (I.mk! n) (fun _ => True) := by
  unfold IdxCode.mk!
  refine (hI.ofI32 n).bind (fun o _ => ?_)
  cases o with
  | none => exact .lift_panic trivial
  | some x => exact .pure trivial

theorem IdxCode.Safe.size! {I : IdxCode σ X} (hI : I.Safe) (x : X) :
    Behaves False True (I.size! x) (fun _ => True) := by
  unfold IdxCode.size!
  refine (hI.toUsize x).bind (fun o _ => ?_)
  cases o with
  | none => exact .lift_panic trivial
  | some x => exact .pure trivial

theorem IdxCode.Safe.emptySlot {I : IdxCode σ X} (hI : I.Safe) :
    Behaves False True I.emptySlot (fun _ => True) := by
  unfold IdxCode.emptySlot
  exact hI.zero.bind (fun _ _ => hI.zero.bind (fun _ _ => .pure trivial))

theorem Behaves.lift_ne_ub {r : Res α} (h : r ≠ .ub) :
    Behaves False True (Call.lift r : Call σ α) (fun _ => True) := by
  cases r with
  | ok a => exact .lift rfl trivial
  | panic => exact .lift_panic trivial
  | ub => exact absurd rfl h

theorem IntTy.arith_ne_ub (t : IntTy) (oc : Bool) (x : Int) : t.arith oc x ≠ .ub := by
  unfold IntTy.arith
  split
  · simp
  · split <;> simp

/-- The loop loses no entry and keeps the number of slots. -/
theorem fillLoopS_safe {I : IdxCode σ X} (hI : I.Safe) (oc : Bool) :
    ∀ (m : Nat) (stack : List (PrepItem K V)), stack.length ≤ m →
    ∀ (slots : List (X × X)) (entries : List (K × V)) (idx : Int),
      Behaves False True (fillLoopS oc I stack slots entries idx)
        (fun r => r.1.length = slots.length ∧ r.2 = entries ++ stack.map PrepItem.entry) := by
  intro m
  induction m with
  | zero =>
    intro stack hm slots entries idx
    obtain rfl : stack = [] := List.eq_nil_of_length_eq_zero (by omega)
    rw [fillLoopS]
    exact .pure ⟨rfl, by simp⟩
  | succ m ih =>
    intro stack hm slots entries idx
    cases stack with
    | nil => rw [fillLoopS]; exact .pure ⟨rfl, by simp⟩
    | cons item stack =>
      obtain ⟨taken, rest, rfl, hr, _, _⟩ := runLoop_spec item.slot stack item entries 0
      have hub := IntTy.arith_ne_ub IntTy.i32 oc
      rw [fillLoopS, hr]
      generalize IntTy.i32.arith oc = f at hub ⊢
      simp only [List.length_cons, List.length_append] at hm
      refine (Behaves.lift_ne_ub (hub _)).bind (fun num _ => ?_)
      refine (hI.mk! idx).bind (fun mn _ => (hI.mk! idx).bind (fun base _ =>
        (hI.mk! num).bind (fun cnt _ => (hI.add base cnt).bind (fun mx _ => ?_))))
      refine .ite (fun _ => ?_) (fun _ => .lift_panic trivial)
      refine (Behaves.lift_ne_ub (hub _)).bind (fun next _ => ?_)
      refine (ih rest (by omega) _ _ next).mono id id (fun r hr => ⟨?_, ?_⟩)
      · rw [hr.1, List.length_set]
      · rw [hr.2]; simp

/-- The ends of a slot stand for numbers in order, the second at most `n`. -/
def Inside (Stands : X → Nat → Prop) (n : Nat) (s : X × X) : Prop :=
  ∃ a b, Stands s.1 a ∧ Stands s.2 b ∧ a ≤ b ∧ b ≤ n

theorem Inside.mono {Stands : X → Nat → Prop} {n n' : Nat} {s : X × X} (h : Inside Stands n s)
    (hn : n ≤ n') : Inside Stands n' s := by
  obtain ⟨a, b, h1, h2, h3, h4⟩ := h
  exact ⟨a, b, h1, h2, h3, by omega⟩

/-- What `IdxCode.Honest` says of the numbers its values stand for. -/
structure IdxCode.Counts (I : IdxCode σ X) (Stands : X → Nat → Prop) (max : Nat) : Prop where
  zero : Behaves True True I.zero (fun x => Stands x 0)
  maxValue : Behaves True True I.maxValue (fun x => Stands x max)
  toUsize : ∀ x n, Stands x n → Behaves True True (I.toUsize x) (fun o => ∀ m ∈ o, m = n)
  ofI32 : ∀ i, Behaves True True (I.ofI32 i)
    (fun o => ∀ x ∈ o, ∃ n : Nat, (n : Int) = i ∧ Stands x n)
  add : ∀ x y a b, Stands x a → Stands y b → a + b ≤ max →
      Behaves True True (I.add x y) (fun z => Stands z (a + b))

theorem IdxCode.Counts.mk! {I : IdxCode σ X} {Stands : X → Nat → Prop} {max : Nat}
    (hI : I.Counts Stands max) (i : Int) :
    Behaves True True (I.mk! i) (fun x => ∃ n : Nat, (n : Int) = i ∧ Stands x n) := by
  unfold IdxCode.mk!
  refine (hI.ofI32 i).bind (fun o ho => ?_)
  cases o with
  | none => exact .lift_panic trivial
  | some x => exact .pure (ho x rfl)

theorem IdxCode.Counts.size! {I : IdxCode σ X} {Stands : X → Nat → Prop} {max : Nat}
    (hI : I.Counts Stands max) {x : X} {n : Nat} (hx : Stands x n) :
    Behaves True True (I.size! x) (fun m => m = n) := by
  unfold IdxCode.size!
  refine (hI.toUsize x n hx).bind (fun o ho => ?_)
  cases o with
  | none => exact .lift_panic trivial
  | some m => exact .pure (ho m rfl)

theorem IdxCode.Counts.emptySlot {I : IdxCode σ X} {Stands : X → Nat → Prop} {max : Nat}
    (hI : I.Counts Stands max) : Behaves True True I.emptySlot (Inside Stands 0) := by
  unfold IdxCode.emptySlot
  exact hI.zero.bind (fun _ h1 => hI.zero.bind (fun _ h2 =>
    .pure ⟨0, 0, h1, h2, Nat.le_refl _, Nat.le_refl _⟩))

/-- The loop keeps every slot inside the entries, even if its counters overflow. -/
theorem fillLoopS_inside {I : IdxCode σ X} {Stands : X → Nat → Prop} {max : Nat}
    (hI : I.Counts Stands max) (oc : Bool) :
    ∀ (m : Nat) (stack : List (PrepItem K V)), stack.length ≤ m →
    ∀ (slots : List (X × X)) (entries : List (K × V)) (idx : Int),
      (∀ s ∈ slots, Inside Stands entries.length s) → entries.length + stack.length ≤ max →
      -2147483648 ≤ idx → idx ≤ entries.length →
      Behaves True True (fillLoopS oc I stack slots entries idx)
        (fun r => ∀ s ∈ r.1, Inside Stands (entries.length + stack.length) s) := by
  intro m
  induction m with
  | zero =>
    intro stack hm slots entries idx hs _ _ _
    obtain rfl : stack = [] := List.eq_nil_of_length_eq_zero (by omega)
    rw [fillLoopS]
    exact .pure (by simpa using hs)
  | succ m ih =>
    intro stack hm slots entries idx hs hmax hlo hhi
    cases stack with
    | nil => rw [fillLoopS]; exact .pure (by simpa using hs)
    | cons item stack =>
      obtain ⟨taken, rest, rfl, hr, _, _⟩ := runLoop_spec item.slot stack item entries 0
      rw [Nat.zero_add] at hr
      have hcases := fun x => IntTy.i32_arith_cases oc (x := x)
      rw [fillLoopS, hr]
      generalize IntTy.i32.arith oc = f at hcases ⊢
      simp only [List.length_cons, List.length_append] at hm hmax
      rcases hcases ((taken.length + 1 : Nat) : Int) (by omega) with
        ⟨num, h1, h2, h3, h4⟩ | ⟨h1, h2⟩
      swap
      · simp only [h1]
        exact (Behaves.lift_panic (post := fun _ => False) trivial).bind (fun _ h => h.elim)
      refine (Behaves.lift (post := fun r => num = r) h1 rfl).bind ?_
      rintro _ rfl
      refine (hI.mk! idx).bind (fun mn hmn => (hI.mk! idx).bind (fun base hbase =>
        (hI.mk! num).bind (fun cnt hcnt => ?_)))
      obtain ⟨a, ha, hmn⟩ := hmn
      obtain ⟨a', ha', hbase⟩ := hbase
      obtain ⟨c, hc, hcnt⟩ := hcnt
      refine (hI.add base cnt a' c hbase hcnt (by omega)).bind (fun mx hmx => ?_)
      refine .ite (fun _ => ?_) (fun _ => .lift_panic trivial)
      rcases hcases (idx + num) (by omega) with
        ⟨next, k1, k2, k3, k4⟩ | ⟨k1, k2⟩
      swap
      · simp only [k1]
        exact (Behaves.lift_panic (post := fun _ => False) trivial).bind (fun _ h => h.elim)
      refine (Behaves.lift (post := fun r => next = r) k1 rfl).bind ?_
      rintro _ rfl
      have hlen : (entries ++ (item :: taken).map PrepItem.entry).length
          = entries.length + (taken.length + 1) := by simp
      refine (ih rest (by omega) _ (entries ++ (item :: taken).map PrepItem.entry) next ?_
        (by rw [hlen]; omega) k2 (by rw [hlen]; omega)).mono id id
        (fun r hr s hs => (hr s hs).mono (by simp; omega))
      intro s hs'
      rw [hlen]
      rcases List.mem_or_eq_of_mem_set hs' with hs' | rfl
      · exact (hs s hs').mono (by omega)
      · exact ⟨a, a' + c, hmn, hmx, by omega, by omega⟩

variable [Target]

/-- A well-formed table. -/
structure STable.OK (Stands : X → Nat → Prop) (T : STable X K V) : Prop where
  pos : 0 < T.numSlots
  len : T.slots.length = T.numSlots
  inside : ∀ s ∈ T.slots, Inside Stands T.entries.length s

omit [Target] in
theorem Behaves.umod {code n : Nat} (hn : 0 < n) {u p : Prop} :
    Behaves u p (Call.lift (umod code n) : Call σ Nat) (fun r => r < n) := by
  refine Behaves.lift (a := code % n) ?_ (Nat.mod_lt _ hn)
  unfold FC.umod
  rw [if_neg (by omega)]

omit [Target] in
/-- Construction: as many slots as asked for, and all the entries. -/
theorem STable.new_safe (env : Env) {I : IdxCode σ X} (hI : I.Safe) {payload : List (K × V)} {n : Nat}
    (hn : payload ≠ [] → 0 < n) {hash : K → Call σ Nat}
    (hh : ∀ e ∈ payload, Behaves False True (hash e.1) (fun _ => True)) :
    Behaves False True (STable.new env I payload n hash)
      (fun T => (0 < T.numSlots ∧ T.slots.length = T.numSlots) ∧ T.entries.Perm payload) := by
  unfold STable.new
  refine .ite (fun he => ?_) (fun he => ?_)
  · obtain rfl : payload = [] := by simpa using he
    exact hI.emptySlot.bind (fun s _ => .pure ⟨⟨by simp, rfl⟩, .refl _⟩)
  · have hn' := hn (by simpa using he)
    refine hI.maxValue.bind (fun mx _ => (hI.size! mx).bind (fun cap _ => ?_))
    refine .ite (fun _ => .lift_panic trivial) (fun hle => ?_)
    refine (Behaves.mapList (R := fun (e : K × V) (it : PrepItem K V) => it.entry = e)
      (fun e he => (hh e he).bind (fun code _ =>
        (Behaves.umod hn').bind (fun slot _ => .pure rfl)))).bind (fun prep hprep => ?_)
    refine (Behaves.mapList (R := fun _ _ => True) (fun _ _ => hI.emptySlot)).bind
      (fun empties hempties => ?_)
    have hlen : empties.length = n := by rw [← hempties.length_eq, List.length_replicate]
    refine (fillLoopS_safe hI env.oc _ _ (Nat.le_refl _) _ _ _).bind (fun r hr => ?_)
    obtain ⟨slots, entries⟩ := r
    simp only at hr
    refine .ite (fun h => by omega) (fun _ => .pure ⟨⟨?_, rfl⟩, ?_⟩)
    · show 0 < slots.length
      omega
    · show entries.Perm payload
      have hmap : prep.map PrepItem.entry = payload := by
        clear hr hn he hh hle
        induction hprep with
        | nil => rfl
        | cons h _ ih => simp [h, ih]
      rw [hr.2, List.nil_append, ← hmap]
      exact ((List.reverse_perm _).trans (env.srt.perm PrepItem.slot prep)).map _

omit [Target] in
/-- Construction: every slot is inside the entries. -/
theorem STable.new_inside (env : Env) {I : IdxCode σ X} {Stands : X → Nat → Prop} {max : Nat}
    (hI : I.Counts Stands max) {payload : List (K × V)} {n : Nat} {hash : K → Call σ Nat} :
    Behaves True True (STable.new env I payload n hash)
      (fun T => ∀ s ∈ T.slots, Inside Stands payload.length s) := by
  unfold STable.new
  refine .ite (fun he => ?_) (fun he => ?_)
  · refine hI.emptySlot.bind (fun s hs => .pure ?_)
    intro s' hs'
    simp only [List.mem_singleton] at hs'
    subst hs'
    exact hs.mono (Nat.zero_le _)
  · refine hI.maxValue.bind (fun mx hmx => (hI.size! hmx).bind (fun cap hcap => ?_))
    subst hcap
    refine .ite (fun _ => .lift_panic trivial) (fun hle => ?_)
    refine (Behaves.mapList (R := fun _ _ => True) (fun _ _ => Behaves.trivial')).bind
      (fun prep hprep => ?_)
    refine (Behaves.mapList (R := fun _ s => Inside Stands 0 s) (fun _ _ => hI.emptySlot)).bind
      (fun empties hempties => ?_)
    have hl : (env.srt.run PrepItem.slot prep).reverse.length = payload.length := by
      rw [List.length_reverse, (env.srt.perm _ _).length_eq, hprep.length_eq]
    refine (fillLoopS_inside hI env.oc _ (env.srt.run PrepItem.slot prep).reverse (Nat.le_refl _)
      empties [] 0 ?_ ?_ (by omega) (by simp)).bind (fun r hr => ?_)
    · intro s hs
      obtain ⟨_, _, h⟩ := forall₂_mem_right hempties hs
      exact h
    · simp only [List.length_nil]
      omega
    · refine .ite (fun _ => .lift_panic trivial) (fun _ => .pure ?_)
      intro s hs
      have := hr s hs
      rwa [hl, List.length_nil, Nat.zero_add] at this

omit [Target] in
theorem STable.fromVec_safe (env : Env) {I : IdxCode σ X} (hI : I.Safe) {u : UserCode σ K Q}
    (hu : u.Safe True) {payload : List (K × V)} :
    Behaves False True (STable.fromVec env I u payload)
      (fun T => (0 < T.numSlots ∧ T.slots.length = T.numSlots) ∧ T.entries.Perm payload) := by
  unfold STable.fromVec
  refine (Behaves.mapList (R := fun _ _ => True) (fun e _ => hu.sizeCode e.1)).bind
    (fun codes hcodes => ?_)
  obtain ⟨r, h1, h2⟩ := analyze_total codes
  refine (Behaves.lift (post := fun a => r = a) h1 rfl).bind ?_
  rintro _ rfl
  refine STable.new_safe env hI (fun hne => h2 ?_) (fun e _ => hu.slotCode e.1)
  intro hc
  subst hc
  cases hcodes
  exact hne rfl

omit [Target] in
theorem STable.fromVec_inside (env : Env) {I : IdxCode σ X} {Stands : X → Nat → Prop} {max : Nat}
    (hI : I.Counts Stands max) {u : UserCode σ K Q} {payload : List (K × V)} :
    Behaves True True (STable.fromVec env I u payload)
      (fun T => ∀ s ∈ T.slots, Inside Stands payload.length s) := by
  unfold STable.fromVec
  exact Behaves.trivial'.bind (fun _ _ => Behaves.trivial'.bind (fun _ _ => STable.new_inside env hI))

omit [Target] in
theorem STable.getHashInfo_safe {I : IdxCode σ X} (hI : I.Safe) {T : STable X K V}
    (hT : 0 < T.numSlots ∧ T.slots.length = T.numSlots) (code : Nat) :
    Behaves False True (T.getHashInfo I code) (fun _ => True) := by
  have hlt : code % T.numSlots < T.slots.length := by rw [hT.2]; exact Nat.mod_lt _ hT.1
  unfold STable.getHashInfo
  rw [List.getElem?_eq_getElem hlt]
  exact (hI.size! _).bind (fun _ _ => (hI.size! _).bind (fun _ _ => .pure trivial))

omit [Target] in
theorem STable.getHashInfo_inside {I : IdxCode σ X} {Stands : X → Nat → Prop} {max : Nat}
    (hI : I.Counts Stands max) {T : STable X K V} (hT : T.OK Stands) (code : Nat) :
    Behaves True True (T.getHashInfo I code) (fun r => r.1 ≤ r.2 ∧ r.2 ≤ T.entries.length) := by
  have hlt : code % T.numSlots < T.slots.length := by rw [hT.len]; exact Nat.mod_lt _ hT.pos
  unfold STable.getHashInfo
  rw [List.getElem?_eq_getElem hlt]
  obtain ⟨a, b, h1, h2, h3, h4⟩ := hT.inside _ (List.getElem_mem hlt)
  refine (hI.size! h1).bind (fun _ ha => (hI.size! h2).bind (fun _ hb => .pure ?_))
  subst ha hb
  exact ⟨h3, h4⟩

omit [Target] in
/-- A lookup that may be undefined if `U`. -/
theorem STable.lookup_behaves {U : Prop} {I : IdxCode σ X} {u : UserCode σ K Q}
    (hu : u.SafeLookup True) {T : STable X K V}
    (hinfo : ∀ code, Behaves False True (T.getHashInfo I code)
      (fun r => ¬ U → r.1 ≤ r.2 ∧ r.2 ≤ T.entries.length)) (q : Q) {P : K → Prop}
    (hP : ∀ k, Behaves True True (u.isMatch q k) (fun b => b = true → P k)) :
    Behaves U True (T.lookup I u q)
      (fun o => ∀ r ∈ o, T.entries[r.2.idx]? = some (r.1, r.2.val) ∧ P r.1) := by
  unfold STable.lookup
  refine ((hu.probeCode q).mono False.elim id (fun _ h => h)).bind (fun code _ => ?_)
  refine ((hinfo code).mono False.elim id (fun _ h => h)).bind (fun r hr => ?_)
  by_cases hb : r.1 ≤ r.2 ∧ r.2 ≤ T.entries.length
  · refine (Behaves.lift (post := fun x => (T.entries.drop r.1).take (r.2 - r.1) = x)
      (if_pos hb) rfl).bind ?_
    rintro _ rfl
    refine (UMap.scan_behaves hu q hP _ _).mono False.elim id (fun o ho x hx => ?_)
    obtain ⟨a, b, c⟩ := ho x hx
    refine ⟨?_, c⟩
    have hlt : x.2.idx - r.1 < r.2 - r.1 := by
      have := (List.getElem?_eq_some_iff.1 b).1
      simp at this
      omega
    rw [List.getElem?_take_of_lt hlt, List.getElem?_drop] at b
    rw [← b]
    congr 1
    omega
  · have : sliceUnchecked T.entries r.1 r.2 = .ub := if_neg hb
    rw [this]
    exact (Behaves.lift_ub (post := fun _ => False) (by_contra (fun h => hb (hr h)))).bind
      (fun _ h => h.elim)

omit [Target] in
theorem STable.sound {U : Prop} {I : IdxCode σ X} {u : UserCode σ K Q} (hu : u.SafeLookup True)
    {OK : STable X K V → Prop} (hOK : ∀ T, OK T → ∀ code, Behaves False True (T.getHashInfo I code)
      (fun r => ¬ U → r.1 ≤ r.2 ∧ r.2 ≤ T.entries.length))
    (hw : ∀ T i v, OK T → OK (T.write i v)) :
    ∃ At D, (STable.api I u).Sound OK U True u.MayMatch At D (¬ u.EqOK) := by
  have hmm : ∀ q k, Behaves True True (u.isMatch q k) (fun b => b = true → u.MayMatch q k) :=
    fun q k => (u.mayMatch hu q k).mono False.elim id (fun _ h => h)
  by_cases hEq : u.EqOK
  · obtain ⟨C, ck, cq, h1, h2⟩ := hEq
    refine ⟨fun T q i => ∃ k v, T.entries[i]? = some (k, v) ∧ cq q = ck k,
      fun a b => cq a ≠ cq b, ⟨fun T hT q => ?_, fun a b => ?_, ?_, hw, fun _ _ _ => rfl⟩⟩
    · refine (STable.lookup_behaves hu (hOK T hT) q (P := fun k => u.MayMatch q k ∧ cq q = ck k)
        (fun k => ((hmm q k).also (h1 q k)).mono id id
          (fun _ h hb => ⟨h.1 hb, h.2 hb⟩))).mono id id (fun o ho r hr => ?_)
      obtain ⟨a, b, c⟩ := ho r hr
      exact ⟨a, b, _, _, a, c⟩
    · exact ((hu.isSame a b).also (h2 a b)).mono False.elim id (fun _ h => h.2)
    · rintro T a b i _ hne ⟨k, v, hk, ha⟩ ⟨k', v', hk', hb⟩
      rw [hk] at hk'
      cases hk'
      exact absurd (ha.trans hb.symm) hne
  · refine ⟨fun _ _ _ => True, fun _ _ => True, ⟨fun T hT q => ?_, fun a b => ?_,
      fun _ _ _ _ _ _ _ _ => hEq, hw, fun _ _ _ => rfl⟩⟩
    · exact (STable.lookup_behaves hu (hOK T hT) q (hmm q)).mono id id
        (fun o ho r hr => ⟨(ho r hr).1, (ho r hr).2, trivial⟩)
    · exact (hu.isSame a b).mono False.elim id (fun _ _ _ => trivial)

omit [Target] in
/-- Whatever the index type does, as long as it is safe Rust: undefined behaviour needs a dishonest
index type, or a dishonest `Eq` and `get_many_mut`. -/
theorem STable.session_behaves (env : Env) {I : IdxCode σ X} (hI : I.Safe) {u : UserCode σ K Q}
    (hu : u.Safe True) (payload : List (K × V)) (ops : List (MapOp V Q)) :
    Behaves (¬ I.Honest ∨ (¬ u.EqOK ∧ ∃ op ∈ ops, op.isMany)) True
      ((STable.api I u).session (STable.fromVec env I u payload) ops)
      (fun outs => ∃ d : List (K × V), d.Perm payload ∧ Loose.Run u.MayMatch d ops outs) := by
  by_cases hH : I.Honest
  · obtain ⟨Stands, max, h1, h2, h3, h4, h5⟩ := hH
    have hC : I.Counts Stands max := ⟨h1, h2, h3, h4, h5⟩
    obtain ⟨At, D, hs⟩ := STable.sound (U := False) (I := I) hu.toSafeLookup
      (OK := STable.OK (K := K) (V := V) Stands)
      (fun T hT code => ((STable.getHashInfo_safe hI ⟨hT.pos, hT.len⟩ code).also
        (STable.getHashInfo_inside hC hT code)).mono id id (fun _ h _ => h.2))
      (fun T i v hT => ⟨hT.pos, hT.len, by
        show ∀ s ∈ T.slots, Inside Stands (setVal T.entries i v).length s
        rw [setVal_length]
        exact hT.inside⟩)
    refine (hs.session (payload := payload) (((STable.fromVec_safe env hI hu).also
      (STable.fromVec_inside env hC)).mono id id (fun T hT => ⟨⟨hT.1.1.1, hT.1.1.2, ?_⟩, hT.1.2⟩))
      ops).mono (Or.imp False.elim id) (fun _ => trivial) (fun _ h => h)
    rw [hT.1.2.length_eq]
    exact hT.2
  · obtain ⟨At, D, hs⟩ := STable.sound (U := ¬ I.Honest) (I := I) hu.toSafeLookup
      (OK := fun T : STable X K V => 0 < T.numSlots ∧ T.slots.length = T.numSlots)
      (fun T hT code => (STable.getHashInfo_safe hI hT code).mono id id (fun _ _ h => absurd hH h))
      (fun T i v hT => hT)
    exact (hs.session (payload := payload) ((STable.fromVec_safe env hI hu).mono False.elim id
      (fun T hT => hT)) ops).mono id (fun _ => trivial) (fun _ h => h)

/-! ### Range maps over integers of the caller's own -/

omit [Target] in
theorem RMap.fromVec_behaves {c : RangeCode σ K V Q} (hc : c.Safe) (payload : List (K × V)) :
    Behaves False True (RMap.fromVec c payload) (fun m => m.entries.Perm payload) := by
  unfold RMap.fromVec
  refine .ite (fun he => ?_) (fun he => ?_)
  · obtain rfl : payload = [] := by simpa using he
    exact hc.zero.bind (fun _ _ => hc.zero.bind (fun _ _ => .pure (.refl _)))
  · refine (hc.sort payload).bind (fun sorted hs => ?_)
    split
    · refine (hc.span _ _).bind (fun d _ => (hc.spanSize d).bind (fun o _ => ?_))
      cases o with
      | none => exact .lift_panic trivial
      | some n => exact .ite (fun _ => .pure hs) (fun _ => .lift_panic trivial)
    · exact .lift_panic trivial

omit [Target] in
/-- Places are found as subtraction and conversion say. -/
theorem RMap.lookup_behaves {c : RangeCode σ K V Q} (hc : c.Safe) (m : RMap K V) (q : Q)
    {P : Nat → Prop} (hP : Behaves True True (do c.toUsize (← c.sub q m.min)) (fun o => ∀ i ∈ o, P i)) :
    Behaves False True (RMap.lookup c m q)
      (fun o => ∀ r ∈ o, m.entries[r.2.idx]? = some (r.1, r.2.val) ∧ P r.2.idx) := by
  unfold RMap.lookup
  refine (hc.ge q m.min).bind (fun b _ => .ite (fun _ => ?_) (fun _ => .pure (by simp)))
  refine (hc.le q m.max).bind (fun b _ => .ite (fun _ => ?_) (fun _ => .pure (by simp)))
  have hboth : Behaves False True (do c.toUsize (← c.sub q m.min)) (fun o => ∀ i ∈ o, P i) :=
    (((hc.sub q m.min).bind (fun d _ => hc.toUsize d)).also hP).mono id id (fun _ h => h.2)
  intro s
  have hs := hboth s
  rw [Call.bind_apply] at hs ⊢
  cases hd : c.sub q m.min s with
  | panic => trivial
  | ub => rw [hd] at hs; exact hs
  | ok d =>
    rw [hd] at hs
    simp only [Res.ok_bind] at hs ⊢
    rw [Call.bind_apply]
    cases ho : c.toUsize d.1 d.2 with
    | panic => trivial
    | ub => rw [ho] at hs; exact hs
    | ok o =>
      rw [ho] at hs
      simp only [Res.ok_bind]
      obtain ⟨_ | i, s'⟩ := o
      · simp [Call.pure_apply]
      · simp only at hs ⊢
        cases he : m.entries[i]? with
        | none => trivial
        | some e =>
          intro r hr
          cases hr
          exact ⟨he, hs i rfl⟩

omit [Target] in
theorem RMap.sound {c : RangeCode σ K V Q} (hc : c.Safe) :
    ∃ At D, (RMap.api c).Sound (fun _ => True) False True (fun _ _ => True) At D (¬ c.EqOK) := by
  by_cases hEq : c.EqOK
  · choose place h1 h2 using hEq
    refine ⟨fun m q i => (i : Int) = place m.min q, fun a b => ∀ k, place k a ≠ place k b,
      ⟨fun m _ q => ?_, fun a b => ?_, ?_, fun _ _ _ _ => trivial, fun _ _ _ => rfl⟩⟩
    · exact (RMap.lookup_behaves hc m q (h1 m.min q)).mono id id
        (fun o ho r hr => ⟨(ho r hr).1, trivial, (ho r hr).2⟩)
    · show Behaves False True (c.same a b) _
      intro s
      have hsafe := hc.same a b s
      have hk := fun k => h2 k a b s
      cases he : c.same a b s with
      | panic => trivial
      | ub => rw [he] at hsafe; exact hsafe
      | ok r =>
        intro hr k
        have := hk k
        rw [he] at this
        exact this hr
    · intro m a b i _ hne ha hb
      exact absurd (ha.symm.trans hb) (hne m.min)
  · refine ⟨fun _ _ _ => True, fun _ _ => True, ⟨fun m _ q => ?_, fun a b => ?_,
      fun _ _ _ _ _ _ _ _ => hEq, fun _ _ _ _ => trivial, fun _ _ _ => rfl⟩⟩
    · exact (RMap.lookup_behaves hc m q (P := fun _ => True)
        (Behaves.trivial'.mono id id (fun _ _ _ _ => trivial))).mono id id
        (fun o ho r hr => ⟨(ho r hr).1, trivial, trivial⟩)
    · exact (hc.same a b).mono id id (fun _ _ _ => trivial)

omit [Target] in
theorem RMap.session_behaves {c : RangeCode σ K V Q} (hc : c.Safe) (payload : List (K × V))
    (ops : List (MapOp V Q)) :
    Behaves (¬ c.EqOK ∧ ∃ op ∈ ops, op.isMany) True
      ((RMap.api c).session (RMap.fromVec c payload) ops)
      (fun outs => ∃ d : List (K × V), d.Perm payload ∧ Loose.Run (fun _ _ => True) d ops outs) := by
  obtain ⟨At, D, hs⟩ := RMap.sound hc
  exact (hs.session (payload := payload) ((RMap.fromVec_behaves hc payload).mono id id
    (fun _ h => ⟨trivial, h⟩)) ops).mono (Or.rec False.elim id) (fun _ => trivial) (fun _ h => h)

end FC
