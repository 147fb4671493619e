import Verif.Lemmas.TableLimit

/-
What is known of a map because its constructor returned it.
-/

set_option autoImplicit false

namespace FC
variable [Target]
variable {K V : Type}

/-- A completed table holds the payload and its slots designate what they should. -/
theorem HashTable.new_inv {env : Env} {S : IdxTy} {payload : List (K × V)} {n : Nat}
    {hash : K → Res Nat} {t : HashTable K V} (h : HashTable.new env S payload n hash = .ok t)
    (h32 : payload.length < 2 ^ 32) :
    t.entries.Perm payload ∧
      ∃ g : K → Nat, (∀ e ∈ payload, hash e.1 = .ok (g e.1)) ∧ TableOK g t ∧
        (payload ≠ [] → t.numSlots = n ∧ ∃ cap, S.maxUsize = some cap ∧ payload.length ≤ cap) := by
  by_cases he : payload = []
  · subst he
    obtain ⟨T, hT, hOK, hp, _⟩ := HashTable.new_ok env (S := IdxTy.u8) (cap := 255) (by simp)
      (payload := ([] : List (K × V))) (by simp) (n := n) (by simp) (hash := hash) (h := fun _ => 0)
      (by simp)
    have : HashTable.new env S ([] : List (K × V)) n hash
        = HashTable.new env IdxTy.u8 ([] : List (K × V)) n hash := rfl
    rw [this, hT] at h
    cases h
    exact ⟨hp, fun _ => 0, by simp, hOK, by simp⟩
  · cases hS : S.maxUsize with
    | none => rw [HashTable.new_panics env he (Or.inl hS)] at h; cases h
    | some cap =>
      by_cases hc : cap < payload.length
      · rw [HashTable.new_panics env he (Or.inr ⟨cap, hS, hc⟩)] at h; cases h
      · have hall : ∀ e ∈ payload, ∃ b, prepItem n hash e = .ok b := by
          unfold HashTable.new at h
          have hie : payload.isEmpty = false := by cases payload <;> simp_all
          simp only [hie, Bool.false_eq_true, if_false, hS, Res.unwrap, Res.ok_bind] at h
          rw [if_neg (by omega), Res.bind_eq_ok] at h
          obtain ⟨prep, hprep, _⟩ := h
          exact Res.mapList_eq_ok hprep
        have hh : ∀ e ∈ payload, ∃ c, hash e.1 = .ok c := by
          intro e hm
          obtain ⟨b, hb⟩ := hall e hm
          unfold prepItem at hb
          cases hx : hash e.1 with
          | ok c => exact ⟨c, rfl⟩
          | panic => rw [hx] at hb; cases hb
          | ub => rw [hx] at hb; cases hb
        have hn : 0 < n := by
          obtain ⟨e, hm⟩ := List.exists_mem_of_ne_nil payload he
          obtain ⟨b, hb⟩ := hall e hm
          obtain ⟨c, hc⟩ := hh e hm
          unfold prepItem umod at hb
          rw [hc] at hb
          rcases Nat.eq_zero_or_pos n with hz | hz
          · simp [hz] at hb
          · exact hz
        let g : K → Nat := fun k => match hash k with | .ok c => c | _ => 0
        have hg : ∀ e ∈ payload, hash e.1 = .ok (g e.1) := by
          intro e hm
          obtain ⟨c, hc⟩ := hh e hm
          simp only [g, hc]
        obtain rfl := IdxTy.maxUsize_some hS
        obtain ⟨T, hT, hOK, hp, hns⟩ := (HashTable.new_cases env hS (by omega) h32
          (fun _ => hn) hg).resolve_right (by rintro ⟨h', _⟩; rw [h'] at h; cases h)
        rw [hT] at h
        cases h
        exact ⟨hp, g, hg, hOK, fun hne => ⟨hns hne, _, rfl, by omega⟩⟩

/-- The codes that placed the entries are the only ones they have. -/
theorem TableOK.congr {T : HashTable K V} {h h' : K → Nat} (hT : TableOK h T)
    (he : ∀ e ∈ T.entries, h e.1 = h' e.1) : TableOK h' T := by
  refine ⟨hT.pos, hT.len, hT.inv.bounds, ?_⟩
  intro j e hj i s hs
  have := hT.inv.mem j e hj i s hs
  rw [he e (List.mem_of_getElem? hj)] at this
  exact this

theorem CommonMap.built {env : Env} {S : IdxTy} {enc : K → List HCall} {payload : List (K × V)}
    {bh : Hasher} {m : CommonMap K V} (hm : CommonMap.fromVecWithHasher env S enc payload bh = .ok m)
    (h32 : payload.length < 2 ^ 32) :
    m.bh = bh ∧ TableOK (fun k => bh (enc k)) m.table ∧ m.table.entries.Perm payload := by
  unfold CommonMap.fromVecWithHasher at hm
  simp only [Res.bind_eq_ok, Res.pure_eq, Res.ok.injEq] at hm
  obtain ⟨_, _, t, ht, rfl⟩ := hm
  obtain ⟨hp, g, hg, hT, _⟩ := HashTable.new_inv ht h32
  exact ⟨rfl, hT.congr (fun e he => (Res.ok.inj (hg e (hp.mem_iff.1 he))).symm), hp⟩

theorem IntegerMap.built {env : Env} {S : IdxTy} {payload : List (Int × V)} {m : IntegerMap V}
    (hm : IntegerMap.fromVec env S payload = .ok m) (h32 : payload.length < 2 ^ 32) :
    TableOK asU64 m.table ∧ m.table.entries.Perm payload := by
  unfold IntegerMap.fromVec at hm
  simp only [Res.bind_eq_ok, Res.pure_eq, Res.ok.injEq] at hm
  obtain ⟨_, _, t, ht, rfl⟩ := hm
  obtain ⟨hp, g, hg, hT, _⟩ := HashTable.new_inv ht h32
  exact ⟨hT.congr (fun e he => (Res.ok.inj (hg e (hp.mem_iff.1 he))).symm), hp⟩

theorem LengthMap.built {env : Env} {S : IdxTy} {lenK : K → Nat} {payload : List (K × V)}
    {m : LengthMap K V} (hm : LengthMap.fromVec env S lenK payload = .ok m)
    (h32 : payload.length < 2 ^ 32) :
    TableOK lenK m.table ∧ m.table.entries.Perm payload := by
  unfold LengthMap.fromVec at hm
  simp only [Res.bind_eq_ok, Res.pure_eq, Res.ok.injEq] at hm
  obtain ⟨_, _, t, ht, rfl⟩ := hm
  obtain ⟨hp, g, hg, hT, _⟩ := HashTable.new_inv ht h32
  exact ⟨hT.congr (fun e he => (Res.ok.inj (hg e (hp.mem_iff.1 he))).symm), hp⟩

/-- A left-slice map that was built from something is well formed. -/
theorem LeftSliceMap.built {env : Env} {S : IdxTy} {payload : List (Bytes × V)} {a b : Nat}
    {bh : Hasher} {m : LeftSliceMap V} (hne : payload = [] → a ≤ b)
    (hm : LeftSliceMap.fromVecWithHasher env S payload a b bh = .ok m) (h32 : payload.length < 2 ^ 32) :
    LeftOK m ∧ m.table.entries.Perm payload := by
  unfold LeftSliceMap.fromVecWithHasher at hm
  simp only [Res.bind_eq_ok, Res.pure_eq, Res.ok.injEq] at hm
  obtain ⟨_, _, _, _, t, ht, rfl⟩ := hm
  obtain ⟨hp, g, hg, hT, _⟩ := HashTable.new_inv ht h32
  have hab : a ≤ b := by
    by_cases h : payload = []
    · exact hne h
    · obtain ⟨e₀, he₀⟩ := List.exists_mem_of_ne_nil _ h
      by_contra hn
      have h1 := hg e₀ he₀
      rw [sliceHash_ub (fun h => hn h.1)] at h1
      cases h1
  have hlong : ∀ e ∈ t.entries, b ≤ e.1.length ∧ g e.1 = bh [.write (sub e.1 a b)] := by
    intro e he
    have h1 := hg e (hp.mem_iff.1 he)
    by_cases hb : b ≤ e.1.length
    · rw [sliceHash_ok hab hb] at h1
      exact ⟨hb, (Res.ok.inj h1).symm⟩
    · rw [sliceHash_ub (fun h => hb h.2)] at h1
      cases h1
  refine ⟨⟨hab, fun e he => (hlong e he).1, hT.pos, hT.len, ?_, ?_⟩, hp⟩
  · exact hT.inv.bounds
  · intro j e hj i s hs
    have := hT.inv.mem j e hj i s hs
    rw [(hlong e (List.mem_of_getElem? hj)).2] at this
    exact this

/-- The hash of a part counted from the right: fine for a range in descending order inside the key,
an overflow or an out-of-bounds read otherwise. -/
theorem rightHash_cases {oc : Bool} {bh : Hasher} {k : Bytes} {a b : Nat} (ha : a < usz)
    (hb : b < usz) (h : ¬ (b ≤ a ∧ a ≤ k.length)) :
    (oc = true ∧ RightSliceMap.rightHash oc bh k a b = .panic) ∨
      RightSliceMap.rightHash oc bh k a b = .ub := by
  cases hr : RightSliceMap.rightHash oc bh k a b with
  | ub => exact Or.inr rfl
  | panic =>
    refine Or.inl ⟨?_, rfl⟩
    cases oc with
    | true => rfl
    | false =>
      have hs : ∀ x y, ∃ c, usub false x y = .ok c := by
        intro x y
        unfold usub
        split
        · exact ⟨_, rfl⟩
        · exact ⟨_, rfl⟩
      obtain ⟨lo, h1⟩ := hs k.length a
      obtain ⟨hi, h2⟩ := hs k.length b
      unfold RightSliceMap.rightHash sliceHash sliceUnchecked at hr
      rw [h1, h2] at hr
      simp only [Res.ok_bind] at hr
      split at hr <;> cases hr
  | ok c =>
    exfalso
    unfold RightSliceMap.rightHash at hr
    have h1 := usub_cases oc k.length a
    have h2 := usub_cases oc k.length b
    simp only [Res.bind_eq_ok] at hr
    obtain ⟨lo, hlo, hi, hhi, hr⟩ := hr
    rw [hlo] at h1
    rw [hhi] at h2
    simp only [Res.ok.injEq, reduceCtorEq, false_or] at h1 h2
    have hbad : ¬ (lo ≤ hi ∧ hi ≤ k.length) := by
      generalize usz = W at *
      rcases h1 with ⟨a1, a2⟩ | ⟨a1, x, ⟨a2, a3⟩ | a2⟩ <;>
        rcases h2 with ⟨b1, b2⟩ | ⟨b1, y, ⟨b2, b3⟩ | b2⟩ <;> omega
    rw [sliceHash_ub hbad] at hr
    cases hr

/-- A right-slice map that was built from something (or from nothing for a range in descending order)
has a range in descending order that lies inside
every key, and is well formed. -/
theorem RightSliceMap.built {env : Env} {S : IdxTy} {payload : List (Bytes × V)} {a b : Nat}
    {bh : Hasher} {m : RightSliceMap V} (hne : payload = [] → b ≤ a) (ha : a < usz) (hb : b < usz)
    (hm : RightSliceMap.fromVecWithHasher env S payload a b bh = .ok m)
    (h32 : payload.length < 2 ^ 32) :
    b ≤ a ∧ (∀ e ∈ payload, a ≤ e.1.length) ∧ RightOK m ∧ m.table.entries.Perm payload := by
  unfold RightSliceMap.fromVecWithHasher at hm
  simp only [Res.bind_eq_ok, Res.pure_eq, Res.ok.injEq] at hm
  obtain ⟨_, _, _, _, t, ht, rfl⟩ := hm
  obtain ⟨hp, g, hg, hT, _⟩ := HashTable.new_inv ht h32
  have hlong : ∀ e ∈ payload, b ≤ a ∧ a ≤ e.1.length := by
    intro e he
    by_contra hn
    have h1 := hg e he
    rcases rightHash_cases (oc := env.oc) (bh := bh) ha hb hn with ⟨_, h2⟩ | h2 <;>
      rw [h2] at h1 <;> cases h1
  have hab : b ≤ a := by
    by_cases h : payload = []
    · exact hne h
    · obtain ⟨e₀, he₀⟩ := List.exists_mem_of_ne_nil _ h
      exact (hlong e₀ he₀).1
  refine ⟨hab, fun e he => (hlong e he).2, ⟨hab, fun e he => (hlong e (hp.mem_iff.1 he)).2, ?_⟩, hp⟩
  refine hT.congr (fun e he => ?_)
  have h1 := hg e (hp.mem_iff.1 he)
  rw [rightHash_ok hab (hlong e (hp.mem_iff.1 he)).2] at h1
  exact (Res.ok.inj h1).symm

omit [Target] in
theorem Res.mapList_cases {α β : Type} {P : Prop} {f : α → Res β} {l : List α}
    (h : ∀ a ∈ l, (∃ b, f a = .ok b) ∨ (P ∧ f a = .panic) ∨ f a = .ub) :
    (∃ bs, Res.mapList f l = .ok bs ∧ bs.length = l.length) ∨
      (P ∧ Res.mapList f l = .panic) ∨ Res.mapList f l = .ub := by
  induction l with
  | nil => exact Or.inl ⟨[], rfl, rfl⟩
  | cons a as ih =>
    simp only [Res.mapList]
    rcases h a List.mem_cons_self with ⟨b, hb⟩ | ⟨hp, hb⟩ | hb
    · rcases ih (fun x hx => h x (List.mem_cons_of_mem _ hx)) with ⟨bs, e, el⟩ | ⟨hp, e⟩ | e
      · exact Or.inl ⟨b :: bs, by simp only [hb, e], by simp [el]⟩
      · exact Or.inr (Or.inl ⟨hp, by simp only [hb, e]⟩)
      · exact Or.inr (Or.inr (by simp only [hb, e]))
    · exact Or.inr (Or.inl ⟨hp, by simp only [hb]⟩)
    · exact Or.inr (Or.inr (by simp only [hb]))

/-- When it cannot be built, what happens instead. -/
theorem RightSliceMap.not_built {env : Env} {S : IdxTy} {cap : Nat} (hS : S.capacity = some cap)
    {payload : List (Bytes × V)} (hcap : payload.length ≤ cap) {a b : Nat} {bh : Hasher}
    (ha : a < usz) (hb : b < usz) (hn : ∃ e ∈ payload, ¬ (b ≤ a ∧ a ≤ e.1.length)) :
    (env.oc = true ∧ RightSliceMap.fromVecWithHasher env S payload a b bh = .panic) ∨
      RightSliceMap.fromVecWithHasher env S payload a b bh = .ub := by
  have hall : ∀ k, (∃ c, RightSliceMap.rightHash env.oc bh k a b = .ok c) ∨
      (env.oc = true ∧ RightSliceMap.rightHash env.oc bh k a b = .panic) ∨
      RightSliceMap.rightHash env.oc bh k a b = .ub := by
    intro k
    by_cases h : b ≤ a ∧ a ≤ k.length
    · exact Or.inl ⟨_, rightHash_ok h.1 h.2⟩
    · exact Or.inr (rightHash_cases ha hb h)
  obtain ⟨hmax, hle, _⟩ := IdxTy.capacity_some hS
  obtain ⟨e, he, hbad⟩ := hn
  have hne : payload ≠ [] := List.ne_nil_of_mem he
  have hemp : payload.isEmpty = false := by cases payload <;> simp_all
  unfold RightSliceMap.fromVecWithHasher
  rcases Res.mapList_cases (P := env.oc = true) (l := payload)
    (f := fun e : Bytes × V => RightSliceMap.analysisCode env.oc bh a b e.1) (fun x _ => by
      unfold RightSliceMap.analysisCode
      split
      · exact hall _
      · exact Or.inl ⟨_, rfl⟩) with ⟨codes, hc, hl⟩ | ⟨hp, hc⟩ | hc
  · obtain ⟨r, hr, hpos⟩ := analyze_total codes
    have hpos := hpos (by rintro rfl; exact hne (List.length_eq_zero_iff.1 hl.symm))
    have hprep : ∀ x ∈ payload, (∃ i, prepItem r.numHashSlots
          (fun k => RightSliceMap.rightHash env.oc bh k a b) x = .ok i) ∨
        (env.oc = true ∧ prepItem r.numHashSlots
          (fun k => RightSliceMap.rightHash env.oc bh k a b) x = .panic) ∨
        prepItem r.numHashSlots (fun k => RightSliceMap.rightHash env.oc bh k a b) x = .ub := by
      intro x _
      unfold prepItem umod
      beta_reduce
      rcases hall x.1 with ⟨c, hx⟩ | ⟨hp, hx⟩ | hx
      · exact Or.inl ⟨⟨c % r.numHashSlots, x⟩, by simp only [hx]; rw [if_neg (by omega)]⟩
      · exact Or.inr (Or.inl ⟨hp, by rw [hx]⟩)
      · exact Or.inr (Or.inr (by rw [hx]))
    have hbadItem : ¬ ∃ i, prepItem r.numHashSlots
        (fun k => RightSliceMap.rightHash env.oc bh k a b) e = .ok i := by
      rintro ⟨i, hi⟩
      unfold prepItem at hi
      beta_reduce at hi
      rcases rightHash_cases (oc := env.oc) (bh := bh) ha hb hbad with ⟨_, h2⟩ | h2 <;>
        rw [h2] at hi <;> cases hi
    simp only [hc, hr, Res.ok_bind]
    unfold HashTable.new
    simp only [hemp, Bool.false_eq_true, if_false, hmax, Res.unwrap, Res.ok_bind]
    rw [if_neg (by omega)]
    rcases Res.mapList_cases hprep with ⟨bs, hm, _⟩ | ⟨hp, hm⟩ | hm
    · exact absurd (Res.mapList_eq_ok hm e he) hbadItem
    · exact Or.inl ⟨hp, by rw [hm]; rfl⟩
    · exact Or.inr (by rw [hm]; rfl)
  · exact Or.inl ⟨hp, by rw [hc]; rfl⟩
  · exact Or.inr (by rw [hc]; rfl)

end FC
