import Verif.Lemmas.Reach

/-
Equality of maps and `all` over possibly failing tests.
-/

set_option autoImplicit false

namespace FC
variable [Target]
variable {K V : Type}

omit [Target] in
theorem Res.allList_ok {α : Type} {p : α → Res Bool} {f : α → Bool} {l : List α}
    (h : ∀ a ∈ l, p a = .ok (f a)) : Res.allList p l = .ok (l.all f) := by
  induction l with
  | nil => rfl
  | cons a as ih =>
    simp only [Res.allList, h a List.mem_cons_self, List.all_cons,
      ih (fun b hb => h b (List.mem_cons_of_mem _ hb))]
    cases f a <;> rfl

omit [Target] in
theorem SameAnswer.symm {veq : V → V → Bool} (hs : ∀ a b, veq a b = true → veq b a = true)
    {x y : Option V} (h : SameAnswer veq x y) : SameAnswer veq y x := by
  cases x <;> cases y <;> simp_all [SameAnswer]

omit [Target] in
theorem SameAnswer.trans {veq : V → V → Bool}
    (ht : ∀ a b c, veq a b = true → veq b c = true → veq a c = true)
    {x y z : Option V} (h : SameAnswer veq x y) (h' : SameAnswer veq y z) : SameAnswer veq x z := by
  cases x <;> cases y <;> cases z <;> simp_all [SameAnswer]
  exact ht _ _ _ h h'

omit [Target] in
theorem lookup_isSome {eq : K → K → Bool} {p : List (K × V)} {k : K} :
    (∃ v, lookup eq p k = some v) ↔ Present eq p k := by
  have := lookup_eq_none (eq := eq) (p := p) (k := k)
  cases h : lookup eq p k with
  | none => simp [this.1 h]
  | some v =>
    have h2 : ¬ ¬ Present eq p k := fun hn => by rw [this.2 hn] at h; cases h
    simp [not_not.1 h2]

omit [Target] in
theorem DistinctKeys.keys {eq : K → K → Bool} {p : List (K × V)} (h : DistinctKeys eq p) :
    (p.map (·.1)).Pairwise (fun a b => eq a b = false) := by
  rw [List.pairwise_map]; exact h

omit [Target] in
/-- The shared body of map equality, on lists with pairwise unequal keys. -/
theorem mapEq_spec {eq : K → K → Bool} (heq : LawfulEq eq) (veq : V → V → Bool)
    {p q : List (K × V)} (hp : DistinctKeys eq p) (hq : DistinctKeys eq q)
    {get : K → Res (Option (Ref V))}
    (hg : ∀ k, ∃ o, get k = .ok o ∧ value o = lookup eq q k) :
    ∃ b, mapEq veq p.length q.length p get = .ok b ∧
      (b = true ↔ ∀ k, SameAnswer veq (lookup eq p k) (lookup eq q k)) := by
  have hall : Res.allList (fun e =>
      (get e.1).map (fun o => match o with | none => false | some r => veq e.2 r.val)) p
      = .ok (p.all (fun e => match lookup eq q e.1 with | none => false | some v => veq e.2 v)) := by
    apply Res.allList_ok
    intro e _
    obtain ⟨o, h1, h2⟩ := hg e.1
    rw [h1, ← h2, Res.map_ok]
    cases o <;> rfl
  -- what the loop checks
  have hcheck : p.all (fun e => match lookup eq q e.1 with | none => false | some v => veq e.2 v)
        = true ↔ ∀ e ∈ p, ∃ v, lookup eq q e.1 = some v ∧ veq e.2 v = true := by
    rw [List.all_eq_true]
    refine forall_congr' fun e => imp_congr_right fun _ => ?_
    cases lookup eq q e.1 <;> simp
  have hself : ∀ e ∈ p, lookup eq p e.1 = some e.2 := fun e he =>
    lookup_unique heq hp ⟨e, he, heq.refl _, rfl⟩
  unfold mapEq
  by_cases hlen : p.length = q.length
  · rw [if_neg (by simpa using hlen)]
    refine ⟨_, hall, ?_⟩
    rw [hcheck]
    constructor
    · intro h k
      cases hk : lookup eq p k with
      | some v =>
        obtain ⟨e, he, hke, rfl⟩ := lookup_eq_some hk
        obtain ⟨w, hw, hvw⟩ := h e he
        rw [lookup_congr heq hke, hw]
        exact hvw
      | none =>
        have hno := lookup_eq_none.1 hk
        have : lookup eq q k = none := by
          rw [lookup_eq_none]
          rintro ⟨e, he, hke⟩
          obtain ⟨a, ha, hba⟩ := match_back heq hp.keys (q := q.map (·.1)) (by
            intro a ha
            obtain ⟨e, he, rfl⟩ := List.mem_map.1 ha
            obtain ⟨w, hw, _⟩ := h e he
            obtain ⟨e', he', h2⟩ := lookup_isSome.1 ⟨w, hw⟩
            exact ⟨e'.1, List.mem_map_of_mem he', h2⟩) (by simp [hlen]) e.1 (List.mem_map_of_mem he)
          obtain ⟨e', he', rfl⟩ := List.mem_map.1 ha
          exact hno ⟨e', he', heq.trans _ _ _ hke hba⟩
        rw [this]
        trivial
    · intro h e he
      have h1 := h e.1
      rw [hself e he] at h1
      cases hw : lookup eq q e.1 with
      | none => rw [hw] at h1; exact absurd h1 (by simp [SameAnswer])
      | some w => rw [hw] at h1; exact ⟨w, rfl, h1⟩
  · rw [if_pos hlen]
    refine ⟨false, rfl, by simp, fun h => absurd ?_ hlen⟩
    have hle : ∀ {a b : List (K × V)}, DistinctKeys eq a →
        (∀ k, (∃ v, lookup eq a k = some v) → ∃ v, lookup eq b k = some v) → a.length ≤ b.length := by
      intro a b ha hab
      have := length_le_of_match heq ha.keys (q := b.map (·.1)) (by
        intro x hx
        obtain ⟨e, he, rfl⟩ := List.mem_map.1 hx
        obtain ⟨w, hw⟩ := hab e.1 (lookup_isSome.2 ⟨e, he, heq.refl _⟩)
        obtain ⟨e', he', h2⟩ := lookup_isSome.1 ⟨w, hw⟩
        exact ⟨e'.1, List.mem_map_of_mem he', h2⟩)
      simpa using this
    apply Nat.le_antisymm
    · apply hle hp
      rintro k ⟨v, hv⟩
      have := h k
      rw [hv] at this
      cases hw : lookup eq q k with
      | none => rw [hw] at this; exact absurd this (by simp [SameAnswer])
      | some w => exact ⟨w, rfl⟩
    · apply hle hq
      rintro k ⟨v, hv⟩
      have := h k
      rw [hv] at this
      cases hw : lookup eq p k with
      | none => rw [hw] at this; exact absurd this (by simp [SameAnswer])
      | some w => exact ⟨w, rfl⟩

/-- Keys of a reachable map are pairwise unequal when those of the payload are. -/
theorem Reachable.distinct {env : Env} {ty : KeyTy K} (hty : LawfulKey ty)
    {payload : List (K × V)} {bh : Hasher} {m : FrozenMap K V}
    (hd : DistinctKeys ty.eq payload) (h : Reachable env ty payload bh m) :
    DistinctKeys ty.eq (m.entries ty) := by
  have h1 := hd.keys
  have h2 : ((m.entries ty).map (·.1)).Pairwise (fun a b => ty.eq a b = false) :=
    ((h.keys hty).pairwise_iff (fun {a b} hab => by rw [hty.eq.symm_eq]; exact hab)).2 h1
  rwa [List.pairwise_map] at h2

/-- `get` on a reachable map with distinct keys. -/
theorem Reachable.get {env : Env} {ty : KeyTy K} (hty : LawfulKey ty)
    {payload : List (K × V)} (hcap : payload.length < 2 ^ 32) {bh : Hasher} {m : FrozenMap K V}
    (hd : DistinctKeys ty.eq payload) (h : Reachable env ty payload bh m) (env' : Env) (k : K) :
    ∃ o, m.get env' ty k = .ok o ∧ value o = lookup ty.eq (m.entries ty) k :=
  ⟨_, Good.get hty (h.good hty hcap hd) env' k, scan_value _ _⟩

omit [Target] in
theorem FrozenMap.write_range {m : FrozenMap K V} {i : Nat} {v : V}
    (h : ∀ r, m.write i v ≠ .u32Range r) : ∀ r, m ≠ .u32Range r := by
  rintro r rfl
  exact h _ rfl

/-- `get` on a reachable map that is not a range map, repeated keys or not. -/
theorem Reachable.get_not_range {env : Env} {ty : KeyTy K} (hty : LawfulKey ty)
    {payload : List (K × V)} (hcap : payload.length < 2 ^ 32) {bh : Hasher} {m : FrozenMap K V}
    (hr : ∀ r, m ≠ .u32Range r) (h : Reachable env ty payload bh m) (env' : Env) (k : K) :
    ∃ o, m.get env' ty k = .ok o ∧ value o = lookup ty.eq (m.entries ty) k := by
  have hg : Good ty m := by
    induction h with
    | new h => exact (new_built env hty hcap h).good (Or.inl hr)
    | write v _ _ ih => exact (ih (FrozenMap.write_range hr)).write _ v
  exact ⟨_, Good.get hty hg env' k, scan_value _ _⟩

omit [Target] in
/-- What `all` accepts, it accepts for each item. -/
theorem Res.allList_true {α : Type} {p : α → Res Bool} {l : List α}
    (h : Res.allList p l = .ok true) : ∀ a ∈ l, p a = .ok true := by
  induction l with
  | nil => simp
  | cons b l ih =>
    simp only [Res.allList] at h
    cases hb : p b with
    | panic => rw [hb] at h; simp at h
    | ub => rw [hb] at h; simp at h
    | ok c =>
      rw [hb] at h
      cases c with
      | false => simp at h
      | true =>
        intro a ha
        rcases List.mem_cons.1 ha with rfl | ha
        · exact hb
        · exact ih h a ha

end FC
