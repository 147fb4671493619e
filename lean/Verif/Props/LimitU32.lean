import Verif.Props.LimitSets
import Verif.Props.Integers
import Verif.Lemmas.IntTraits

/-
C68: `FrozenMap` and `FrozenSet` of any number of distinct `u32` keys.
-/

set_option autoImplicit false

namespace FC
variable {K V Q : Type}

theorem intKeyLoop_ne_ub [Target] (t : IntTy) (oc : Bool) (keys : List Int) (mn mx count : Int) :
    intKeyLoop t oc keys mn mx count ≠ .ub := by
  induction keys generalizing mn mx count with
  | nil => simp [intKeyLoop]
  | cons key keys ih =>
    unfold intKeyLoop
    have := IntTy.arith_ne_ub t oc (count + 1)
    split
    · exact ih _ _ _
    · simp
    · contradiction

theorem analyzeIntKeys_ne_ub [Target] (t : IntTy) (oc : Bool) (keys : List Int) :
    analyzeIntKeys t oc keys ≠ .ub := by
  unfold analyzeIntKeys
  have h0 := intKeyLoop_ne_ub t oc keys t.hi t.lo 0
  cases hx : intKeyLoop t oc keys t.hi t.lo 0 with
  | panic => simp
  | ub => exact absurd hx h0
  | ok r =>
    simp only [Res.ok_bind]
    split
    · simp
    · have h1 := IntTy.arith_ne_ub t oc (r.2.1 - r.1)
      have h2 := IntTy.arith_ne_ub t oc (r.2.2 - 1)
      cases ha : t.arith oc (r.2.1 - r.1) with
      | panic => simp
      | ub => exact absurd ha h1
      | ok a =>
        cases hb : t.arith oc (r.2.2 - 1) with
        | panic => simp
        | ub => exact absurd hb h2
        | ok b => simp only [Res.ok_bind]; split <;> simp

/-- Lookups that find the first match among the entries are right. -/
theorem Built.right [Target] {ty : KeyTy K} (hty : LawfulKey ty) {payload : List (K × V)}
    {m : FrozenMap K V} (hb : Built ty payload m) (hd : DistinctKeys ty.eq payload) (env : Env) :
    RightRaw ty.eq payload m.len (m.entries ty) (m.getKeyValue env ty) (m.get env ty)
      (m.getMut env ty) (m.containsKey env ty) := by
  have hg := hb.good (Or.inr hd)
  refine ⟨by rw [hg.len, hb.perm.length_eq], hb.perm, fun q => ?_⟩
  have h1 := hg.getKeyValue hty env q
  have h2 := hg.get hty env q
  refine ⟨_, h1, h2, by rw [FrozenMap.getMut_eq]; exact h2, ?_, fun k r hr => ?_, fun _ => ?_⟩
  · unfold FrozenMap.containsKey
    rw [h2]
    simp
  · obtain ⟨_, b, c, _⟩ := scan_some hr
    exact ⟨mem_of_perm_getElem? hb.perm (by simpa using b), c⟩
  · exact exact_scan (eq := ty.eq) (borrow := id) hb.perm

/-- What is right of the integers is right of the keys they stand for. -/
theorem RightRaw.ofInt [Target] {ty : KeyTy K} (hty : LawfulKey ty) {f : K → Int} {g : Int → K}
    (hk : ty.kind = .u32 f g) {payload : List (K × V)} {m : IntegerMap V}
    (h : RightRaw (fun q k => decide (q = k)) (payload.map (fun e => (f e.1, e.2))) m.len
      m.table.entries m.getKeyValue m.get m.getMut m.containsKey) :
    RightRaw ty.eq payload m.len (ty.ofIntEntries m.table.entries)
      (fun k => (m.getKeyValue (ty.toInt k)).map ty.ofIntKV) (fun k => m.get (ty.toInt k))
      (fun k => m.getMut (ty.toInt k)) (fun k => m.containsKey (ty.toInt k)) := by
  have hl := hty.kind
  rw [hk] at hl
  obtain ⟨h1, _, h3⟩ := hl
  have hto : ∀ k, ty.toInt k = f k := fun k => by unfold KeyTy.toInt; rw [hk]
  obtain ⟨a, b, c⟩ := h
  refine ⟨by simpa using a, (ofIntEntries_perm hty hk b).1, fun q => ?_⟩
  obtain ⟨o, c1, c2, c3, c4, c5, c6⟩ := c (ty.toInt q)
  refine ⟨ty.ofIntKV o, by simp [c1], by rw [ofIntKV_snd hk]; exact c2,
    by rw [ofIntKV_snd hk]; exact c3, ?_, fun k r hr => ?_, fun h32 => ?_⟩
  · have : (ty.ofIntKV o).isSome = o.isSome := by
      have := congrArg Option.isSome (ofIntKV_snd hk o)
      simpa using this
    rw [this]; exact c4
  · unfold KeyTy.ofIntKV at hr
    rw [hk] at hr
    obtain ⟨⟨i, r'⟩, rfl, hh⟩ := Option.map_eq_some_iff.1 hr
    cases hh
    obtain ⟨d1, d2⟩ := c5 i _ rfl
    obtain ⟨e, he, heq⟩ := List.mem_map.1 d1
    simp only [Prod.mk.injEq] at heq
    obtain ⟨e1, e2⟩ := heq
    subst e1
    refine ⟨by rw [h1, ← e2]; exact he, ?_⟩
    rw [h3, h1, ← hto]
    exact d2
  · have := c6 (by simpa using h32)
    unfold KeyTy.ofIntKV
    rw [hk]
    cases o with
    | none =>
      intro e he
      have := this (f e.1, e.2) (List.mem_map.2 ⟨e, he, rfl⟩)
      rw [h3, ← hto]
      exact this
    | some kr =>
      obtain ⟨d1, d2⟩ := this
      obtain ⟨e, he, heq⟩ := List.mem_map.1 d1
      simp only [Prod.mk.injEq] at heq
      obtain ⟨e1, e2⟩ := heq
      refine ⟨?_, ?_⟩
      · show (g kr.1, kr.2.val) ∈ payload
        rw [← e1, h1, ← e2]; exact he
      · show ty.eq q (g kr.1) = true
        rw [← e1, h1, h3, ← hto, e1]
        exact d2

theorem frozen_map_u32_right [Target] (env : Env) (ty : KeyTy K) (hty : LawfulKey ty)
    (f : K → Int) (g : Int → K) (hk : ty.kind = .u32 f g) (payload : List (K × V))
    (hd : DistinctKeys ty.eq payload) (bh : Hasher) :
    (∃ m, FrozenMap.new env ty payload bh = .ok m ∧
      RightRaw ty.eq payload m.len (m.entries ty) (m.getKeyValue env ty) (m.get env ty)
        (m.getMut env ty) (m.containsKey env ty)) ∨
    (FrozenMap.new env ty payload bh = .panic ∧ 2 ^ 31 ≤ payload.length) := by
  by_cases h31 : payload.length < 2 ^ 31
  · obtain ⟨m, hm⟩ := C02_u32_construction_total env ty hty f g hk payload h31 bh
    exact Or.inl ⟨m, hm, (new_built env hty (by omega) hm).right hty hd env⟩
  · have hne : payload ≠ [] := by rintro rfl; simp at h31
    have hnew : FrozenMap.new env ty payload bh = FrozenMap.newU32Map env f payload := by
      unfold FrozenMap.new
      rw [if_neg (by omega), hk]
    rw [hnew]
    cases hx : FrozenMap.newU32Map env f payload with
    | panic => exact Or.inr ⟨rfl, by omega⟩
    | ub =>
      exfalso
      unfold FrozenMap.newU32Map at hx
      simp only at hx
      have h0 := analyzeIntKeys_ne_ub IntTy.u32 env.oc ((payload.map (fun e => (f e.1, e.2))).map (·.1))
      cases hv : analyzeIntKeys IntTy.u32 env.oc ((payload.map (fun e => (f e.1, e.2))).map (·.1)) with
      | panic => rw [hv] at hx; simp at hx
      | ub => exact h0 hv
      | ok v =>
        rw [hv] at hx
        simp only [Res.ok_bind] at hx
        cases v with
        | range =>
          have h1 := rangeFromVec_ne_ub env.oc IntTy.u32 (payload.map (fun e => (f e.1, e.2)))
          simp only at hx
          cases hy : IntegerRangeMap.fromVec env.oc IntTy.u32 (payload.map (fun e => (f e.1, e.2))) with
          | ok r => rw [hy] at hx; simp at hx
          | panic => rw [hy] at hx; simp at hx
          | ub => exact h1 hy
        | normal =>
          simp only at hx
          split at hx
          · rcases integer_map_right env IdxTy.u8 (payload.map (fun e => (f e.1, e.2)))
              with ⟨m, hm, _⟩ | ⟨hm, _⟩ <;> rw [hm] at hx <;> simp at hx
          · rcases integer_map_right env IdxTy.usize (payload.map (fun e => (f e.1, e.2)))
              with ⟨m, hm, _⟩ | ⟨hm, _⟩ <;> rw [hm] at hx <;> simp at hx
    | ok m =>
      refine Or.inl ⟨m, rfl, ?_⟩
      by_cases h32 : payload.length < 2 ^ 32
      · exact (newU32_built env hty hk hne (fun _ => h32) hx).right hty hd env
      · have hb := hx
        unfold FrozenMap.newU32Map at hx
        simp only at hx
        rw [Res.bind_eq_ok] at hx
        obtain ⟨v, hv, hx⟩ := hx
        cases v with
        | range =>
          simp only at hx
          rw [Res.bind_eq_ok] at hx
          obtain ⟨r, hr', hx⟩ := hx
          simp only [Res.pure_eq, Res.ok.injEq] at hx
          subst hx
          exact (newU32_built env hty hk hne (fun h => absurd rfl (h r)) hb).right hty hd env
        | normal =>
          simp only at hx
          rw [if_neg (by simp; omega)] at hx
          rw [Res.bind_eq_ok] at hx
          obtain ⟨m', hm, hx⟩ := hx
          simp only [Res.pure_eq, Res.ok.injEq] at hx
          subst hx
          rcases integer_map_right env IdxTy.usize (payload.map (fun e => (f e.1, e.2)))
            with ⟨m, hm', h⟩ | ⟨hm', _⟩
          · rw [hm] at hm'
            cases hm'
            exact h.ofInt hty hk
          · rw [hm] at hm'; cases hm'

/-- `FrozenMap` with any number of distinct `u32` keys. Missing from C68: as for
`C68_common_map_partial`. -/
theorem C68_frozen_map_u32_partial [Target] (env : Env) (ty : KeyTy K) (hty : LawfulKey ty)
    (f : K → Int) (g : Int → K) (hk : ty.kind = .u32 f g) (payload : List (K × V))
    (hd : DistinctKeys ty.eq payload) (bh : Hasher) :
    (∃ m, FrozenMap.new env ty payload bh = .ok m ∧
      RightUpTo32 (frozenApi env ty) m ty.eq payload) ∨
    (FrozenMap.new env ty payload bh = .panic ∧ 2 ^ 31 ≤ payload.length) := by
  rcases frozen_map_u32_right env ty hty f g hk payload hd bh with ⟨m, hm, h⟩ | h
  · exact Or.inl ⟨m, hm, h.shows rfl⟩
  · exact Or.inr h

/-- Four and more distinct `u32` keys, contiguous and not. -/
example := C68_frozen_map_u32_partial checkedEnv u32Ty u32Ty_lawful _ _ rfl
  [(3, 30), (4, 40), (5, 50), ((6 : UInt32), 60)] (by unfold DistinctKeys; decide +kernel) demoHasher

example := C68_frozen_map_u32_partial releaseEnv u32Ty u32Ty_lawful _ _ rfl
  [(3, 30), (4, 40), (500, 50), ((6 : UInt32), 60)] (by unfold DistinctKeys; decide +kernel) demoHasher

/-- A set of `u32`s that was built answers `contains` with whether `get` finds something. -/
theorem FrozenSet.contains_get_u32 [Target] {env : Env} {ty : KeyTy K} {f : K → Int} {g : Int → K}
    (hk : ty.kind = .u32 f g) {payload : List K} {bh : Hasher} {s : FrozenSet K}
    (hs : FrozenSet.new env ty payload bh = .ok s) (env' : Env) (x : K) :
    s.contains env' ty x = (s.get env' ty x).map Option.isSome := by
  have hI : ∀ r : Res (Option Int), r.map Option.isSome = (r.map ty.ofIntT).map Option.isSome := by
    intro r
    unfold KeyTy.ofIntT
    rw [hk]
    cases r <;> simp
  unfold FrozenSet.new at hs
  split at hs
  · cases hs; rfl
  · rw [hk] at hs
    simp only [FrozenSet.newU32Set] at hs
    rw [Res.bind_eq_ok] at hs
    obtain ⟨v, _, hs⟩ := hs
    cases v with
    | range =>
      simp only [Res.bind_eq_ok, Res.pure_eq, Res.ok.injEq] at hs
      obtain ⟨_, _, rfl⟩ := hs
      exact hI _
    | normal =>
      simp only at hs
      split at hs <;>
      · simp only [Res.bind_eq_ok, Res.pure_eq, Res.ok.injEq] at hs
        obtain ⟨_, _, rfl⟩ := hs
        exact hI _

/-- `FrozenSet` with any number of distinct `u32`s. -/
theorem C68_frozen_set_u32_partial [Target] (env : Env) (ty : KeyTy K) (hty : LawfulKey ty)
    (f : K → Int) (g : Int → K) (hk : ty.kind = .u32 f g) (payload : List K)
    (hd : Distinct ty.eq payload) (bh : Hasher) :
    (∃ s, FrozenSet.new env ty payload bh = .ok s ∧
      SetRightUpTo32 ty.eq payload s.len (s.iter ty).items (s.get env ty) (s.contains env ty)) ∨
    (FrozenSet.new env ty payload bh = .panic ∧ 2 ^ 31 ≤ payload.length) := by
  have hmap := FrozenSet.new_toMap env ty payload bh
  have hd' : DistinctKeys ty.eq (unitPayload payload) := by
    unfold DistinctKeys unitPayload
    rw [List.pairwise_map]
    exact hd
  rcases frozen_map_u32_right env ty hty f g hk (unitPayload payload) hd' bh
    with ⟨m, hm, h⟩ | ⟨hm, hb⟩
  · rw [hm] at hmap
    cases hs : FrozenSet.new env ty payload bh with
    | ok s =>
      rw [hs] at hmap
      simp only [Res.map_ok, Res.ok.injEq] at hmap
      subst hmap
      refine Or.inl ⟨s, rfl, ?_⟩
      obtain ⟨h1, h2, h3⟩ := h.set
      rw [← FrozenSet.len_toMap] at h1
      rw [← FrozenSet.iter_toMap] at h2
      refine ⟨h1, h2, fun q => ?_⟩
      obtain ⟨o, k1, _, k3⟩ := h3 q
      beta_reduce at k1
      rw [← FrozenSet.get_toMap] at k1
      exact ⟨o, k1, by rw [FrozenSet.contains_get_u32 hk hs, k1]; rfl, k3⟩
    | panic => rw [hs] at hmap; cases hmap
    | ub => rw [hs] at hmap; cases hmap
  · rw [hm] at hmap
    cases hs : FrozenSet.new env ty payload bh with
    | ok s => rw [hs] at hmap; cases hmap
    | panic => exact Or.inr ⟨rfl, by simpa [unitPayload] using hb⟩
    | ub => rw [hs] at hmap; cases hmap

example := C68_frozen_set_u32_partial checkedEnv u32Ty u32Ty_lawful _ _ rfl exSetKeys
  (by unfold Distinct; decide +kernel) demoHasher

end FC
