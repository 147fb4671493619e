import Verif.Props.LimitU32
import Verif.Lemmas.TotalCost

/-
C68: `FrozenMap` and `FrozenSet` of any number of strings.
-/

set_option autoImplicit false

namespace FC
variable {K V Q : Type}

/-- What is right of the bytes is right of the strings. -/
theorem RightRaw.ofBytes [Target] {ty : KeyTy K} (hty : LawfulKey ty) {f : K → Bytes}
    {g : Bytes → K} (hk : ty.kind = .string f g) {payload : List (K × V)} {len : Nat}
    {entries : List (Bytes × V)} {kv : Bytes → Res (Option (Bytes × Ref V))}
    {get getMut : Bytes → Res (Option (Ref V))} {containsKey : Bytes → Res Bool}
    (h : RightRaw (fun q k => decide (q = k)) (payload.map (fun e => (f e.1, e.2))) len
      entries kv get getMut containsKey) :
    RightRaw ty.eq payload len (ty.ofBEntries entries)
      (fun k => (kv (ty.toB k)).map ty.ofBKV) (fun k => get (ty.toB k))
      (fun k => getMut (ty.toB k)) (fun k => containsKey (ty.toB k)) := by
  have hl := hty.kind
  rw [hk] at hl
  obtain ⟨h1, _, h3⟩ := hl
  have hto : ∀ k, ty.toB k = f k := fun k => by unfold KeyTy.toB; rw [hk]
  obtain ⟨a, b, c⟩ := h
  refine ⟨by simpa using a, (ofBEntries_perm hty hk b).1, fun q => ?_⟩
  obtain ⟨o, c1, c2, c3, c4, c5, c6⟩ := c (ty.toB q)
  refine ⟨ty.ofBKV o, by simp [c1], by rw [ofBKV_snd hk]; exact c2,
    by rw [ofBKV_snd hk]; exact c3, ?_, fun k r hr => ?_, fun h32 => ?_⟩
  · have : (ty.ofBKV o).isSome = o.isSome := by
      have := congrArg Option.isSome (ofBKV_snd hk o)
      simpa using this
    rw [this]; exact c4
  · unfold KeyTy.ofBKV at hr
    rw [hk] at hr
    obtain ⟨⟨i, r'⟩, rfl, hh⟩ := Option.map_eq_some_iff.1 hr
    cases hh
    obtain ⟨d1, d2⟩ := c5 i _ rfl
    obtain ⟨e, he, heq⟩ := List.mem_map.1 d1
    simp only [Prod.mk.injEq] at heq
    obtain ⟨e1, e2⟩ := heq
    subst e1
    refine ⟨by rw [h1, ← e2]; exact he, ?_⟩
    rw [h3, h1, ← hto]
    exact d2
  · have := c6 (by simpa using h32)
    unfold KeyTy.ofBKV
    rw [hk]
    cases o with
    | none =>
      intro e he
      have := this (f e.1, e.2) (List.mem_map.2 ⟨e, he, rfl⟩)
      rw [h3, ← hto]
      exact this
    | some kr =>
      obtain ⟨d1, d2⟩ := this
      obtain ⟨e, he, heq⟩ := List.mem_map.1 d1
      simp only [Prod.mk.injEq] at heq
      obtain ⟨e1, e2⟩ := heq
      refine ⟨?_, ?_⟩
      · show (g kr.1, kr.2.val) ∈ payload
        rw [← e1, h1, ← e2]; exact he
      · show ty.eq q (g kr.1) = true
        rw [← e1, h1, h3, ← hto, e1]
        exact d2

theorem frozen_map_strings_right [Target] (env : Env) (ty : KeyTy K) (hty : LawfulKey ty)
    (f : K → Bytes) (g : Bytes → K) (hk : ty.kind = .string f g) (payload : List (K × V))
    (hd : DistinctKeys ty.eq payload) (bh : Hasher) (m : FrozenMap K V)
    (hm : FrozenMap.new env ty payload bh = .ok m) :
    RightRaw ty.eq payload m.len (m.entries ty) (m.getKeyValue env ty) (m.get env ty)
      (m.getMut env ty) (m.containsKey env ty) := by
  by_cases h32 : payload.length < 2 ^ 32
  · exact (new_built env hty h32 hm).right hty hd env
  · have hne : payload ≠ [] := by rintro rfl; simp at h32
    have hl := hty.kind
    rw [hk] at hl
    obtain ⟨h1, h2, _⟩ := hl
    have hkeys : ((payload.map (fun e => (f e.1, e.2))).map (·.1)) = payload.map (fun e => f e.1) := by
      simp
    have hne' : payload.map (fun e => f e.1) ≠ [] := by simpa using hne
    have hlt : ∀ k ∈ payload.map (fun e => f e.1), k.length < usz := by
      intro k hk
      obtain ⟨e, _, rfl⟩ := List.mem_map.1 hk
      have := h2 e.1
      omega
    have hback : (payload.map (fun e => (f e.1, e.2))).map (fun e => (g e.1, e.2)) = payload := by
      rw [List.map_map]
      have : ((fun e : Bytes × V => (g e.1, e.2)) ∘ fun e : K × V => (f e.1, e.2)) = id := by
        funext e; simp [h1]
      rw [this, List.map_id]
    unfold FrozenMap.new at hm
    rw [if_neg (by omega), hk] at hm
    simp only [FrozenMap.newStringMap, hkeys, List.length_map, hback] at hm
    rw [Res.bind_eq_ok] at hm
    obtain ⟨v, hv, hm⟩ := hm
    rw [if_neg (by omega)] at hm
    cases v with
    | normal | length =>
      simp only [Res.bind_eq_ok, Res.pure_eq, Res.ok.injEq] at hm
      obtain ⟨m', hm, rfl⟩ := hm
      rcases common_map_right env IdxTy.usize ty.probe ty.enc (fun k q h => hty.hash q k h)
        payload bh with ⟨m₁, h1, h2⟩ | ⟨h1, _⟩
      · rw [hm] at h1; cases h1; exact h2
      · rw [hm] at h1; cases h1
    | left i l =>
      simp only [Res.bind_eq_ok, Res.pure_eq, Res.ok.injEq] at hm
      obtain ⟨m', hm, rfl⟩ := hm
      rcases left_slice_map_right env IdxTy.usize (payload.map (fun e => (f e.1, e.2))) i (i + l)
        (by omega) (LeftSliceMap.built_long hm) bh with ⟨m₁, h1, h2⟩ | ⟨h1, _⟩
      · rw [hm] at h1; cases h1; exact h2.ofBytes hty hk
      · rw [hm] at h1; cases h1
    | right i l =>
      simp only [Res.bind_eq_ok, Res.pure_eq, Res.ok.injEq] at hm
      obtain ⟨m', hm, rfl⟩ := hm
      exfalso
      obtain ⟨rfl, hin⟩ := right_verdict_in_bounds hne' hlt hv
      obtain ⟨k, hk'⟩ := List.exists_mem_of_ne_nil _ hne'
      have hb : i + 1 < usz := lt_of_le_of_lt (hin k hk') (hlt k hk')
      exact RightSliceMap.fromVec_never_ok env (by omega) hb (by simpa using hne) bh _ hm

/-- A `FrozenMap` of any number of strings, once it is built. Missing from C68: that it is built,
which depends on the strings (C03), and as for `C68_common_map_partial`. -/
theorem C68_frozen_map_strings_partial [Target] (env : Env) (ty : KeyTy K) (hty : LawfulKey ty)
    (f : K → Bytes) (g : Bytes → K) (hk : ty.kind = .string f g) (payload : List (K × V))
    (hd : DistinctKeys ty.eq payload) (bh : Hasher) (m : FrozenMap K V)
    (hm : FrozenMap.new env ty payload bh = .ok m) :
    RightUpTo32 (frozenApi env ty) m ty.eq payload :=
  (frozen_map_strings_right env ty hty f g hk payload hd bh m hm).shows rfl

example := C68_frozen_map_strings_partial checkedEnv stringTy stringTy_lawful _ _ rfl exLen
  exLen_distinct demoHasher exMapLen exMapLen_ok

example (m : FrozenMap RString Nat) (hm : FrozenMap.new checkedEnv stringTy exLeft demoHasher = .ok m) :=
  C68_frozen_map_strings_partial checkedEnv stringTy stringTy_lawful _ _ rfl exLeft exLeft_distinct
    demoHasher m hm

/-- A set of strings that was built answers `contains` with whether `get` finds something. -/
theorem FrozenSet.contains_get_string [Target] {env : Env} {ty : KeyTy K} {f : K → Bytes}
    {g : Bytes → K} (hk : ty.kind = .string f g) {payload : List K} {bh : Hasher} {s : FrozenSet K}
    (hs : FrozenSet.new env ty payload bh = .ok s) (env' : Env) (x : K) :
    s.contains env' ty x = (s.get env' ty x).map Option.isSome := by
  have hB : ∀ r : Res (Option Bytes), r.map Option.isSome = (r.map ty.ofBT).map Option.isSome := by
    intro r
    unfold KeyTy.ofBT
    rw [hk]
    cases r <;> simp
  unfold FrozenSet.new at hs
  split at hs
  · cases hs; rfl
  · rw [hk] at hs
    simp only [FrozenSet.newStringSet] at hs
    rw [Res.bind_eq_ok] at hs
    obtain ⟨v, _, hs⟩ := hs
    split at hs
    · cases v <;>
      · simp only [Res.bind_eq_ok, Res.pure_eq, Res.ok.injEq] at hs
        obtain ⟨_, _, rfl⟩ := hs
        first | rfl | exact hB _
    · cases v <;>
      · simp only [Res.bind_eq_ok, Res.pure_eq, Res.ok.injEq] at hs
        obtain ⟨_, _, rfl⟩ := hs
        first | rfl | exact hB _

/-- A `FrozenSet` of any number of strings, once it is built. Missing from C68: as for
`C68_frozen_map_strings_partial`. -/
theorem C68_frozen_set_strings_partial [Target] (env : Env) (ty : KeyTy K) (hty : LawfulKey ty)
    (f : K → Bytes) (g : Bytes → K) (hk : ty.kind = .string f g) (payload : List K)
    (hd : Distinct ty.eq payload) (bh : Hasher) (s : FrozenSet K)
    (hs : FrozenSet.new env ty payload bh = .ok s) :
    SetRightUpTo32 ty.eq payload s.len (s.iter ty).items (s.get env ty) (s.contains env ty) := by
  have hmap := FrozenSet.new_toMap env ty payload bh
  have hd' : DistinctKeys ty.eq (unitPayload payload) := by
    unfold DistinctKeys unitPayload
    rw [List.pairwise_map]
    exact hd
  rw [hs] at hmap
  have h := frozen_map_strings_right env ty hty f g hk (unitPayload payload) hd' bh _ hmap.symm
  obtain ⟨h1, h2, h3⟩ := h.set
  rw [← FrozenSet.len_toMap] at h1
  rw [← FrozenSet.iter_toMap] at h2
  refine ⟨h1, h2, fun q => ?_⟩
  obtain ⟨o, k1, _, k3⟩ := h3 q
  beta_reduce at k1
  rw [← FrozenSet.get_toMap] at k1
  exact ⟨o, k1, by rw [FrozenSet.contains_get_string hk hs, k1]; rfl, k3⟩

example := C68_frozen_set_strings_partial checkedEnv stringTy stringTy_lawful _ _ rfl (exLen.map (·.1))
  (by unfold Distinct; decide +kernel) demoHasher _
  (Res.built (r := FrozenSet.new checkedEnv stringTy (exLen.map (·.1)) demoHasher) (by decide +kernel))

end FC
