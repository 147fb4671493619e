import Verif.Lemmas.Lookup

/-
Which place a lookup designates, for every map reachable by construction and value writes.
-/

set_option autoImplicit false

namespace FC
variable [Target]
variable {K V : Type}

/-- Invariant of every reachable map: a reliable representation, or a range map whose bounds match
its entry count (all that is left when the payload repeats `u32` keys). -/
def Safe (ty : KeyTy K) (m : FrozenMap K V) : Prop :=
  Good ty m ∨ ∃ r f g, m = .u32Range r ∧ ty.kind = .u32 f g ∧ RangeShape IntTy.u32 r

theorem Built.safe {ty : KeyTy K} {payload : List (K × V)} {m : FrozenMap K V}
    (hb : Built ty payload m) : Safe ty m := by
  by_cases h : ∃ r, m = .u32Range r
  · obtain ⟨r, rfl⟩ := h
    obtain ⟨⟨f, g, hk⟩, hs⟩ := hb.shape r rfl
    exact Or.inr ⟨r, f, g, rfl, hk, hs⟩
  · exact Or.inl (hb.good (Or.inl (fun r hr => h ⟨r, hr⟩)))

theorem Safe.write {ty : KeyTy K} {m : FrozenMap K V} (hm : Safe ty m) (i : Nat) (v : V) :
    Safe ty (m.write i v) := by
  rcases hm with h | ⟨r, f, g, rfl, hk, hs⟩
  · exact Or.inl (h.write i v)
  · refine Or.inr ⟨r.write i v, f, g, rfl, hk, ⟨?_, hs.fits, hs.usize⟩⟩
    have := hs.len
    simp only [IntegerRangeMap.write, setVal_length]
    exact this

/-- The place of the entry a lookup finds. -/
def loc (ty : KeyTy K) (m : FrozenMap K V) (k : K) : Option Nat :=
  match m with
  | .u32Range r =>
    if r.min ≤ ty.toInt k ∧ ty.toInt k ≤ r.max then some (ty.toInt k - r.min).toNat else none
  | m => (scan ty.eq id k 0 (m.entries ty)).map (fun r => r.2.idx)

omit [Target] in
theorem loc_scan {ty : KeyTy K} {m : FrozenMap K V} (h : ∀ r, m ≠ .u32Range r) (k : K) :
    loc ty m k = (scan ty.eq id k 0 (m.entries ty)).map (fun r => r.2.idx) := by
  cases m <;> first | rfl | exact absurd rfl (h _)

omit [Target] in
theorem write_not_range {m : FrozenMap K V} (h : ∀ r, m ≠ .u32Range r) (i : Nat) (v : V) :
    ∀ r, m.write i v ≠ .u32Range r := by
  cases m <;> first | exact absurd rfl (h _) | (intro r; simp [FrozenMap.write])

omit [Target] in
/-- Writes do not move entries. -/
theorem loc_write (ty : KeyTy K) (m : FrozenMap K V) (i : Nat) (v : V) (k : K) :
    loc ty (m.write i v) k = loc ty m k := by
  by_cases h : ∃ r, m = .u32Range r
  · obtain ⟨r, rfl⟩ := h
    rfl
  · have h' : ∀ r, m ≠ .u32Range r := fun r hr => h ⟨r, hr⟩
    rw [loc_scan h', loc_scan (write_not_range h' i v), FrozenMap.write_entries, scan_setVal]
    simp only [Option.map_map]
    congr 1
    funext r
    simp only [Function.comp]
    split <;> rfl

omit [Target] in
theorem FrozenMap.ofIntEntries_getElem? {ty : KeyTy K} {f : K → Int} {g : Int → K}
    (hk : ty.kind = .u32 f g) (es : List (Int × V)) (i : Nat) :
    (ty.ofIntEntries es)[i]? = (es[i]?).map (fun e => (g e.1, e.2)) := by
  unfold KeyTy.ofIntEntries
  rw [hk]
  simp

/-- Every lookup on a safe map reads the entry at `loc`, which exists. -/
theorem Safe.kv {ty : KeyTy K} (hty : LawfulKey ty) {m : FrozenMap K V} (hm : Safe ty m)
    (env : Env) (k : K) :
    (loc ty m k = none ∧ m.getKeyValue env ty k = .ok none) ∨
    ∃ i e, loc ty m k = some i ∧ (m.entries ty)[i]? = some e ∧
      m.getKeyValue env ty k = .ok (some (e.1, ⟨i, e.2⟩)) := by
  by_cases h : ∃ r, m = .u32Range r
  · obtain ⟨r, rfl⟩ := h
    have hs : ∃ f g, ty.kind = .u32 f g ∧ RangeShape IntTy.u32 r := by
      rcases hm with h | ⟨r', f, g, hr, hk, hs⟩
      · obtain ⟨f, g, hk, hr, _⟩ := h
        refine ⟨f, g, hk, ?_, hr.fits, hr.usize⟩
        have := hr.max
        omega
      · cases hr; exact ⟨f, g, hk, hs⟩
    obtain ⟨f, g, hk, hs⟩ := hs
    have h1 := hs.len
    have h2 := hs.fits
    have h3 := hs.usize
    have h0 := IntTy.u32.lo_le_zero
    simp only [loc, FrozenMap.getKeyValue, IntegerRangeMap.getKeyValue, IntegerRangeMap.position,
      FrozenMap.entries]
    generalize ty.toInt k = q
    by_cases hq : r.min ≤ q ∧ q ≤ r.max
    · right
      have ha : IntTy.u32.arith env.oc (q - r.min) = .ok (q - r.min) :=
        IntTy.arith_ok ⟨by omega, by omega⟩
      have hu : toUsize (q - r.min) = some (q - r.min).toNat := by
        unfold toUsize; rw [if_pos ⟨by omega, by omega⟩]
      have hlt : (q - r.min).toNat < r.entries.length := by omega
      refine ⟨(q - r.min).toNat, (g r.entries[(q - r.min).toNat].1, r.entries[(q - r.min).toNat].2),
        by rw [if_pos hq], ?_, ?_⟩
      · rw [FrozenMap.ofIntEntries_getElem? hk, List.getElem?_eq_getElem hlt]; rfl
      · rw [if_pos hq]
        simp only [ha, hu, Res.ok_bind, IntegerRangeMap.entryAt, List.getElem?_eq_getElem hlt,
          Res.pure_eq, Res.map_ok, KeyTy.ofIntKV, hk, Option.map_some]
    · left
      rw [if_neg hq, if_neg hq]
      refine ⟨rfl, ?_⟩
      simp [KeyTy.ofIntKV, hk]
  · have h' : ∀ r, m ≠ .u32Range r := fun r hr => h ⟨r, hr⟩
    have hg : Good ty m := by
      rcases hm with h | ⟨r', f, g, hr, hk, hs⟩
      · exact h
      · exact absurd hr (h' r')
    rw [loc_scan h', hg.getKeyValue hty]
    cases hsc : scan ty.eq id k 0 (m.entries ty) with
    | none => exact Or.inl ⟨rfl, rfl⟩
    | some x =>
      obtain ⟨s, r⟩ := x
      obtain ⟨_, h2, _⟩ := scan_some hsc
      exact Or.inr ⟨r.idx, (s, r.val), rfl, by simpa using h2, rfl⟩

theorem Safe.get_kv {ty : KeyTy K} (hty : LawfulKey ty) {m : FrozenMap K V} (hm : Safe ty m)
    (env : Env) (k : K) :
    m.get env ty k = (m.getKeyValue env ty k).map (fun o => o.map (·.2)) := by
  rcases hm with h | ⟨r, f, g, rfl, hk, hs⟩
  · rw [h.get hty, h.getKeyValue hty]; rfl
  · obtain ⟨o, h1, h2⟩ := hs.total env.oc (ty.toInt k)
    simp only [FrozenMap.get, FrozenMap.getKeyValue, h1, h2, Res.map_ok, ofIntKV_snd hk]

/-- `get` in terms of `loc`. -/
theorem Safe.get_loc {ty : KeyTy K} (hty : LawfulKey ty) {m : FrozenMap K V} (hm : Safe ty m)
    (env : Env) (k : K) :
    m.get env ty k = .ok ((loc ty m k).bind fun i => ((m.entries ty)[i]?).map fun e => ⟨i, e.2⟩) := by
  rw [hm.get_kv hty]
  rcases hm.kv hty env k with ⟨h1, h2⟩ | ⟨i, e, h1, h2, h3⟩
  · rw [h1, h2]; rfl
  · rw [h1, h3]; simp [h2]

theorem Safe.loc_lt {ty : KeyTy K} (hty : LawfulKey ty) {m : FrozenMap K V} (hm : Safe ty m)
    {k : K} {i : Nat} (h : loc ty m k = some i) : i < (m.entries ty).length := by
  rcases hm.kv hty checkedEnv k with ⟨h1, _⟩ | ⟨j, e, h1, h2, _⟩
  · rw [h1] at h; cases h
  · rw [h1] at h; cases h
    exact (List.getElem?_eq_some_iff.1 h2).1

/-- Two probes that find the same place are equal. -/
theorem Safe.loc_inj {ty : KeyTy K} (hty : LawfulKey ty) {m : FrozenMap K V} (hm : Safe ty m)
    {k k' : K} {i : Nat} (h : loc ty m k = some i) (h' : loc ty m k' = some i) :
    ty.eq k k' = true := by
  by_cases hr : ∃ r, m = .u32Range r
  · obtain ⟨r, rfl⟩ := hr
    have hs : ∃ f g, ty.kind = .u32 f g := by
      rcases hm with h | ⟨r', f, g, hr, hk, hs⟩
      · obtain ⟨f, g, hk, _⟩ := h; exact ⟨f, g, hk⟩
      · exact ⟨f, g, hk⟩
    obtain ⟨f, g, hk⟩ := hs
    have hl := hty.kind
    rw [hk] at hl
    simp only [loc] at h h'
    split at h
    · split at h'
      · have e1 := Option.some.inj h
        have e2 := Option.some.inj h'
        rw [hl.2.2 k k']
        have e3 : ty.toInt k = ty.toInt k' := by omega
        simp only [KeyTy.toInt, hk] at e3
        exact decide_eq_true e3
      · simp at h'
    · simp at h
  · have hr' : ∀ r, m ≠ .u32Range r := fun r h => hr ⟨r, h⟩
    rw [loc_scan hr'] at h h'
    rw [Option.map_eq_some_iff] at h h'
    obtain ⟨⟨s, r⟩, hs, rfl⟩ := h
    obtain ⟨⟨s', r'⟩, hs', he⟩ := h'
    obtain ⟨_, a1, a2, _⟩ := scan_some hs
    obtain ⟨_, b1, b2, _⟩ := scan_some hs'
    simp only at he
    rw [he] at b1
    have hse := a1.symm.trans b1
    simp only [Option.some.injEq, Prod.mk.injEq] at hse
    rw [hse.1] at a2
    exact hty.eq.trans _ _ _ a2 (hty.eq.symm _ _ b2)

/-- Equal probes find the same place. -/
theorem Safe.loc_congr {ty : KeyTy K} (hty : LawfulKey ty) {m : FrozenMap K V} (hm : Safe ty m)
    {k k' : K} (h : ty.eq k k' = true) : loc ty m k = loc ty m k' := by
  by_cases hr : ∃ r, m = .u32Range r
  · obtain ⟨r, rfl⟩ := hr
    have hs : ∃ f g, ty.kind = .u32 f g := by
      rcases hm with h | ⟨r', f, g, hr, hk, hs⟩
      · obtain ⟨f, g, hk, _⟩ := h; exact ⟨f, g, hk⟩
      · exact ⟨f, g, hk⟩
    obtain ⟨f, g, hk⟩ := hs
    have hl := hty.kind
    rw [hk] at hl
    rw [hl.2.2 k k'] at h
    have h := of_decide_eq_true h
    simp only [loc, KeyTy.toInt, hk, h]
  · have hr' : ∀ r, m ≠ .u32Range r := fun r h => hr ⟨r, h⟩
    rw [loc_scan hr', loc_scan hr']
    congr 1
    refine scan_congr ?_
    intro e _
    simp only [id]
    cases hk' : ty.eq k' e.1 with
    | true => exact hty.eq.trans _ _ _ h hk'
    | false =>
      cases hk : ty.eq k e.1 with
      | false => rfl
      | true => rw [hty.eq.trans _ _ _ (hty.eq.symm _ _ h) hk] at hk'; simp at hk'

/-! ### Reachable maps -/

theorem Reachable.safe {env : Env} {ty : KeyTy K} (hty : LawfulKey ty) {payload : List (K × V)}
    (hcap : payload.length < 2 ^ 32) {bh : Hasher} {m : FrozenMap K V}
    (h : Reachable env ty payload bh m) : Safe ty m := by
  induction h with
  | new h => exact (new_built env hty hcap h).safe
  | write v _ _ ih => exact ih.write _ v

theorem Reachable.good {env : Env} {ty : KeyTy K} (hty : LawfulKey ty) {payload : List (K × V)}
    (hcap : payload.length < 2 ^ 32) {bh : Hasher} {m : FrozenMap K V}
    (hd : DistinctKeys ty.eq payload) (h : Reachable env ty payload bh m) : Good ty m := by
  induction h with
  | new h => exact (new_built env hty hcap h).good (Or.inr hd)
  | write v _ _ ih => exact ih.write _ v

/-- The keys never change: they are those of the payload, in some order. -/
theorem Reachable.keys {env : Env} {ty : KeyTy K} (hty : LawfulKey ty) {payload : List (K × V)}
    {bh : Hasher} {m : FrozenMap K V} (h : Reachable env ty payload bh m) :
    ((m.entries ty).map (·.1)).Perm (payload.map (·.1)) := by
  induction h with
  | new h => exact (new_perm env hty h).map _
  | write v _ _ ih => rw [FrozenMap.write_entries, setVal_keys]; exact ih

/-- `len` is the size of the payload, however large that is. -/
theorem Reachable.len {env : Env} {ty : KeyTy K} (hty : LawfulKey ty) {payload : List (K × V)}
    {bh : Hasher} {m : FrozenMap K V} (h : Reachable env ty payload bh m) :
    m.len = payload.length := by
  induction h with
  | new h => rw [new_len env h, (new_perm env hty h).length_eq]
  | @write m k r v _ _ ih =>
    rw [← ih]
    cases m <;> exact setVal_length _ _ _

/-- `len` is the number of entries. -/
theorem Safe.len {ty : KeyTy K} {m : FrozenMap K V} (hm : Safe ty m) :
    m.len = (m.entries ty).length := by
  rcases hm with h | ⟨r, f, g, rfl, hk, hs⟩
  · exact h.len
  · simp [FrozenMap.len, FrozenMap.entries, KeyTy.ofIntEntries, hk, IntegerRangeMap.len]

end FC
