import Verif.Lemmas.Row
import Verif.Props.SelfEq
import Mathlib.Order.Interval.Finset.Basic
import Mathlib.Data.Int.Interval

/-
C77: range maps and range sets with repeated keys.
-/

set_option autoImplicit false

namespace FC
variable {K V T : Type}

/-! ### Helpers -/

theorem RangeShape.kv_row [Target] {t : IntTy} {m : IntegerRangeMap V} (hm : RangeShape t m) (oc : Bool)
    (q : Int) :
    m.getKeyValue oc t q = .ok (rowScan (placeIn m.min m.max) m.entries q) := by
  have h1 := hm.len
  have h2 := hm.fits
  have h3 := hm.usize
  have h0 := t.lo_le_zero
  unfold IntegerRangeMap.getKeyValue IntegerRangeMap.position rowScan placeIn
  by_cases hq : m.min ≤ q ∧ q ≤ m.max
  · rw [if_pos hq, if_pos hq]
    have ha : t.arith oc (q - m.min) = .ok (q - m.min) :=
      IntTy.arith_ok ⟨by omega, by omega⟩
    have hu : toUsize (q - m.min) = some (q - m.min).toNat := by
      unfold toUsize; rw [if_pos ⟨by omega, by omega⟩]
    have hlt : (q - m.min).toNat < m.entries.length := by omega
    simp only [ha, hu, Res.ok_bind, IntegerRangeMap.entryAt, List.getElem?_eq_getElem hlt,
      Res.pure_eq, Option.bind_some, Option.map_some]
  · rw [if_neg hq, if_neg hq]
    rfl

theorem range_rowMap [Target] (oc : Bool) (t : IntTy) (lo hi : Int) :
    RowMap (rangeApi (V := V) oc t) IntegerMap.ieq (placeIn lo hi)
      (fun m => RangeShape t m ∧ m.min = lo ∧ m.max = hi) (·.entries) where
  kv m q hm := by
    obtain ⟨h1, rfl, rfl⟩ := hm
    exact h1.kv_row oc q
  get m q hm := by
    obtain ⟨h1, rfl, rfl⟩ := hm
    show m.get oc t q = _
    rw [rangeGet_eq_kv, h1.kv_row oc q]
    rfl
  getMut _ _ := rfl
  contains _ _ := rfl
  index _ _ := rfl
  indexMut _ _ := rfl
  many _ _ := rfl
  len _ _ := rfl
  iter _ := rfl
  keys _ := rfl
  values _ := rfl
  inv_write m i v hm := by
    obtain ⟨h1, h2, h3⟩ := hm
    refine ⟨⟨?_, h1.fits, h1.usize⟩, h2, h3⟩
    have := h1.len
    simpa only [rangeApi, IntegerRangeMap.write, setVal_length] using this
  ents_write _ _ _ := rfl

theorem frozen_rowMap [Target] (env : Env) {ty : KeyTy K} (hty : LawfulKey ty) {f : K → Int}
    {g : Int → K} (hk : ty.kind = .u32 f g) (lo hi : Int) :
    RowMap (frozenApi (V := V) env ty) ty.eq (fun k => placeIn lo hi (f k))
      (fun m => ∃ r, m = .u32Range r ∧ RangeShape IntTy.u32 r ∧ r.min = lo ∧ r.max = hi)
      (·.entries ty) := by
  have htoInt : ∀ k, ty.toInt k = f k := fun k => by unfold KeyTy.toInt; rw [hk]
  have hkv : ∀ (r : IntegerRangeMap V) (k : K), RangeShape IntTy.u32 r →
      (FrozenMap.u32Range r : FrozenMap K V).getKeyValue env ty k
        = .ok (rowScan (fun k => placeIn r.min r.max (f k))
          ((FrozenMap.u32Range r : FrozenMap K V).entries ty) k) := by
    intro r k hr
    show ((r.getKeyValue env.oc IntTy.u32 (ty.toInt k)).map ty.ofIntKV) = _
    rw [htoInt, hr.kv_row, Res.map_ok]
    congr 1
    unfold rowScan
    simp only
    cases placeIn r.min r.max (f k) with
    | none => simp [KeyTy.ofIntKV, hk]
    | some i =>
      simp only [Option.bind_some, FrozenMap.entries, FrozenMap.ofIntEntries_getElem? hk]
      cases r.entries[i]? <;> simp [KeyTy.ofIntKV, hk]
  exact {
    kv := by rintro m k ⟨r, rfl, h1, rfl, rfl⟩; exact hkv r k h1
    get := by
      rintro m k ⟨r, rfl, h1, rfl, rfl⟩
      have hs : Safe ty (FrozenMap.u32Range r : FrozenMap K V) := Or.inr ⟨r, f, g, rfl, hk, h1⟩
      show (FrozenMap.u32Range r : FrozenMap K V).get env ty k = _
      rw [hs.get_kv hty, hkv r k h1]
      rfl
    getMut := fun m q => m.getMut_eq env ty q
    contains := fun _ _ => rfl
    index := fun _ _ => rfl
    indexMut := fun _ _ => rfl
    many := fun _ _ => rfl
    len := by
      rintro m ⟨r, rfl, h1, rfl, rfl⟩
      show r.entries.length = (ty.ofIntEntries r.entries).length
      unfold KeyTy.ofIntEntries
      rw [hk]
      simp
    iter := fun _ => rfl
    keys := fun _ => rfl
    values := fun _ => rfl
    inv_write := by
      rintro m i v ⟨r, rfl, h1, rfl, rfl⟩
      refine ⟨r.write i v, rfl, ⟨?_, h1.fits, h1.usize⟩, rfl, rfl⟩
      have := h1.len
      simpa only [IntegerRangeMap.write, setVal_length] using this
    ents_write := fun m i v => m.write_entries ty i v }

theorem sortedFrom_stableSort (key : K → Int) (p : List (K × V)) :
    SortedFrom key p (stableSortByKey (fun e => key e.1) p) :=
  ⟨stableSort_perm _ _, stableSort_sorted _ _, fun n => stableSort_filter _ _ n⟩

theorem rangeFromVec_row [Target] {t : IntTy} (hb : 0 < t.bits) {oc : Bool} {payload : List (Int × V)}
    {m : IntegerRangeMap V} (hne : payload ≠ []) (hr : ∀ e ∈ payload, t.InRange e.1)
    (h : IntegerRangeMap.fromVec oc t payload = .ok m) :
    RangeShape t m ∧ SortedFrom id payload m.entries ∧ IsMin (payload.map (·.1)) m.min ∧
      IsMax (payload.map (·.1)) m.max ∧ m.max - m.min = (payload.length : Int) - 1 := by
  obtain ⟨h1, h2, h3, h4, h5, h6⟩ := rangeFromVec_ok hb hne hr h
  refine ⟨⟨?_, h4, h5⟩, h6 ▸ sortedFrom_stableSort id payload, h1, h2, h3⟩
  rw [h6, (stableSort_perm _ _).length_eq]
  exact h3

theorem u32Range_row [Target] {env : Env} {ty : KeyTy K} (hty : LawfulKey ty) {f : K → Int}
    {g : Int → K} (hk : ty.kind = .u32 f g) {payload : List (K × V)}
    (hcap : payload.length < 2 ^ 32) {bh : Hasher} {r : IntegerRangeMap V}
    (h : FrozenMap.new env ty payload bh = .ok (.u32Range r)) :
    RangeShape IntTy.u32 r ∧
      SortedFrom f payload ((FrozenMap.u32Range r : FrozenMap K V).entries ty) ∧
      IsMin (payload.map (fun e => f e.1)) r.min ∧ IsMax (payload.map (fun e => f e.1)) r.max ∧
      r.max - r.min = (payload.length : Int) - 1 := by
  obtain ⟨f', g', hk', _, hent, hmin, hmax⟩ := u32Range_spans hty hcap h
  rw [hk] at hk'
  cases hk'
  obtain ⟨_, hshape⟩ := (new_built env hty hcap h).shape r rfl
  have hl := hty.kind
  rw [hk] at hl
  obtain ⟨hfg, _, _⟩ := hl
  have hd : (FrozenMap.u32Range r : FrozenMap K V).entries ty
      = stableSortByKey (fun e => f e.1) payload := by
    show ty.ofIntEntries r.entries = _
    unfold KeyTy.ofIntEntries
    rw [hk]
    simp only
    rw [hent]
    unfold stableSortByKey
    rw [← List.map_insertionSort (r := fun a b : K × V => f a.1 ≤ f b.1)
      (s := fun a b : Int × V => a.1 ≤ b.1) (f := fun e : K × V => (f e.1, e.2))
      (hl := fun a _ b _ => Iff.rfl), List.map_map]
    refine (List.map_congr_left ?_).trans (List.map_id _)
    intro e _
    simp [hfg]
  refine ⟨hshape, hd ▸ sortedFrom_stableSort f payload, hmin, hmax, ?_⟩
  have := hshape.len
  rw [hent, (stableSort_perm _ _).length_eq, List.length_map] at this
  exact this

/-- As many integers as an interval has, all in it: they are all of it exactly if none repeats. -/
theorem interval_all_iff_nodup {l : List Int} {a b : Int} (h : ∀ x ∈ l, a ≤ x ∧ x ≤ b)
    (hlen : (l.length : Int) = b - a + 1) : (∀ q, a ≤ q → q ≤ b → q ∈ l) ↔ l.Nodup := by
  have hsub : l.toFinset ⊆ Finset.Icc a b := by
    intro x hx
    rw [Finset.mem_Icc]
    exact h x (List.mem_toFinset.1 hx)
  have hcard : (Finset.Icc a b).card = l.length := by
    rw [Int.card_Icc]; omega
  constructor
  · intro hall
    rw [← Multiset.coe_nodup, ← Multiset.toFinset_card_eq_card_iff_nodup]
    have : (l : Multiset Int).toFinset = Finset.Icc a b := by
      apply Finset.Subset.antisymm
      · intro x hx
        rw [Finset.mem_Icc]
        exact h x (by simpa using hx)
      · intro x hx
        rw [Finset.mem_Icc] at hx
        simpa using hall x hx.1 hx.2
    rw [this, hcard, Multiset.coe_card]
  · intro hnd q h1 h2
    have : l.toFinset = Finset.Icc a b := by
      apply Finset.eq_of_subset_of_card_le hsub
      rw [hcard, List.toFinset_card_of_nodup hnd]
    rw [← List.mem_toFinset, this, Finset.mem_Icc]
    exact ⟨h1, h2⟩

/-! ### C77 -/

/-- Range maps, keys repeated or not: the pairs lie sorted in a row, and the probe `q` gets what lies
`q - smallest key` places from the start, whatever key that has. -/
theorem C77_range_map [Target] (oc oc' : Bool) (t : IntTy) (hb : 0 < t.bits)
    (payload : List (Int × V)) (hne : payload ≠ []) (hr : ∀ e ∈ payload, t.InRange e.1)
    (m : IntegerRangeMap V) (hm : IntegerRangeMap.fromVec oc t payload = .ok m) :
    ∃ (d : List (Int × V)) (lo hi : Int), SortedFrom id payload d ∧
      IsMin (payload.map (·.1)) lo ∧ IsMax (payload.map (·.1)) hi ∧
      hi - lo = (payload.length : Int) - 1 ∧
      IsRow (rangeApi oc' t) (fun a b => decide (a = b)) (placeIn lo hi) m d := by
  obtain ⟨h1, h2, h3, h4, h5⟩ := rangeFromVec_row hb hne hr hm
  exact ⟨m.entries, m.min, m.max, h2, h3, h4, h5, (range_rowMap oc' t m.min m.max).isRow ⟨h1, rfl, rfl⟩⟩

example := C77_range_map true false IntTy.i32 (by decide) [(5, 10), (2, 20), (2, 30), (5, 40)] (by decide)
  (by decide) _ (Res.built (by decide +kernel))

/-- Two range maps compare as their rows do, also after writes. With two different smallest or largest
keys they are unequal. -/
theorem C77_range_map_eq [Target] (oc oc' : Bool) (t : IntTy) (hb : 0 < t.bits) (veq : V → V → Bool)
    (p₁ p₂ : List (Int × V)) (hne₁ : p₁ ≠ []) (hne₂ : p₂ ≠ []) (hr₁ : ∀ e ∈ p₁, t.InRange e.1)
    (hr₂ : ∀ e ∈ p₂, t.InRange e.1) (m₁ m₂ : IntegerRangeMap V)
    (hm₁ : IntegerRangeMap.fromVec oc t p₁ = .ok m₁) (hm₂ : IntegerRangeMap.fromVec oc t p₂ = .ok m₂) :
    ∃ (d₁ d₂ : List (Int × V)) (lo₁ hi₁ lo₂ hi₂ : Int), SortedFrom id p₁ d₁ ∧ SortedFrom id p₂ d₂ ∧
      IsMin (p₁.map (·.1)) lo₁ ∧ IsMax (p₁.map (·.1)) hi₁ ∧ IsMin (p₂.map (·.1)) lo₂ ∧
      IsMax (p₂.map (·.1)) hi₂ ∧
      EqIsRow (rangeApi oc' t) (fun a b => decide (a = b)) (placeIn lo₁ hi₁) (placeIn lo₂ hi₂) veq
        m₁ m₂ d₁ d₂ := by
  obtain ⟨h1, h2, h3, h4, h5⟩ := rangeFromVec_row hb hne₁ hr₁ hm₁
  obtain ⟨k1, k2, k3, k4, k5⟩ := rangeFromVec_row hb hne₂ hr₂ hm₂
  exact ⟨m₁.entries, m₂.entries, m₁.min, m₁.max, m₂.min, m₂.max, h2, k2, h3, h4, k3, k4,
    (range_rowMap oc' t _ _).eqIsRow (range_rowMap oc' t _ _) veq ⟨h1, rfl, rfl⟩ ⟨k1, rfl, rfl⟩⟩

example := C77_range_map_eq true false IntTy.i32 (by decide) (· == ·) [(5, 10), (2, 20), (2, 30), (5, 40)]
  [(5, 10), (4, 20), (3, 30), (2, 40)] (by decide) (by decide) (by decide) (by decide) _ _
  (Res.built (by decide +kernel)) (Res.built (by decide +kernel))

/-- A range map finds a key it was not given exactly if some key was given more than once. -/
theorem C77_range_map_wrong_iff [Target] (oc oc' : Bool) (t : IntTy) (hb : 0 < t.bits)
    (payload : List (Int × V)) (hne : payload ≠ []) (hr : ∀ e ∈ payload, t.InRange e.1)
    (m : IntegerRangeMap V) (hm : IntegerRangeMap.fromVec oc t payload = .ok m) :
    (∃ q, m.containsKey oc' t q = .ok true ∧ q ∉ payload.map (·.1)) ↔
      ¬ (payload.map (·.1)).Nodup := by
  obtain ⟨h1, h2, h3, h4, h5⟩ := rangeFromVec_row hb hne hr hm
  have hc : ∀ q, m.containsKey oc' t q = .ok true ↔ m.min ≤ q ∧ q ≤ m.max := by
    intro q
    unfold IntegerRangeMap.containsKey
    rw [rangeGet_eq_kv, h1.kv_row, Res.map_ok, Res.map_ok]
    have hlen := h1.len
    unfold rowScan placeIn
    by_cases hq : m.min ≤ q ∧ q ≤ m.max
    · rw [if_pos hq]
      simp [List.getElem?_eq_getElem (show (q - m.min).toNat < m.entries.length by omega), hq]
    · rw [if_neg hq]
      simp [hq]
  simp only [hc]
  have hcnt := interval_all_iff_nodup (l := payload.map (·.1)) (a := m.min) (b := m.max)
    (fun x hx => ⟨h3.2 x hx, h4.2 x hx⟩) (by rw [List.length_map]; omega)
  rw [← hcnt]
  push Not
  constructor
  · rintro ⟨q, hq, hn⟩; exact ⟨q, hq.1, hq.2, hn⟩
  · rintro ⟨q, h1, h2, hn⟩; exact ⟨q, ⟨h1, h2⟩, hn⟩

example := C77_range_map_wrong_iff true false IntTy.i32 (by decide) [(5, 10), (2, 20), (2, 30), (5, 40)] (by decide)
  (by decide) _ (Res.built (by decide +kernel))

/-- `FrozenMap` over `u32` keys that span their number, repeated or not. -/
theorem C77_frozen_map [Target] (env env' : Env) (ty : KeyTy K) (hty : LawfulKey ty) (f : K → Int)
    (g : Int → K) (hk : ty.kind = .u32 f g) (payload : List (K × V))
    (hcap : payload.length < 2 ^ 32) (hfour : 4 ≤ payload.length) (hs : SpansCount f payload)
    (bh : Hasher) (m : FrozenMap K V) (hm : FrozenMap.new env ty payload bh = .ok m) :
    ∃ (d : List (K × V)) (lo hi : Int), SortedFrom f payload d ∧
      IsMin (payload.map (fun e => f e.1)) lo ∧ IsMax (payload.map (fun e => f e.1)) hi ∧
      hi - lo = (payload.length : Int) - 1 ∧
      IsRow (frozenApi env' ty) ty.eq (fun k => placeIn lo hi (f k)) m d := by
  obtain ⟨r, rfl⟩ := new_u32Range hty hk hcap hfour hs hm
  obtain ⟨h1, h2, h3, h4, h5⟩ := u32Range_row hty hk hcap hm
  exact ⟨_, r.min, r.max, h2, h3, h4, h5,
    (frozen_rowMap env' hty hk r.min r.max).isRow ⟨r, rfl, h1, rfl, rfl⟩⟩

example := C77_frozen_map checkedEnv releaseEnv u32Ty u32Ty_lawful _ _ rfl exDup (by decide) (by decide)
  (by unfold SpansCount; decide +kernel) demoHasher _ exDup_ok

/-- Two such maps compare as their rows do. -/
theorem C77_frozen_map_eq [Target] (env₁ env₂ env : Env) (ty : KeyTy K) (hty : LawfulKey ty)
    (f : K → Int) (g : Int → K) (hk : ty.kind = .u32 f g) (veq : V → V → Bool) (p₁ p₂ : List (K × V))
    (hc₁ : p₁.length < 2 ^ 32) (hc₂ : p₂.length < 2 ^ 32) (hf₁ : 4 ≤ p₁.length)
    (hf₂ : 4 ≤ p₂.length) (hs₁ : SpansCount f p₁) (hs₂ : SpansCount f p₂) (bh₁ bh₂ : Hasher)
    (m₁ m₂ : FrozenMap K V) (hm₁ : FrozenMap.new env₁ ty p₁ bh₁ = .ok m₁)
    (hm₂ : FrozenMap.new env₂ ty p₂ bh₂ = .ok m₂) :
    ∃ (d₁ d₂ : List (K × V)) (lo₁ hi₁ lo₂ hi₂ : Int), SortedFrom f p₁ d₁ ∧ SortedFrom f p₂ d₂ ∧
      IsMin (p₁.map (fun e => f e.1)) lo₁ ∧ IsMax (p₁.map (fun e => f e.1)) hi₁ ∧
      IsMin (p₂.map (fun e => f e.1)) lo₂ ∧ IsMax (p₂.map (fun e => f e.1)) hi₂ ∧
      EqIsRow (frozenApi env ty) ty.eq (fun k => placeIn lo₁ hi₁ (f k))
        (fun k => placeIn lo₂ hi₂ (f k)) veq m₁ m₂ d₁ d₂ := by
  obtain ⟨r₁, rfl⟩ := new_u32Range hty hk hc₁ hf₁ hs₁ hm₁
  obtain ⟨r₂, rfl⟩ := new_u32Range hty hk hc₂ hf₂ hs₂ hm₂
  obtain ⟨h1, h2, h3, h4, h5⟩ := u32Range_row hty hk hc₁ hm₁
  obtain ⟨k1, k2, k3, k4, k5⟩ := u32Range_row hty hk hc₂ hm₂
  exact ⟨_, _, r₁.min, r₁.max, r₂.min, r₂.max, h2, k2, h3, h4, k3, k4,
    (frozen_rowMap env hty hk _ _).eqIsRow (frozen_rowMap env hty hk _ _) veq
      ⟨r₁, rfl, h1, rfl, rfl⟩ ⟨r₂, rfl, k1, rfl, rfl⟩⟩

example := C77_frozen_map_eq checkedEnv checkedEnv releaseEnv u32Ty u32Ty_lawful _ _ rfl (· == ·) exDup
  exRange (by decide) (by decide) (by decide) (by decide) (by unfold SpansCount; decide +kernel)
  (by unfold SpansCount; decide +kernel) demoHasher demoHasher _ _ exDup_ok exMapRange_ok

theorem rangeSet_row [Target] {t : IntTy} (hb : 0 < t.bits) {oc : Bool} {p : List Int}
    {s : IntegerRangeSet} (hne : p ≠ []) (hr : ∀ x ∈ p, t.InRange x)
    (h : IntegerRangeSet.fromVec oc t p = .ok s) :
    RangeShape t s.map ∧ SortedFrom id (unitPayload p) s.map.entries ∧ IsMin p s.map.min ∧
      IsMax p s.map.max ∧ s.map.max - s.map.min = (p.length : Int) - 1 := by
  unfold IntegerRangeSet.fromVec at h
  simp only [Res.bind_eq_ok, Res.pure_eq, Res.ok.injEq] at h
  obtain ⟨m, hm, rfl⟩ := h
  have := rangeFromVec_row hb (payload := unitPayload p) (by simpa [unitPayload] using hne)
    (by intro e he; obtain ⟨x, hx, rfl⟩ := List.mem_map.1 he; exact hr x hx) hm
  rwa [unitPayload_keys, unitPayload_length] at this

theorem rangeSet_contains [Target] {t : IntTy} {m : IntegerRangeMap Unit} (h1 : RangeShape t m)
    (oc : Bool) (q : Int) :
    (IntegerRangeSet.mk m).contains oc t q = .ok (decide (m.min ≤ q ∧ q ≤ m.max)) := by
  unfold IntegerRangeSet.contains IntegerRangeSet.get keyOf
  rw [h1.kv_row, Res.map_ok, Res.map_ok]
  have hlen := h1.len
  unfold rowScan placeIn
  by_cases hq : m.min ≤ q ∧ q ≤ m.max
  · rw [if_pos hq]
    simp [List.getElem?_eq_getElem (show (q - m.min).toNat < m.entries.length by omega), hq]
  · rw [if_neg hq]
    simp [hq]

/-- Range sets, values repeated or not: the values lie sorted in a row; `contains` says yes from the
smallest to the largest value given, and `get` shows the value that lies at the place asked for. -/
theorem C77_range_set [Target] (oc oc' : Bool) (t : IntTy) (hb : 0 < t.bits) (p : List Int)
    (hne : p ≠ []) (hr : ∀ x ∈ p, t.InRange x) (s : IntegerRangeSet)
    (hs : IntegerRangeSet.fromVec oc t p = .ok s) :
    ∃ (d : List Int) (lo hi : Int), d.Perm p ∧ d.Pairwise (· ≤ ·) ∧ IsMin p lo ∧ IsMax p hi ∧
      hi - lo = (p.length : Int) - 1 ∧ s.iter.items = d ∧ s.len = p.length ∧
      ∀ q, s.contains oc' t q = .ok (decide (lo ≤ q ∧ q ≤ hi)) ∧
        s.get oc' t q = .ok ((placeIn lo hi q).bind (fun i => d[i]?)) := by
  obtain ⟨h1, h2, h3, h4, h5⟩ := rangeSet_row hb hne hr hs
  refine ⟨s.map.entries.map (·.1), s.map.min, s.map.max, ?_, ?_, h3, h4, h5, ?_, ?_, fun q => ⟨?_, ?_⟩⟩
  · have := h2.1.map (·.1)
    rwa [unitPayload_keys] at this
  · exact List.pairwise_map.2 h2.2.1
  · unfold IntegerRangeSet.iter
    rw [items_new]
  · show s.map.entries.length = _
    rw [h2.1.length_eq, unitPayload_length]
  · exact rangeSet_contains h1 oc' q
  · unfold IntegerRangeSet.get keyOf
    rw [h1.kv_row, Res.map_ok]
    congr 1
    unfold rowScan
    cases placeIn s.map.min s.map.max q with
    | none => rfl
    | some i =>
      simp only [Option.bind_some, List.getElem?_map, Option.map_map]
      rfl

example := C77_range_set true false IntTy.u8 (by decide) [5, 2, 2, 5] (by decide) (by decide) _
  (Res.built (by decide +kernel))

/-- Two range sets are equal exactly if their smallest values are equal and their largest values are.
So between range sets `==` is an equivalence, repeats or not. -/
theorem C77_range_set_eq [Target] (oc₁ oc₂ oc : Bool) (t : IntTy) (hb : 0 < t.bits) (p₁ p₂ : List Int)
    (hne₁ : p₁ ≠ []) (hne₂ : p₂ ≠ []) (hr₁ : ∀ x ∈ p₁, t.InRange x) (hr₂ : ∀ x ∈ p₂, t.InRange x)
    (s₁ s₂ : IntegerRangeSet) (hs₁ : IntegerRangeSet.fromVec oc₁ t p₁ = .ok s₁)
    (hs₂ : IntegerRangeSet.fromVec oc₂ t p₂ = .ok s₂) :
    ∃ b, (s₁.toSetI oc t).eq (s₂.toSetI oc t) = .ok b ∧
      (b = true ↔ ∃ lo hi, IsMin p₁ lo ∧ IsMin p₂ lo ∧ IsMax p₁ hi ∧ IsMax p₂ hi) := by
  obtain ⟨h1, h2, h3, h4, h5⟩ := rangeSet_row hb hne₁ hr₁ hs₁
  obtain ⟨k1, k2, k3, k4, k5⟩ := rangeSet_row hb hne₂ hr₂ hs₂
  have hlen₁ : s₁.map.entries.length = p₁.length := by rw [h2.1.length_eq, unitPayload_length]
  have hlen₂ : s₂.map.entries.length = p₂.length := by rw [k2.1.length_eq, unitPayload_length]
  have hiter : (s₁.toSetI oc t).iter = s₁.map.entries.map (·.1) := by
    simp only [IntegerRangeSet.toSetI, IntegerRangeSet.iter, items_new]
  have hmem : ∀ x, x ∈ (s₁.toSetI oc t).iter ↔ x ∈ p₁ := by
    intro x
    rw [hiter]
    have := (h2.1.map (·.1)).mem_iff (a := x)
    rwa [unitPayload_keys] at this
  unfold SetI.eq
  by_cases hl : (s₁.toSetI oc t).len = (s₂.toSetI oc t).len
  · rw [if_neg (by simpa using hl), Res.allList_ok (p := (s₂.toSetI oc t).contains)
      (f := fun x => decide (s₂.map.min ≤ x ∧ x ≤ s₂.map.max))
      (fun x _ => rangeSet_contains k1 oc x)]
    refine ⟨_, rfl, ?_⟩
    have hl' : p₁.length = p₂.length := by
      rw [← hlen₁, ← hlen₂]; exact hl
    rw [List.all_eq_true]
    constructor
    · intro h
      have ha := of_decide_eq_true (h _ ((hmem _).2 h3.1))
      have hb := of_decide_eq_true (h _ ((hmem _).2 h4.1))
      have e1 : s₁.map.min = s₂.map.min := by omega
      have e2 : s₁.map.max = s₂.map.max := by omega
      exact ⟨_, _, h3, e1 ▸ k3, h4, e2 ▸ k4⟩
    · rintro ⟨lo, hi, a1, a2, a3, a4⟩ x hx
      have e1 := isMin_unique a2 k3
      have e2 := isMax_unique a4 k4
      have := (hmem x).1 hx
      have b1 := a1.2 x this
      have b2 := a3.2 x this
      exact decide_eq_true ⟨by omega, by omega⟩
  · rw [if_pos (by simpa using hl)]
    refine ⟨false, rfl, ?_⟩
    simp only [Bool.false_eq_true, false_iff]
    rintro ⟨lo, hi, a1, a2, a3, a4⟩
    apply hl
    have e1 := isMin_unique a1 h3
    have e2 := isMax_unique a3 h4
    have e3 := isMin_unique a2 k3
    have e4 := isMax_unique a4 k4
    show s₁.map.entries.length = s₂.map.entries.length
    omega

example := C77_range_set_eq true true false IntTy.u8 (by decide) [5, 2, 2, 5] [2, 3, 4, 5] (by decide) (by decide)
  (by decide) (by decide) _ _ (Res.built (by decide +kernel)) (Res.built (by decide +kernel))

/-- `FrozenSet` over `u32` values that span their number, repeated or not. -/
theorem C77_frozen_set [Target] (env env' : Env) (ty : KeyTy T) (hty : LawfulKey ty) (f : T → Int)
    (g : Int → T) (hk : ty.kind = .u32 f g) (p : List T) (hcap : p.length < 2 ^ 32)
    (hfour : 4 ≤ p.length) (hs : SpansCount f (p.map (fun x => (x, ())))) (bh : Hasher)
    (s : FrozenSet T) (hm : FrozenSet.new env ty p bh = .ok s) :
    ∃ (d : List T) (lo hi : Int), d.Perm p ∧ d.Pairwise (fun x y => f x ≤ f y) ∧
      IsMin (p.map f) lo ∧ IsMax (p.map f) hi ∧ hi - lo = (p.length : Int) - 1 ∧
      (s.iter ty).items = d ∧ s.len = p.length ∧
      ∀ x, s.contains env' ty x = .ok (decide (lo ≤ f x ∧ f x ≤ hi)) ∧
        s.get env' ty x = .ok ((placeIn lo hi (f x)).bind (fun i => d[i]?)) := by
  have hmm := FrozenSet.new_ok hm
  have hl : (unitPayload p).length = p.length := unitPayload_length p
  obtain ⟨r, hr⟩ := new_u32Range (payload := unitPayload p) hty hk (by omega) (by omega) hs hmm
  rw [hr] at hmm
  obtain ⟨h1, h2, h3, h4, h5⟩ := u32Range_row hty hk (by omega) hmm
  have hkeys : (unitPayload p).map (fun e => f e.1) = p.map f := by
    unfold unitPayload; simp
  rw [hkeys] at h3 h4
  rw [hl] at h5
  have hsafe : Safe ty s.toMap := by rw [hr]; exact Or.inr ⟨r, f, g, rfl, hk, h1⟩
  have hkv := fun x => (frozen_rowMap (V := Unit) env' hty hk r.min r.max).kv (.u32Range r) x
    ⟨r, rfl, h1, rfl, rfl⟩
  have hents : ((FrozenMap.u32Range r : FrozenMap T Unit).entries ty).length = p.length := by
    rw [h2.1.length_eq, hl]
  refine ⟨((FrozenMap.u32Range r : FrozenMap T Unit).entries ty).map (·.1), r.min, r.max, ?_, ?_,
    h3, h4, h5, ?_, ?_, fun x => ⟨?_, ?_⟩⟩
  · have := h2.1.map (·.1)
    rwa [unitPayload_keys] at this
  · exact List.pairwise_map.2 h2.2.1
  · rw [FrozenSet.iter_toMap, hr, items_new]
  · rw [FrozenSet.len_toMap, hr]
    have := (frozen_rowMap (V := Unit) env' hty hk r.min r.max).len (.u32Range r)
      ⟨r, rfl, h1, rfl, rfl⟩
    exact this.trans hents
  · rw [FrozenSet.contains_toMap hsafe, hr]
    have := hkv x
    rw [show (FrozenMap.u32Range r : FrozenMap T Unit).getKeyValue env' ty x = _ from this, Res.map_ok]
    congr 1
    unfold rowScan placeIn
    simp only
    by_cases hq : r.min ≤ f x ∧ f x ≤ r.max
    · rw [if_pos hq]
      simp [List.getElem?_eq_getElem (show (f x - r.min).toNat
        < ((FrozenMap.u32Range r : FrozenMap T Unit).entries ty).length by omega), hq]
    · rw [if_neg hq]
      simp [hq]
  · rw [FrozenSet.get_toMap, hr]
    have := hkv x
    rw [show (FrozenMap.u32Range r : FrozenMap T Unit).getKeyValue env' ty x = _ from this]
    unfold keyOf
    rw [Res.map_ok]
    congr 1
    unfold rowScan
    simp only
    cases placeIn r.min r.max (f x) with
    | none => rfl
    | some i =>
      simp only [Option.bind_some, List.getElem?_map, Option.map_map]
      rfl

example := C77_frozen_set checkedEnv releaseEnv u32Ty u32Ty_lawful _ _ rfl [5, 2, 2, 5] (by decide) (by decide)
  ⟨(2, ()), by simp, (5, ()), by simp, by decide +kernel, by decide +kernel⟩ demoHasher _
  (Res.built (by decide +kernel))

/-! ### Non-vacuity -/

/-- Keys 5, 2, 2, 5: a range map is built, `get(&3)` finds the second value given for 2, and what is
written for 4 is then read for 4 but shown with key 5. -/
example : ∃ m, IntegerRangeMap.fromVec true IntTy.i32 [(5, 10), (2, 20), (2, 30), (5, 40)] = .ok m ∧
    ((rangeApi true IntTy.i32).run m [.get 3, .getMut 4 7, .getKeyValue 4, .iter]).map (·.1)
      = .ok [.value (some 30), .value (some 10), .entry (some (5, 7)),
          .items [(2, 20), (2, 30), (5, 7), (5, 40)]] ∧
    Row.run (fun a b => decide (a = b)) (placeIn 2 5) [(2, 20), (2, 30), (5, 10), (5, 40)]
        [.get 3, .getMut 4 7, .getKeyValue 4, .iter]
      = .ok ([.value (some 30), .value (some 10), .entry (some (5, 7)),
          .items [(2, 20), (2, 30), (5, 7), (5, 40)]], [(2, 20), (2, 30), (5, 7), (5, 40)]) ∧
    ¬ ([(5, 10), (2, 20), (2, 30), (5, 40)].map (·.1) : List Int).Nodup := by
  exact ⟨⟨2, 5, [(2, 20), (2, 30), (5, 10), (5, 40)]⟩, by rfl, by decide +kernel, by decide +kernel, by decide⟩

/-- The same keys as `u32`, in a `FrozenMap` and in a `FrozenSet`. -/
example : SpansCount (fun k : UInt32 => (k.toNat : Int)) [((5 : UInt32), 10), (2, 20), (2, 30), (5, 40)] ∧
    (FrozenMap.new checkedEnv u32Ty [((5 : UInt32), 10), (2, 20), (2, 30), (5, 40)] demoHasher).isOk ∧
    (FrozenSet.new checkedEnv u32Ty [(5 : UInt32), 2, 2, 5] demoHasher).isOk :=
  ⟨⟨(2, 20), by simp, (5, 10), by simp, by decide +kernel, by decide +kernel⟩, by decide +kernel,
    by decide +kernel⟩

/-- Range sets of 2, 2, 5, 5 and of 2, 3, 4, 5 are equal. -/
example : ∃ a b, IntegerRangeSet.fromVec true IntTy.u8 [5, 2, 2, 5] = .ok a ∧
    IntegerRangeSet.fromVec true IntTy.u8 [2, 3, 4, 5] = .ok b ∧
    (a.toSetI true IntTy.u8).eq (b.toSetI true IntTy.u8) = .ok true ∧
    (b.toSetI true IntTy.u8).eq (a.toSetI true IntTy.u8) = .ok true := by
  exact ⟨_, _, rfl, rfl, rfl, rfl⟩

end FC
