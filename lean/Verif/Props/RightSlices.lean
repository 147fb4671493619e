import Verif.Examples
import Verif.Lemmas.RightSlices
import Verif.Lemmas.TableLimit
import Verif.Props.Limit
import Verif.Props.LimitSets
import Verif.Props.SpecializedMaps
import Verif.Props.TotalCost
import Verif.Props.Average
import Verif.Props.Cost

/-
C17, C20, C68, C72 and C84 for right slice maps and sets: those whose range is given in descending
order, the only ones that can be built from anything (C29).
-/

set_option autoImplicit false

namespace FC
variable {V : Type}

/-! ### C72 -/

/-- Right slice maps, whose codes are the hashes of the range counted from the end. An absent string too
short for the range is compared with the keys of the first slot. -/
theorem C72_right_slice_map [Target] (env : Env) (S : IdxTy) (payload : List (Bytes × V))
    (a b : Nat) (hne : payload = [] → b ≤ a) (ha : a < usz) (hb : b < usz) (bh : Hasher)
    (m : RightSliceMap V) (hm : RightSliceMap.fromVecWithHasher env S payload a b bh = .ok m)
    (h32 : payload.length < 2 ^ 32) (r : HashAnalysis)
    (hr : analyzeHashCodes (payload.map (fun e => bh [.write (beforeEnd a b e.1)])) = .ok r)
    (oc : Bool) :
    ((payload.map (·.1)).Nodup → FindsAll (m.getKeyValueCounted oc) payload (payload.length
      + sharing r.numHashSlots (payload.map (fun e => bh [.write (beforeEnd a b e.1)])))) ∧
    ∀ q, (∀ e ∈ payload, q ≠ e.1) →
      m.getKeyValueCounted oc q = .ok (none,
        ((payload.map (fun e => bh [.write (beforeEnd a b e.1)])).filter
        (fun d => d % r.numHashSlots = (if a ≤ q.length then bh [.write (beforeEnd a b q)]
          else 0) % r.numHashSlots)).length) := by
  obtain ⟨hba, hlong, _⟩ := RightSliceMap.built hne ha hb hm h32
  have hcodes := right_codes (oc := env.oc) (bh := bh) hba hlong
  unfold RightSliceMap.fromVecWithHasher at hm
  simp only [Res.bind_eq_ok, Res.pure_eq, Res.ok.injEq] at hm
  obtain ⟨codes, hc, r', hr', t, ht, rfl⟩ := hm
  rw [hcodes] at hc
  cases hc
  have hrr : r' = r := Res.ok.inj (hr'.symm.trans hr)
  subst hrr
  have hcode : ∀ e ∈ payload, RightSliceMap.rightHash env.oc bh e.1 a b
      = .ok (bh [.write (beforeEnd a b e.1)]) :=
    fun e he => rightHash_beforeEnd hba (hlong e he)
  have hd' : (payload.map (·.1)).Nodup →
      DistinctKeys (fun a b => beq (id a) (id b)) payload := by
    intro hd
    rw [List.Nodup, List.pairwise_map] at hd
    exact hd.imp (fun h => by simpa [beq] using h)
  refine ⟨fun hd => (new_finds_all ht h32 (code := fun k => bh [.write (beforeEnd a b k)]) hcode
    lawfulEq_decide (hd' hd)).congr (fun e he => ?_), fun q hn => ?_⟩
  · rw [right_counted hba, if_pos (hlong e he)]
    rfl
  · rw [right_counted hba]
    exact new_miss (eq := beq) (borrow := id) ht h32 (code := fun k => bh [.write (beforeEnd a b k)])
      hcode (fun e he => by simpa [beq] using hn e he) _

example := (C72_right_slice_map checkedEnv IdxTy.u8 exBytes 2 1 (by decide) (by decide) (by decide)
  demoHasher _ exRightSlice_ok (by decide) _ (Res.built (by decide +kernel)) true).1 exBytes_nodup

/-! ### C84 -/

/-- Right slice maps. -/
theorem C84_right_slice_map [Target] (env : Env) (S : IdxTy) (payload : List (Bytes × V))
    (a b : Nat) (hne : payload = [] → b ≤ a) (ha : a < usz) (hb : b < usz) (bh : Hasher)
    (m : RightSliceMap V) (hm : RightSliceMap.fromVecWithHasher env S payload a b bh = .ok m)
    (h32 : payload.length < 2 ^ 32) (oc : Bool) (N : Nat) :
    CheapMisses payload.length N (m.getKeyValueCounted oc)
      (fun q => if a ≤ q.length then bh [.write (beforeEnd a b q)] else 0)
      (fun q => ∀ e ∈ payload, q ≠ e.1) := by
  obtain ⟨r, hr, _⟩ := C18_bounds (payload.map (fun e => bh [.write (beforeEnd a b e.1)]))
  exact cheapMisses_of (by simp) hr
    (C72_right_slice_map env S payload a b hne ha hb bh m hm h32 r hr oc).2

example := C84_right_slice_map checkedEnv IdxTy.u8 exBytes 2 1 (by decide) (by decide) (by decide)
  demoHasher _ exRightSlice_ok (by decide) true (2 ^ 64)

/-! ### C20 -/

/-- Right slice maps over a range in descending order and keys that reach its start; a probe shorter than
that is compared with the keys whose slot is 0. -/
theorem C20_right_slice_map [Target] (env : Env) (S : IdxTy) (cap : Nat) (hS : S.capacity = some cap)
    (payload : List (Bytes × V)) (hcap : payload.length ≤ cap) (a b : Nat) (hba : b ≤ a)
    (hlong : ∀ e ∈ payload, a ≤ e.1.length) (bh : Hasher) (r : HashAnalysis)
    (hr : analyzeHashCodes (payload.map (fun e => bh [.write (beforeEnd a b e.1)])) = .ok r) :
    ∃ m, RightSliceMap.fromVecWithHasher env S payload a b bh = .ok m ∧
      ∀ oc q, ∃ o n, m.getKeyValueCounted oc q = .ok (o, n) ∧ m.getKeyValue oc q = .ok o ∧
        n ≤ 1 + r.numHashCollisions := by
  obtain ⟨r', hr', hpos⟩ := analyze_total (payload.map (fun e => bh [.write (beforeEnd a b e.1)]))
  rw [hr] at hr'
  cases hr'
  obtain ⟨T, hT, hOK, hperm, hn⟩ := HashTable.new_ok env hS hcap (n := r.numHashSlots)
    (fun h => hpos (by simpa using h)) (hash := fun k => RightSliceMap.rightHash env.oc bh k a b)
    (h := fun k => bh [.write (beforeEnd a b k)])
    (fun e he => rightHash_beforeEnd hba (hlong e he))
  refine ⟨⟨T, bh, a, b⟩, ?_, fun oc q => ?_⟩
  · unfold RightSliceMap.fromVecWithHasher
    simp [right_codes hba hlong, hr, hT]
  · obtain ⟨o, n, h2, h3⟩ := tableCounted_analysis hOK hperm hr hn beq id
      (if a ≤ q.length then bh [.write (beforeEnd a b q)] else 0) q
    rw [← right_counted (oc := oc) (bh := bh) hba] at h2
    refine ⟨o, n, h2, ?_, h3⟩
    have h5 : ((RightSliceMap.mk T bh a b).getKeyValueCounted oc q).map Prod.fst
        = (RightSliceMap.mk T bh a b).getKeyValue oc q := by
      unfold RightSliceMap.getKeyValueCounted RightSliceMap.getKeyValue
      cases (RightSliceMap.mk T bh a b).getHashInfo oc q with
      | ok s =>
        simp only [Res.ok_bind]
        cases sliceUnchecked T.entries s.1 s.2 with
        | ok es => simp [scanCounted_fst]
        | panic => rfl
        | ub => rfl
      | panic => rfl
      | ub => rfl
    rw [h2] at h5
    exact h5.symm

example := C20_right_slice_map checkedEnv IdxTy.u8 255 (by decide) exBytes (by decide) 2 1 (by decide)
  (by decide) demoHasher _ (Res.built (by decide +kernel))

/-! ### C17 -/

/-- Right slice maps over a range in descending order and keys that reach its start. -/
theorem C17_right_slice_map_partial [Target] (env : Env) (S : IdxTy) (cap : Nat)
    (hS : S.capacity = some cap) (payload : List (Bytes × V)) (a b : Nat) (hba : b ≤ a)
    (hlong : ∀ e ∈ payload, a ≤ e.1.length) (bh : Hasher) :
    (payload.length ≤ cap → ∃ m, RightSliceMap.fromVecWithHasher env S payload a b bh = .ok m ∧
      ∀ oc, ∀ e ∈ payload, ∃ r, m.get oc e.1 = .ok (some r)) ∧
    (env.oc = true ∧ cap < payload.length ∨ S.max < payload.length →
      RightSliceMap.fromVecWithHasher env S payload a b bh = .panic) := by
  refine ⟨fun h => ?_, fun h => ?_⟩
  · obtain ⟨m, hm, h2, _, _, _, hp⟩ := RightSliceMap.fromVec_ok env hS h hba hlong bh
    refine ⟨m, hm, fun oc e he => ?_⟩
    have hget := RightSliceMap.get_eq_kv oc m e.1
    rw [RightSliceMap.getKV_eq h2] at hget
    have hx := (exact_scan (eq := beq) (borrow := id) (q := e.1) hp)
    cases ho : scan beq id e.1 0 m.table.entries with
    | none =>
      rw [ho] at hx
      have := hx e he
      simp [beq] at this
    | some r => exact ⟨r.2, by rw [hget, ho]; rfl⟩
  · unfold RightSliceMap.fromVecWithHasher
    rw [right_codes hba hlong]
    obtain ⟨r, hr, _⟩ := analyze_total (payload.map (fun e => bh [.write (beforeEnd a b e.1)]))
    simp only [Res.ok_bind, hr]
    rw [HashTable.new_refuses (hash := fun k => RightSliceMap.rightHash env.oc bh k a b) hS
      (fun e he => ⟨_, rightHash_beforeEnd hba (hlong e he)⟩) h]
    rfl

example := C17_right_slice_map_partial checkedEnv IdxTy.u8 255 (by decide) exBytes 2 1 (by decide)
  (by decide) demoHasher

/-- Likewise right slice sets. -/
theorem C17_right_slice_set_partial [Target] (env : Env) (S : IdxTy) (cap : Nat)
    (hS : S.capacity = some cap) (payload : List Bytes) (a b : Nat) (hba : b ≤ a)
    (hlong : ∀ x ∈ payload, a ≤ x.length) (bh : Hasher) :
    (payload.length ≤ cap → ∃ s, RightSliceSet.fromVecWithHasher env S payload a b bh = .ok s ∧
      ∀ oc, ∀ x ∈ payload, s.contains oc x = .ok true) ∧
    (env.oc = true ∧ cap < payload.length ∨ S.max < payload.length →
      RightSliceSet.fromVecWithHasher env S payload a b bh = .panic) := by
  have hlong' : ∀ e ∈ unitPayload payload, a ≤ e.1.length := by
    intro e he
    obtain ⟨x, hx, rfl⟩ := List.mem_map.1 he
    exact hlong x hx
  have hmap := C17_right_slice_map_partial env S cap hS (unitPayload payload) a b hba hlong' bh
  rw [unitPayload_length] at hmap
  refine ⟨fun h => ?_, fun h => ?_⟩
  · obtain ⟨m, hm, hf⟩ := hmap.1 h
    refine ⟨⟨m⟩, by unfold RightSliceSet.fromVecWithHasher; rw [hm]; rfl, fun oc x hx => ?_⟩
    obtain ⟨r, hr⟩ := hf oc (x, ()) (List.mem_map.2 ⟨x, hx, rfl⟩)
    have hget := RightSliceMap.get_eq_kv oc m x
    rw [hr] at hget
    unfold RightSliceSet.contains RightSliceSet.get keyOf
    cases hk : m.getKeyValue oc x with
    | ok o =>
      rw [hk] at hget
      cases o with
      | none => simp at hget
      | some p => rfl
    | panic => rw [hk] at hget; simp at hget
    | ub => rw [hk] at hget; simp at hget
  · unfold RightSliceSet.fromVecWithHasher
    rw [hmap.2 h]
    rfl

example := C17_right_slice_set_partial checkedEnv IdxTy.u8 255 (by decide) (exBytes.map (·.1)) 2 1
  (by decide) (by decide) demoHasher

/-! ### C68 -/

theorem right_slice_map_right [Target] (env : Env) (S : IdxTy) (payload : List (Bytes × V))
    (a b : Nat) (hba : b ≤ a) (hlong : ∀ e ∈ payload, a ≤ e.1.length) (bh : Hasher) :
    (∃ m, RightSliceMap.fromVecWithHasher env S payload a b bh = .ok m ∧ ∀ oc,
      RightRaw (fun q k => decide (q = k)) payload m.len m.table.entries (m.getKeyValue oc) (m.get oc)
        (m.getMut oc) (m.containsKey oc)) ∨
    (RightSliceMap.fromVecWithHasher env S payload a b bh = .panic ∧ TooMany S payload.length) := by
  obtain ⟨r, hr, hpos⟩ := analyze_total (payload.map (fun e => bh [.write (beforeEnd a b e.1)]))
  rcases HashTable.new_panics_only (env := env) (S := S) (payload := payload) (n := r.numHashSlots)
    (hash := fun k => RightSliceMap.rightHash env.oc bh k a b)
    (h := fun k => bh [.write (beforeEnd a b k)])
    (fun h => hpos (by simpa using h)) (fun e he => rightHash_beforeEnd hba (hlong e he))
    with ⟨t, ht⟩ | ⟨ht, hb⟩
  · have hm : RightSliceMap.fromVecWithHasher env S payload a b bh = .ok ⟨t, bh, a, b⟩ := by
      unfold RightSliceMap.fromVecWithHasher
      simp only [right_codes hba hlong, Res.ok_bind, hr, ht]
      rfl
    have hp := HashTable.new_perm ht
    refine Or.inl ⟨_, hm, fun oc => ⟨hp.length_eq, hp, fun q => ?_⟩⟩
    obtain ⟨o, h1, h5⟩ := tableLookup_sound (HashTable.new_outcome ht).2.1 beq id
      (if a ≤ q.length then bh [.write (beforeEnd a b q)] else 0) q
    have h1' : (RightSliceMap.mk t bh a b).getKeyValue oc q = .ok o := by
      unfold RightSliceMap.getKeyValue
      rw [right_probe hba]
      exact h1
    have hg : (RightSliceMap.mk t bh a b).get oc q = .ok (o.map (·.2)) := by
      rw [RightSliceMap.get_eq_kv, h1']; rfl
    refine ⟨o, h1', hg, hg, by unfold RightSliceMap.containsKey; rw [hg]; simp,
      fun k r ho => ⟨mem_of_perm_getElem? hp (h5 k r ho).1, (h5 k r ho).2⟩, fun h32 => ?_⟩
    obtain ⟨_, g, hgg, hT, _⟩ := HashTable.new_inv ht h32
    have hOK : TableOK (fun k => bh [.write (sub k (k.length - a) (k.length - b))]) t := by
      refine TableOK.congr hT (fun e he => ?_)
      have hl := hlong e (hp.mem_iff.1 he)
      have h1 := hgg e (hp.mem_iff.1 he)
      rw [rightHash_ok hba hl] at h1
      exact Res.ok.inj h1.symm
    have hkv := RightSliceMap.getKV_eq (oc := oc) (m := ⟨t, bh, a, b⟩)
      ⟨hba, fun e he => hlong e (hp.mem_iff.1 he), hOK⟩ q
    rw [hkv] at h1'
    cases h1'
    exact exact_scan (eq := beq) hp
  · refine Or.inr ⟨?_, hb⟩
    unfold RightSliceMap.fromVecWithHasher
    simp only [right_codes hba hlong, Res.ok_bind, hr, ht]
    rfl

/-- Right slice maps over a range in descending order and keys that reach its start; probes of any
length. Missing from C68: the other ranges, which are out of bounds (C29), and as for
`C68_common_map_partial`. -/
theorem C68_right_slice_map_partial [Target] (env : Env) (S : IdxTy) (payload : List (Bytes × V))
    (a b : Nat) (hba : b ≤ a) (hlong : ∀ e ∈ payload, a ≤ e.1.length) (bh : Hasher) :
    (∃ m, RightSliceMap.fromVecWithHasher env S payload a b bh = .ok m ∧ ∀ oc,
      RightUpTo32 (rightApi oc) m (fun q k => decide (q = k)) payload) ∨
    (RightSliceMap.fromVecWithHasher env S payload a b bh = .panic ∧ TooMany S payload.length) := by
  rcases right_slice_map_right env S payload a b hba hlong bh with ⟨m, hm, h⟩ | h
  · exact Or.inl ⟨m, hm, fun oc => (h oc).shows rfl⟩
  · exact Or.inr h

example := C68_right_slice_map_partial checkedEnv IdxTy.u8 exBytes 2 1 (by decide) (by decide) demoHasher

/-- Likewise right slice sets. -/
theorem C68_right_slice_set_partial [Target] (env : Env) (S : IdxTy) (payload : List Bytes)
    (a b : Nat) (hba : b ≤ a) (hlong : ∀ x ∈ payload, a ≤ x.length) (bh : Hasher) :
    (∃ s, RightSliceSet.fromVecWithHasher env S payload a b bh = .ok s ∧ ∀ oc,
      SetRightUpTo32 (fun q k => decide (q = k)) payload s.len s.iter.items (s.get oc)
        (s.contains oc)) ∨
    (RightSliceSet.fromVecWithHasher env S payload a b bh = .panic ∧ TooMany S payload.length) := by
  rcases right_slice_map_right env S (unitPayload payload) a b hba
    (by intro e he; simp only [unitPayload, List.mem_map] at he
        obtain ⟨x, hx, rfl⟩ := he
        exact hlong x hx) bh with ⟨m, hm, h⟩ | ⟨hm, hb⟩
  · exact Or.inl ⟨⟨m⟩, by unfold RightSliceSet.fromVecWithHasher; rw [hm]; rfl, fun oc => (h oc).set⟩
  · exact Or.inr ⟨by unfold RightSliceSet.fromVecWithHasher; rw [hm]; rfl,
      by simpa [unitPayload] using hb⟩

example := C68_right_slice_set_partial checkedEnv IdxTy.u8 (exBytes.map (·.1)) 2 1 (by decide)
  (by decide) demoHasher

end FC
