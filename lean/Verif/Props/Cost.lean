import Verif.Examples
import Verif.Lemmas.Cost
import Verif.Lemmas.Sets

/-
C20: how many stored keys a lookup compares with the probe.
-/

set_option autoImplicit false

namespace FC
variable {K V Q : Type}

/-- Counting does not change the lookup. -/
theorem CommonMap.counted_same (P : Probe K Q) (m : CommonMap K V) (q : Q) :
    (m.getKeyValueCounted P q).map Prod.fst = m.getKeyValue P q :=
  tableCounted_fst P.eq P.borrow m.table (m.bh (P.enc q)) q
theorem IntegerMap.counted_same (m : IntegerMap V) (q : Int) :
    (m.getKeyValueCounted q).map Prod.fst = m.getKeyValue q :=
  tableCounted_fst IntegerMap.ieq id m.table (asU64 q) q
theorem LengthMap.counted_same (borrow : K → Q) (eq : Q → Q → Bool) (lenQ : Q → Nat)
    (m : LengthMap K V) (q : Q) :
    (m.getKeyValueCounted borrow eq lenQ q).map Prod.fst = m.getKeyValue borrow eq lenQ q :=
  tableCounted_fst eq borrow m.table (lenQ q) q

theorem LeftSliceMap.counted_same (m : LeftSliceMap V) (q : Bytes) :
    (m.getKeyValueCounted q).map Prod.fst = m.getKeyValue q := by
  unfold LeftSliceMap.getKeyValueCounted LeftSliceMap.getKeyValue
  cases m.getHashInfo q with
  | ok r =>
    simp only [Res.ok_bind]
    cases sliceUnchecked m.table.entries r.1 r.2 with
    | ok es => simp [scanCounted_fst]
    | panic => rfl
    | ub => rfl
  | panic => rfl
  | ub => rfl

/-- General hash maps, any hasher, any equality. -/
theorem C20_common_map [Target] (env : Env) (S : IdxTy) (P : Probe K Q) (enc : K → List HCall)
    (payload : List (K × V)) (bh : Hasher) (m : CommonMap K V)
    (hm : CommonMap.fromVecWithHasher env S enc payload bh = .ok m) (h32 : payload.length < 2 ^ 32) (r : HashAnalysis)
    (hr : analyzeHashCodes (payload.map (fun e => bh (enc e.1))) = .ok r) (q : Q) :
    ∃ o n, m.getKeyValueCounted P q = .ok (o, n) ∧ m.getKeyValue P q = .ok o ∧
      n ≤ 1 + r.numHashCollisions := by
  unfold CommonMap.fromVecWithHasher at hm
  simp only [Res.bind_eq_ok, Res.pure_eq, Res.ok.injEq] at hm
  obtain ⟨r', hr', t, ht, rfl⟩ := hm
  rw [hr] at hr'
  cases hr'
  obtain ⟨hp, g, hg, hT, hn⟩ := HashTable.new_inv ht h32
  have hgk : payload.map (fun e => bh (enc e.1)) = payload.map (fun e => g e.1) := by
    apply List.map_congr_left
    intro e he
    have := hg e he
    simp only [Res.ok.injEq] at this
    exact this
  rw [hgk] at hr
  obtain ⟨o, n, h1, h2⟩ := tableCounted_analysis hT hp hr (fun h => (hn h).1) P.eq P.borrow (bh (P.enc q)) q
  have h3 := CommonMap.counted_same P ⟨t, bh⟩ q
  have h1' : (CommonMap.mk t bh).getKeyValueCounted P q = .ok (o, n) := h1
  rw [h1'] at h3
  exact ⟨o, n, h1', h3.symm, h2⟩

example := C20_common_map checkedEnv IdxTy.u8 otherTy.probe otherTy.enc exOther demoHasher exCommon
  exCommon_ok (by decide) ⟨9, 0⟩ (by decide +kernel) 70

theorem C20_integer_map [Target] (env : Env) (S : IdxTy) (payload : List (Int × V)) (m : IntegerMap V)
    (hm : IntegerMap.fromVec env S payload = .ok m) (h32 : payload.length < 2 ^ 32) (r : HashAnalysis)
    (hr : analyzeHashCodes (payload.map (fun e => asU64 e.1)) = .ok r) (q : Int) :
    ∃ o n, m.getKeyValueCounted q = .ok (o, n) ∧ m.getKeyValue q = .ok o ∧
      n ≤ 1 + r.numHashCollisions := by
  unfold IntegerMap.fromVec at hm
  simp only [Res.bind_eq_ok, Res.pure_eq, Res.ok.injEq] at hm
  obtain ⟨r', hr', t, ht, rfl⟩ := hm
  rw [hr] at hr'
  cases hr'
  obtain ⟨hp, g, hg, hT, hn⟩ := HashTable.new_inv ht h32
  have hgk : payload.map (fun e => asU64 e.1) = payload.map (fun e => g e.1) := by
    apply List.map_congr_left
    intro e he
    have := hg e he
    simp only [Res.ok.injEq] at this
    exact this
  rw [hgk] at hr
  obtain ⟨o, n, h1, h2⟩ := tableCounted_analysis hT hp hr (fun h => (hn h).1) IntegerMap.ieq id
    (asU64 q) q
  have h3 := IntegerMap.counted_same ⟨t⟩ q
  have h1' : (IntegerMap.mk t).getKeyValueCounted q = .ok (o, n) := h1
  rw [h1'] at h3
  exact ⟨o, n, h1', h3.symm, h2⟩

example := C20_integer_map checkedEnv IdxTy.u8 exOther exInteger exInteger_ok (by decide) _
  (Res.built (by decide +kernel)) 70

theorem C20_length_map [Target] (env : Env) (S : IdxTy) (borrow : K → Q) (eq : Q → Q → Bool)
    (lenK : K → Nat) (lenQ : Q → Nat) (payload : List (K × V)) (m : LengthMap K V)
    (hm : LengthMap.fromVec env S lenK payload = .ok m) (h32 : payload.length < 2 ^ 32) (r : HashAnalysis)
    (hr : analyzeHashCodes (payload.map (fun e => lenK e.1)) = .ok r) (q : Q) :
    ∃ o n, m.getKeyValueCounted borrow eq lenQ q = .ok (o, n) ∧
      m.getKeyValue borrow eq lenQ q = .ok o ∧ n ≤ 1 + r.numHashCollisions := by
  unfold LengthMap.fromVec at hm
  simp only [Res.bind_eq_ok, Res.pure_eq, Res.ok.injEq] at hm
  obtain ⟨r', hr', t, ht, rfl⟩ := hm
  rw [hr] at hr'
  cases hr'
  obtain ⟨hp, g, hg, hT, hn⟩ := HashTable.new_inv ht h32
  have hgk : payload.map (fun e => lenK e.1) = payload.map (fun e => g e.1) := by
    apply List.map_congr_left
    intro e he
    have := hg e he
    simp only [Res.ok.injEq] at this
    exact this
  rw [hgk] at hr
  obtain ⟨o, n, h1, h2⟩ := tableCounted_analysis hT hp hr (fun h => (hn h).1) eq borrow (lenQ q) q
  have h3 := LengthMap.counted_same borrow eq lenQ ⟨t⟩ q
  have h1' : (LengthMap.mk t).getKeyValueCounted borrow eq lenQ q = .ok (o, n) := h1
  rw [h1'] at h3
  exact ⟨o, n, h1', h3.symm, h2⟩

example := C20_length_map checkedEnv IdxTy.u8 id (fun a b : Bytes => decide (a = b)) List.length List.length
  exBytes exLengths exLengths_ok (by decide) _ (Res.built (by decide +kernel)) [121, 100]

/-- Left slice maps over keys that reach the end of the range; a probe shorter than the range is
compared with the keys whose slot is 0. -/
theorem C20_left_slice_map [Target] (env : Env) (S : IdxTy) (cap : Nat) (hS : S.capacity = some cap)
    (payload : List (Bytes × V)) (hcap : payload.length ≤ cap) (a b : Nat) (hab : a ≤ b)
    (hlong : ∀ e ∈ payload, b ≤ e.1.length) (bh : Hasher) (r : HashAnalysis)
    (hr : analyzeHashCodes (payload.map (fun e => bh [.write ((e.1.drop a).take (b - a))])) = .ok r) :
    ∃ m, LeftSliceMap.fromVecWithHasher env S payload a b bh = .ok m ∧
      ∀ q, ∃ o n, m.getKeyValueCounted q = .ok (o, n) ∧ m.getKeyValue q = .ok o ∧
        n ≤ 1 + r.numHashCollisions := by
  obtain ⟨m, h1, hOK, hbh, hst, hsp, hp, hn⟩ :=
    LeftSliceMap.fromVec_ok env hS hcap hab hlong bh
  refine ⟨m, h1, fun q => ?_⟩
  have hn' : payload ≠ [] → m.table.numSlots = r.numHashSlots := by
    intro hne
    obtain ⟨r', hr', hs⟩ := hn hne
    rw [show (fun e : Bytes × V => bh [.write (sub e.1 a b)])
      = fun e => bh [.write ((e.1.drop a).take (b - a))] from rfl, hr] at hr'
    cases hr'
    exact hs
  have hr' : analyzeHashCodes (payload.map
      (fun e => (fun k => m.bh [.write (sub k m.start m.stop)]) e.1)) = .ok r := by
    rw [hbh, hst, hsp]; exact hr
  have hcode : ∃ code, m.getHashInfo q = m.table.getHashInfo code := by
    unfold LeftSliceMap.getHashInfo
    by_cases hl : q.length ≥ m.stop
    · rw [if_pos hl, sliceHash_ok hOK.range hl]
      exact ⟨_, rfl⟩
    · rw [if_neg hl]
      exact ⟨_, rfl⟩
  obtain ⟨code, hcode⟩ := hcode
  obtain ⟨o, n, h2, h3⟩ := tableCounted_analysis hOK.table hp hr' hn' beq id code q
  have h4 : m.getKeyValueCounted q = .ok (o, n) := by
    unfold LeftSliceMap.getKeyValueCounted
    rw [hcode]
    exact h2
  have h5 := LeftSliceMap.counted_same m q
  rw [h4] at h5
  exact ⟨o, n, h4, h5.symm, h3⟩

example := C20_left_slice_map checkedEnv IdxTy.u8 255 (by decide) exBytes (by decide) 1 2 (by decide)
  exBytes_long demoHasher _ (Res.built (by decide +kernel))

/-- The linear scan, for comparison: at most every stored key. -/
theorem C20_scanning_map (P : Probe K Q) (payload : List (K × V)) (q : Q) :
    ∃ o n, (ScanningMap.fromVec payload).getKeyValueCounted P q = .ok (o, n) ∧
      (ScanningMap.fromVec payload).getKeyValue P q = .ok o ∧ n ≤ payload.length := by
  refine ⟨_, _, rfl, ?_, scanCounted_le _ _ _ _ _⟩
  rw [scanCounted_fst]
  rfl

/-- In terms of observable behaviour: for every probe there are at most `1 + collisions` stored keys
such that the answer is the same for every equality that agrees on these keys. -/
theorem C20_answer_depends_on_few_keys [Target] (env : Env) (S : IdxTy) (P : Probe K Q)
    (enc : K → List HCall) (payload : List (K × V)) (bh : Hasher) (m : CommonMap K V)
    (hm : CommonMap.fromVecWithHasher env S enc payload bh = .ok m) (h32 : payload.length < 2 ^ 32) (r : HashAnalysis)
    (hr : analyzeHashCodes (payload.map (fun e => bh (enc e.1))) = .ok r) (q : Q) :
    ∃ L : List K, L.length ≤ 1 + r.numHashCollisions ∧ (∀ k ∈ L, ∃ v, (k, v) ∈ payload) ∧
      ∀ eq' : Q → Q → Bool, (∀ k ∈ L, eq' q (P.borrow k) = P.eq q (P.borrow k)) →
        m.getKeyValue { P with eq := eq' } q = m.getKeyValue P q := by
  unfold CommonMap.fromVecWithHasher at hm
  simp only [Res.bind_eq_ok, Res.pure_eq, Res.ok.injEq] at hm
  obtain ⟨r', hr', t, ht, rfl⟩ := hm
  rw [hr] at hr'
  cases hr'
  obtain ⟨hp, g, hg, hT, hn⟩ := HashTable.new_inv ht h32
  have hgk : payload.map (fun e => bh (enc e.1)) = payload.map (fun e => g e.1) := by
    apply List.map_congr_left
    intro e he
    have := hg e he
    simp only [Res.ok.injEq] at this
    exact this
  rw [hgk] at hr
  obtain ⟨s, hs, hb1, hb2, hlook⟩ := tableLookup_safe hT.slotsOK P.eq P.borrow (bh (P.enc q)) q
  refine ⟨((t.entries.drop s.minIndex).take (s.maxIndex - s.minIndex)).map (·.1), ?_, ?_, ?_⟩
  · rw [List.length_map]
    exact (slot_size hT hs).trans (collisions_analysis hp hr (fun h => (hn h).1))
  · intro k hk
    obtain ⟨e, he, rfl⟩ := List.mem_map.1 hk
    exact ⟨e.2, hp.mem_iff.1 (List.mem_of_mem_drop (List.mem_of_mem_take he))⟩
  · intro eq' h'
    rw [CommonMap.getKV_lookup, CommonMap.getKV_lookup]
    obtain ⟨s', hs', _, _, hlook'⟩ := tableLookup_safe hT.slotsOK eq' P.borrow (bh (P.enc q)) q
    rw [hs] at hs'
    cases hs'
    simp only
    rw [hlook, hlook']
    congr 1
    exact scan_congr (fun e he => h' e.1 (List.mem_map.2 ⟨e, he, rfl⟩))

example := C20_answer_depends_on_few_keys checkedEnv IdxTy.u8 otherTy.probe otherTy.enc exOther demoHasher
  exCommon exCommon_ok (by decide) ⟨9, 0⟩ (by decide +kernel) 70

/-- A map whose analysis reports no collisions, and one where all keys collide. -/
example : analyzeHashCodes ((exOther).map (fun e => demoHasher (otherTy.enc e.1))) = .ok ⟨9, 0⟩ ∧
    (∃ m, CommonMap.fromVecWithHasher checkedEnv IdxTy.u8 otherTy.enc exOther demoHasher = .ok m) ∧
    analyzeHashCodes ((exOther).map (fun _ => 3)) = .ok ⟨5, 4⟩ :=
  ⟨by decide +kernel, Res.of_isOk (by decide +kernel), by decide +kernel⟩

end FC
