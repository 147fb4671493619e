import Verif.Lemmas.TotalCost
import Verif.Lemmas.RightSlices

/-
Helper lemmas for C20 on maps that were built.
-/

set_option autoImplicit false

namespace FC
variable [Target]
variable {K V Q : Type}

/-- A probe is compared with at most one key more than the collisions that were reported. -/
theorem new_counted_le {env : Env} {S : IdxTy} {payload : List (K × V)} {hash : K → Res Nat}
    {t : HashTable K V} {r : HashAnalysis}
    (ht : HashTable.new env S payload r.numHashSlots hash = .ok t) (h32 : payload.length < 2 ^ 32)
    {code : K → Nat} (hcode : ∀ e ∈ payload, hash e.1 = .ok (code e.1))
    (hr : analyzeHashCodes (payload.map (fun e => code e.1)) = .ok r)
    (eq : Q → Q → Bool) (borrow : K → Q) (c : Nat) (q : Q) :
    ∃ o n, tableCounted eq borrow t c q = .ok (o, n) ∧ n ≤ 1 + r.numHashCollisions := by
  obtain ⟨hp, g, hg, hT, hn⟩ := HashTable.new_inv ht h32
  have hT' : TableOK code t := hT.congr (fun e he => by
    have he' := hp.mem_iff.1 he
    have := hg e he'
    rw [hcode e he'] at this
    exact (Res.ok.inj this).symm)
  exact tableCounted_analysis hT' hp hr (fun h => (hn h).1) eq borrow c q

/-- Left slice maps that were built. -/
theorem left_counted_le {env : Env} {S : IdxTy} {payload : List (Bytes × V)}
    {a b : Nat} (hab : a ≤ b) {bh : Hasher} {m : LeftSliceMap V}
    (hm : LeftSliceMap.fromVecWithHasher env S payload a b bh = .ok m)
    (h32 : payload.length < 2 ^ 32) {r : HashAnalysis}
    (hr : analyzeHashCodes (payload.map (fun e => bh [.write ((e.1.drop a).take (b - a))])) = .ok r)
    (q : Bytes) :
    ∃ o n, m.getKeyValueCounted q = .ok (o, n) ∧ n ≤ 1 + r.numHashCollisions := by
  have hlong := LeftSliceMap.built_long hm
  have hcodes : Res.mapList (fun e : Bytes × V => LeftSliceMap.analysisCode bh a b e.1) payload
      = .ok (payload.map (fun e => bh [.write (sub e.1 a b)])) := by
    apply Res.mapList_ok
    intro e he
    unfold LeftSliceMap.analysisCode
    rw [if_pos (hlong e he), sliceHash_ok hab (hlong e he)]
  unfold LeftSliceMap.fromVecWithHasher at hm
  simp only [Res.bind_eq_ok, Res.pure_eq, Res.ok.injEq] at hm
  obtain ⟨codes, hc, r', hr', t, ht, rfl⟩ := hm
  rw [hcodes] at hc
  cases hc
  have hrr : r' = r := Res.ok.inj (hr'.symm.trans hr)
  subst hrr
  have hcode : ∀ e ∈ payload, sliceHash bh e.1 a b = .ok (bh [.write (sub e.1 a b)]) :=
    fun e he => sliceHash_ok hab (hlong e he)
  have hq : LeftSliceMap.getKeyValueCounted ⟨t, bh, a, b⟩ q = tableCounted beq id t
      (if b ≤ q.length then bh [.write (sub q a b)] else 0) q := by
    unfold LeftSliceMap.getKeyValueCounted LeftSliceMap.getHashInfo tableCounted
    by_cases h : b ≤ q.length
    · rw [if_pos h, if_pos h, sliceHash_ok hab h]
      rfl
    · rw [if_neg h, if_neg h]
      rfl
  rw [hq]
  exact new_counted_le ht h32 (code := fun k => bh [.write (sub k a b)]) hcode hr' _ _ _ q

/-- A counted lookup seen through the conversions of a facade. -/
theorem counted_map {A B : Type} {r : Res (A × Nat)} {b : Nat} (f : A → B)
    (h : ∃ o n, r = .ok (o, n) ∧ n ≤ b) : ∃ o n, r.map (Prod.map f id) = .ok (o, n) ∧ n ≤ b := by
  obtain ⟨o, n, rfl, hn⟩ := h
  exact ⟨f o, n, rfl, hn⟩

end FC
