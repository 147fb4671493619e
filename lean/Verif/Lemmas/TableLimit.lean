import Verif.Lemmas.Maps

/-
What a hash table does with more entries than its `i32` counters can count.
-/

set_option autoImplicit false

namespace FC
variable [Target]

omit [Target] in
theorem prepItems_entries {K V : Type} {n : Nat} {hash : K → Res Nat} :
    ∀ {payload : List (K × V)} {prep : List (PrepItem K V)},
      Res.mapList (prepItem n hash) payload = .ok prep →
      prep.map PrepItem.entry = payload ∧ ∀ it ∈ prep, it.slot < n := by
  intro payload
  induction payload with
  | nil => intro prep h; cases h; exact ⟨rfl, by simp⟩
  | cons e es ih =>
    intro prep h
    simp only [Res.mapList] at h
    cases hp : prepItem n hash e with
    | ok it =>
      cases hm : Res.mapList (prepItem n hash) es with
      | ok its =>
        simp only [hp, hm] at h
        cases h
        have : it.entry = e ∧ it.slot < n := by
          unfold prepItem at hp
          cases hx : hash e.1 with
          | ok c =>
            cases hu : umod c n with
            | ok s =>
              simp only [hx, hu] at hp
              cases hp
              unfold umod at hu
              split at hu
              · cases hu
              · cases hu; exact ⟨rfl, Nat.mod_lt _ (by omega)⟩
            | panic => simp only [hx, hu] at hp; cases hp
            | ub => simp only [hx, hu] at hp; cases hp
          | panic => simp only [hx] at hp; cases hp
          | ub => simp only [hx] at hp; cases hp
        refine ⟨by rw [List.map_cons, this.1, (ih hm).1], fun x hx => ?_⟩
        rcases List.mem_cons.1 hx with rfl | hx
        · exact this.2
        · exact (ih hm).2 x hx
      | panic => simp only [hp, hm] at h; cases h
      | ub => simp only [hp, hm] at h; cases h
    | panic => simp only [hp] at h; cases h
    | ub => simp only [hp] at h; cases h

omit [Target] in
theorem fillLoop_ok_inv {K V : Type} {oc : Bool} {S : IdxTy} {item : PrepItem K V}
    {stack rest : List (PrepItem K V)} {slots : List Slot} {entries entries' : List (K × V)}
    {idx : Int} {n : Nat} {r : List Slot × List (K × V)}
    (hr : runLoop item.slot item stack entries 0 = (rest, entries', n))
    (h : fillLoop oc S (item :: stack) slots entries idx = .ok r) :
    ∃ slots' next num, fillLoop oc S rest slots' entries' next = .ok r ∧
      IntTy.i32.arith oc n = .ok num ∧ IntTy.i32.arith oc (idx + num) = .ok next := by
  rw [fillLoop] at h
  simp only [hr] at h
  generalize IntTy.i32.arith oc n = A at h ⊢
  cases A with
  | panic => cases h
  | ub => cases h
  | ok num =>
    simp only at h
    generalize S.ofI32 idx = B, S.ofI32 num = C at h
    cases B with
    | panic => cases h
    | ub => cases h
    | ok mn =>
      cases C with
      | panic => cases h
      | ub => cases h
      | ok cnt =>
        simp only at h
        generalize S.add oc mn cnt = E at h
        cases E with
        | panic => cases h
        | ub => cases h
        | ok mx =>
          simp only at h
          by_cases hs : item.slot < slots.length
          · simp only [if_pos hs] at h
            generalize hD : IntTy.i32.arith oc (idx + num) = D at h
            cases D with
            | panic => cases h
            | ub => cases h
            | ok next => exact ⟨_, _, _, h, rfl, hD⟩
          · simp only [if_neg hs] at h
            cases h

omit [Target] in
theorem fillLoop_entries {K V : Type} {oc : Bool} {S : IdxTy} :
    ∀ (m : Nat) (stack : List (PrepItem K V)), stack.length ≤ m →
    ∀ (slots : List Slot) (entries : List (K × V)) (idx : Int) (r : List Slot × List (K × V)),
      fillLoop oc S stack slots entries idx = .ok r →
      r.2 = entries ++ stack.map PrepItem.entry := by
  intro m
  induction m with
  | zero =>
    intro stack hm slots entries idx r h
    obtain rfl : stack = [] := List.eq_nil_of_length_eq_zero (by omega)
    rw [fillLoop] at h
    cases h
    simp
  | succ m ih =>
    intro stack hm slots entries idx r h
    cases stack with
    | nil => rw [fillLoop] at h; cases h; simp
    | cons item stack =>
      obtain ⟨taken, rest, rfl, hr, _, _⟩ := runLoop_spec item.slot stack item entries 0
      simp only [List.length_cons, List.length_append] at hm
      obtain ⟨slots', next, _, h', _⟩ := fillLoop_ok_inv hr h
      have := ih rest (by omega) _ _ _ _ h'
      simpa using this

omit [Target] in
theorem Res.mapList_no_ub {α β : Type} {f : α → Res β} {l : List α} (h : ∀ a ∈ l, f a ≠ .ub) :
    Res.mapList f l ≠ .ub := by
  induction l with
  | nil => simp [Res.mapList]
  | cons a as ih =>
    have ha := h a (by simp)
    have ih := ih (fun a ha => h a (by simp [ha]))
    simp only [Res.mapList]
    cases hf : f a with
    | ub => exact absurd hf ha
    | panic => simp
    | ok b =>
      cases hm : Res.mapList f as with
      | ub => exact absurd hm ih
      | panic => simp
      | ok bs => simp

omit [Target] in
theorem IntTy.i32_checked {x y : Int} (h : IntTy.i32.arith true x = .ok y) :
    y = x ∧ x < 2147483648 := by
  unfold IntTy.arith at h
  by_cases hx : IntTy.i32.InRange x
  · rw [if_pos hx] at h
    cases h
    rw [IntTy.i32_inRange] at hx
    exact ⟨rfl, by omega⟩
  · rw [if_neg hx] at h
    cases h

omit [Target] in
/-- With overflow checks the loop only completes if it never counts past `i32::MAX`. -/
theorem fillLoop_checked {K V : Type} {S : IdxTy} :
    ∀ (m : Nat) (stack : List (PrepItem K V)), stack.length ≤ m →
    ∀ (slots : List Slot) (entries : List (K × V)) (idx : Int) (r : List Slot × List (K × V)),
      idx < 2147483648 → fillLoop true S stack slots entries idx = .ok r →
      idx + stack.length < 2147483648 := by
  intro m
  induction m with
  | zero =>
    intro stack hm slots entries idx r hi _
    obtain rfl : stack = [] := List.eq_nil_of_length_eq_zero (by omega)
    simpa using hi
  | succ m ih =>
    intro stack hm slots entries idx r hi h
    cases stack with
    | nil => simpa using hi
    | cons item stack =>
      obtain ⟨taken, rest, rfl, hr, _, _⟩ := runLoop_spec item.slot stack item entries 0
      simp only [List.length_cons, List.length_append] at hm ⊢
      obtain ⟨slots', next, num, h', h1, h2⟩ := fillLoop_ok_inv hr h
      have e1 := IntTy.i32_checked h1
      have e2 := IntTy.i32_checked h2
      have := ih rest (by omega) _ _ _ _ (by omega) h'
      omega

/-- What is known of a completed table, whatever the number of entries. -/
theorem HashTable.new_result {K V : Type} {env : Env} {S : IdxTy} {payload : List (K × V)}
    {n : Nat} {hash : K → Res Nat} {t : HashTable K V}
    (h : HashTable.new env S payload n hash = .ok t) :
    t.entries.Perm payload ∧ SlotsOK t ∧ (env.oc = true → payload.length < 2 ^ 31) ∧
      t.slots.length = if payload = [] then 1 else n := by
  unfold HashTable.new at h
  cases he : payload.isEmpty with
  | true =>
    rw [he] at h
    cases h
    obtain rfl := List.isEmpty_iff.1 he
    refine ⟨.refl _, ⟨by simp, by simp, ?_⟩, by simp, by simp⟩
    intro i s hs
    cases i with
    | zero => simp at hs; subst hs; simp
    | succ i => simp at hs
  | false =>
    simp only [he, Bool.false_eq_true, if_false] at h
    cases hS : S.maxUsize with
    | none => rw [hS] at h; cases h
    | some cap =>
      obtain rfl := IdxTy.maxUsize_some hS
      simp only [hS, Res.unwrap, Res.ok_bind] at h
      by_cases hc : payload.length > S.max
      · rw [if_pos hc] at h; cases h
      · rw [if_neg hc] at h
        simp only [Res.bind_eq_ok] at h
        obtain ⟨prep, hprep, r, hr, h⟩ := h
        obtain ⟨hmap, hslot⟩ := prepItems_entries hprep
        have hperm := env.srt.perm PrepItem.slot prep
        have hlen : (env.srt.run PrepItem.slot prep).reverse.length = payload.length := by
          rw [List.length_reverse, hperm.length_eq, ← hmap, List.length_map]
        have hent := fillLoop_entries _ _ (Nat.le_refl _) _ _ _ _ hr
        have hpe : r.2.Perm payload := by
          rw [hent, ← hmap, List.nil_append]
          exact ((List.reverse_perm _).trans hperm).map _
        have hsafe := fillLoop_safe env.oc S n _ (env.srt.run PrepItem.slot prep).reverse
          (Nat.le_refl _) (List.replicate n ⟨0, 0⟩) [] 0
          (fun it hit => hslot it (hperm.mem_iff.1 (List.mem_reverse.1 hit))) (by simp)
          (by
            intro i s hs
            rw [List.getElem?_replicate] at hs
            split at hs
            · cases hs; simp
            · cases hs)
          (by rw [hlen]; simp; omega) (by omega) (by simp) (Or.inl rfl)
        rcases hsafe with ⟨slots', h1, h2, h3⟩ | ⟨h1, _⟩
        swap
        · rw [h1] at hr; cases hr
        rw [h1] at hr
        cases hr
        split at h
        · cases h
        · rename_i hne
          dsimp only at hne
          cases h
          refine ⟨hpe, ⟨by show 0 < slots'.length; omega, rfl, h3⟩, fun hoc => ?_, ?_⟩
          · rw [hoc] at h1
            have := fillLoop_checked _ _ (Nat.le_refl _) _ _ _ _ (by omega) h1
            rw [hlen] at this
            omega
          · rw [if_neg (by rintro rfl; simp at he)]
            exact h2

theorem HashTable.new_outcome {K V : Type} {env : Env} {S : IdxTy} {payload : List (K × V)}
    {n : Nat} {hash : K → Res Nat} {t : HashTable K V}
    (h : HashTable.new env S payload n hash = .ok t) :
    t.entries.Perm payload ∧ SlotsOK t ∧ (env.oc = true → payload.length < 2 ^ 31) :=
  let ⟨h1, h2, h3, _⟩ := HashTable.new_result h
  ⟨h1, h2, h3⟩

theorem HashTable.new_perm {K V : Type} {env : Env} {S : IdxTy} {payload : List (K × V)} {n : Nat}
    {hash : K → Res Nat} {t : HashTable K V} (h : HashTable.new env S payload n hash = .ok t) :
    t.entries.Perm payload := (HashTable.new_outcome h).1

/-- Building a table is never undefined behaviour of its own. -/
theorem HashTable.new_no_ub {K V : Type} {env : Env} {S : IdxTy} {payload : List (K × V)} {n : Nat}
    {hash : K → Res Nat} (hh : ∀ e ∈ payload, ∃ c, hash e.1 = .ok c) :
    HashTable.new env S payload n hash ≠ .ub := by
  intro h
  unfold HashTable.new at h
  cases he : payload.isEmpty with
  | true => rw [he] at h; cases h
  | false =>
    simp only [he, Bool.false_eq_true, if_false] at h
    cases hS : S.maxUsize with
    | none => rw [hS] at h; cases h
    | some cap =>
      obtain rfl := IdxTy.maxUsize_some hS
      simp only [hS, Res.unwrap, Res.ok_bind] at h
      by_cases hc : payload.length > S.max
      · rw [if_pos hc] at h; cases h
      · rw [if_neg hc] at h
        cases hprep : Res.mapList (prepItem n hash) payload with
        | panic => rw [hprep] at h; cases h
        | ub =>
          exact Res.mapList_no_ub (fun e he => by
            obtain ⟨c, hc⟩ := hh e he
            unfold prepItem umod
            rw [hc]
            by_cases hn : n = 0 <;> simp [hn]) hprep
        | ok prep =>
          rw [hprep] at h
          simp only [Res.ok_bind] at h
          obtain ⟨hmap, hslot⟩ := prepItems_entries hprep
          have hperm := env.srt.perm PrepItem.slot prep
          have hlen : (env.srt.run PrepItem.slot prep).reverse.length = payload.length := by
            rw [List.length_reverse, hperm.length_eq, ← hmap, List.length_map]
          have hsafe := fillLoop_safe env.oc S n _ (env.srt.run PrepItem.slot prep).reverse
            (Nat.le_refl _) (List.replicate n ⟨0, 0⟩) [] 0
            (fun it hit => hslot it (hperm.mem_iff.1 (List.mem_reverse.1 hit))) (by simp)
            (by
              intro i s hs
              rw [List.getElem?_replicate] at hs
              split at hs
              · cases hs; simp
              · cases hs)
            (by rw [hlen]; simp; omega) (by omega) (by simp) (Or.inl rfl)
          rcases hsafe with ⟨slots', h1, _⟩ | ⟨h1, _⟩
          · rw [h1] at h
            simp only [Res.ok_bind] at h
            split at h <;> cases h
          · rw [h1] at h; cases h

/-- A build with overflow checks refuses what it cannot count. -/
theorem HashTable.new_panics_checked {K V : Type} {env : Env} (hoc : env.oc = true) {S : IdxTy}
    {payload : List (K × V)} {n : Nat} {hash : K → Res Nat}
    (hh : ∀ e ∈ payload, ∃ c, hash e.1 = .ok c) (hbig : 2 ^ 31 ≤ payload.length) :
    HashTable.new env S payload n hash = .panic := by
  have hub : HashTable.new env S payload n hash ≠ .ub := HashTable.new_no_ub hh
  cases h : HashTable.new env S payload n hash with
  | ok t => exact absurd ((HashTable.new_outcome h).2.2 hoc) (by omega)
  | panic => rfl
  | ub => exact absurd h hub

/-- What a table refuses: more than the index type can number or, when overflow is checked, more than
its counters can count. -/
theorem HashTable.new_refuses {K V : Type} {env : Env} {S : IdxTy} {cap : Nat}
    (hS : S.capacity = some cap) {payload : List (K × V)} {n : Nat} {hash : K → Res Nat}
    (hh : ∀ e ∈ payload, ∃ c, hash e.1 = .ok c)
    (h : env.oc = true ∧ cap < payload.length ∨ S.max < payload.length) :
    HashTable.new env S payload n hash = .panic := by
  have hc := IdxTy.capacity_some hS
  by_cases hm : S.max < payload.length
  · exact HashTable.new_panics env (by rintro rfl; simp at hm) (Or.inr ⟨_, hc.1, hm⟩)
  · rcases h with ⟨hoc, h⟩ | h
    · refine HashTable.new_panics_checked hoc hh ?_
      unfold IdxTy.capacity at hS
      split at hS
      · cases hS; omega
      · cases hS
    · exact absurd h hm

theorem CommonMap.fromVec_refuses {K V : Type} {env : Env} {S : IdxTy} {cap : Nat}
    (hS : S.capacity = some cap) (enc : K → List HCall) {payload : List (K × V)} (bh : Hasher)
    (h : env.oc = true ∧ cap < payload.length ∨ S.max < payload.length) :
    CommonMap.fromVecWithHasher env S enc payload bh = .panic := by
  obtain ⟨r, hr, _⟩ := analyze_total (payload.map (fun e => bh (enc e.1)))
  unfold CommonMap.fromVecWithHasher
  simp [hr, HashTable.new_refuses (hash := fun k => .ok (bh (enc k))) hS (fun e _ => ⟨_, rfl⟩) h]

theorem IntegerMap.fromVec_refuses {V : Type} {env : Env} {S : IdxTy} {cap : Nat}
    (hS : S.capacity = some cap) {payload : List (Int × V)}
    (h : env.oc = true ∧ cap < payload.length ∨ S.max < payload.length) :
    IntegerMap.fromVec env S payload = .panic := by
  obtain ⟨r, hr, _⟩ := analyze_total (payload.map (fun e => asU64 e.1))
  unfold IntegerMap.fromVec
  simp [hr, HashTable.new_refuses (hash := fun k => .ok (asU64 k)) hS (fun e _ => ⟨_, rfl⟩) h]

theorem LengthMap.fromVec_refuses {K V : Type} {env : Env} {S : IdxTy} {cap : Nat}
    (hS : S.capacity = some cap) (lenK : K → Nat) {payload : List (K × V)}
    (h : env.oc = true ∧ cap < payload.length ∨ S.max < payload.length) :
    LengthMap.fromVec env S lenK payload = .panic := by
  obtain ⟨r, hr, _⟩ := analyze_total (payload.map (fun e => lenK e.1))
  unfold LengthMap.fromVec
  simp [hr, HashTable.new_refuses (hash := fun k => .ok (lenK k)) hS (fun e _ => ⟨_, rfl⟩) h]

theorem LeftSliceMap.fromVec_refuses {V : Type} {env : Env} {S : IdxTy} {cap : Nat}
    (hS : S.capacity = some cap) {payload : List (Bytes × V)} {a b : Nat} (hab : a ≤ b)
    (hlong : ∀ e ∈ payload, b ≤ e.1.length) (bh : Hasher)
    (h : env.oc = true ∧ cap < payload.length ∨ S.max < payload.length) :
    LeftSliceMap.fromVecWithHasher env S payload a b bh = .panic := by
  unfold LeftSliceMap.fromVecWithHasher
  have hcodes : ∀ e ∈ payload, LeftSliceMap.analysisCode bh a b e.1
      = .ok (bh [.write (sub e.1 a b)]) := by
    intro e he
    unfold LeftSliceMap.analysisCode
    rw [if_pos (hlong e he)]
    exact sliceHash_ok hab (hlong e he)
  rw [Res.mapList_ok (g := fun e => bh [.write (sub e.1 a b)]) hcodes]
  obtain ⟨r, hr, _⟩ := analyze_total (payload.map (fun e => bh [.write (sub e.1 a b)]))
  simp only [Res.ok_bind, hr]
  rw [HashTable.new_refuses (hash := fun k => sliceHash bh k a b) hS
    (fun e he => ⟨_, sliceHash_ok hab (hlong e he)⟩) h]
  rfl

end FC
