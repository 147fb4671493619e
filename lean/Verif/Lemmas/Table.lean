import Verif.Lemmas.Scan

/-
The hash table construction establishes, and lookups rely on, one invariant.
-/

set_option autoImplicit false

namespace FC
variable [Target]
variable {K V Q : Type}

omit [Target] in
omit [Target] in
@[simp] theorem Res.ok_bind {α β : Type} (a : α) (f : α → Res β) : (Res.ok a >>= f) = f a := rfl
omit [Target] in
@[simp] theorem Res.panic_bind {α β : Type} (f : α → Res β) :
    ((Res.panic : Res α) >>= f) = .panic := rfl
omit [Target] in
omit [Target] in
@[simp] theorem Res.ub_bind {α β : Type} (f : α → Res β) : ((Res.ub : Res α) >>= f) = .ub := rfl
omit [Target] in
@[simp] theorem Res.pure_eq {α : Type} (a : α) : (pure a : Res α) = .ok a := rfl
omit [Target] in
@[simp] theorem Res.map_ok {α β : Type} (f : α → β) (a : α) : (Res.ok a).map f = .ok (f a) := rfl
omit [Target] in
@[simp] theorem Res.map_panic {α β : Type} (f : α → β) : (Res.panic : Res α).map f = .panic := rfl
omit [Target] in
@[simp] theorem Res.map_ub {α β : Type} (f : α → β) : (Res.ub : Res α).map f = .ub := rfl

omit [Target] in
theorem Res.bind_eq_ok {α β : Type} {x : Res α} {f : α → Res β} {b : β} :
    (x >>= f) = .ok b ↔ ∃ a, x = .ok a ∧ f a = .ok b := by
  cases x <;> simp

omit [Target] in
theorem Res.map_eq_ok {α β : Type} {x : Res α} {f : α → β} {b : β} :
    x.map f = .ok b ↔ ∃ a, x = .ok a ∧ f a = b := by
  cases x <;> simp

omit [Target] in
theorem Res.mapList_ok {α β : Type} {f : α → Res β} {g : α → β} {l : List α}
    (h : ∀ a ∈ l, f a = .ok (g a)) : Res.mapList f l = .ok (l.map g) := by
  induction l with
  | nil => rfl
  | cons a as ih =>
    simp only [Res.mapList, h a List.mem_cons_self,
      ih (fun b hb => h b (List.mem_cons_of_mem _ hb)), List.map_cons]

omit [Target] in
/-- If the mapped function returns on the whole list, it returned on every element. -/
theorem Res.mapList_eq_ok {α β : Type} {f : α → Res β} {l : List α} {bs : List β}
    (h : Res.mapList f l = .ok bs) : ∀ a ∈ l, ∃ b, f a = .ok b := by
  induction l generalizing bs with
  | nil => simp
  | cons a as ih =>
    simp only [Res.mapList] at h
    cases hf : f a with
    | ok b =>
      cases hm : Res.mapList f as with
      | ok bs' =>
        intro x hx
        rcases List.mem_cons.1 hx with rfl | hx
        · exact ⟨b, hf⟩
        · exact ih hm x hx
      | panic => simp [hf, hm] at h
      | ub => simp [hf, hm] at h
    | panic => simp [hf] at h
    | ub => simp [hf] at h

/-- Each slot designates exactly the entries that belong to it. -/
structure SlotInv (slotOf : K × V → Nat) (slots : List Slot) (entries : List (K × V)) : Prop where
  bounds : ∀ (i : Nat) (s : Slot), slots[i]? = some s → s.minIndex ≤ s.maxIndex ∧ s.maxIndex ≤ entries.length
  mem : ∀ (j : Nat) (e : K × V), entries[j]? = some e → ∀ (i : Nat) (s : Slot), slots[i]? = some s →
    (slotOf e = i ↔ s.minIndex ≤ j ∧ j < s.maxIndex)

/-- A well-formed hash table for hash function `h`. -/
structure TableOK (h : K → Nat) (T : HashTable K V) : Prop where
  pos : 0 < T.numSlots
  len : T.slots.length = T.numSlots
  inv : SlotInv (fun e => h e.1 % T.numSlots) T.slots T.entries

/-- A table each of whose slots designates some range of entries. -/
structure SlotsOK (T : HashTable K V) : Prop where
  pos : 0 < T.numSlots
  len : T.slots.length = T.numSlots
  bounds : ∀ (i : Nat) (s : Slot), T.slots[i]? = some s →
    s.minIndex ≤ s.maxIndex ∧ s.maxIndex ≤ T.entries.length

omit [Target] in
theorem TableOK.slotsOK {h : K → Nat} {T : HashTable K V} (hT : TableOK h T) : SlotsOK T :=
  ⟨hT.pos, hT.len, hT.inv.bounds⟩

omit [Target] in
theorem runLoop_spec (slot : Nat) (stack : List (PrepItem K V)) :
    ∀ (item : PrepItem K V) (entries : List (K × V)) (n : Nat),
      ∃ taken rest, stack = taken ++ rest ∧
        runLoop slot item stack entries n
          = (rest, entries ++ (item :: taken).map PrepItem.entry, n + (taken.length + 1)) ∧
        (∀ t ∈ taken, t.slot = slot) ∧ (∀ r, rest.head? = some r → r.slot ≠ slot) := by
  induction stack with
  | nil =>
    intro item entries n
    exact ⟨[], [], rfl, by simp [runLoop], by simp, by simp⟩
  | cons next stack ih =>
    intro item entries n
    unfold runLoop
    by_cases h : next.slot ≠ slot
    · rw [if_pos h]
      exact ⟨[], next :: stack, rfl, by simp, by simp, by simpa using h⟩
    · rw [if_neg h]
      obtain ⟨taken, rest, h1, h2, h3, h4⟩ := ih next (entries ++ [item.entry]) (n + 1)
      refine ⟨next :: taken, rest, by simp [h1], ?_, ?_, h4⟩
      · rw [h2]; simp; omega
      · intro t ht
        rcases List.mem_cons.1 ht with rfl | ht
        · simpa using h
        · exact h3 t ht

omit [Target] in
theorem IdxTy.ofI32_ok {S : IdxTy} {n : Nat} (h : n ≤ S.max) : S.ofI32 n = .ok n := by
  unfold IdxTy.ofI32
  rw [if_pos ⟨by omega, by omega⟩]
  rfl

omit [Target] in
theorem IntTy.i32_inRange {x : Int} : IntTy.i32.InRange x ↔ -2147483648 ≤ x ∧ x ≤ 2147483647 :=
  Iff.rfl

omit [Target] in
theorem IntTy.i32_arith_ok {oc : Bool} {n : Nat} (h : n < 2 ^ 31) :
    IntTy.i32.arith oc (n : Int) = .ok (n : Int) := by
  unfold IntTy.arith
  rw [if_pos (IntTy.i32_inRange.2 ⟨by omega, by omega⟩)]

omit [Target] in
theorem IntTy.i32_arith_add_ok {oc : Bool} {a b : Nat} (h : a + b < 2 ^ 31) :
    IntTy.i32.arith oc ((a : Int) + (b : Int)) = .ok ((a + b : Nat) : Int) := by
  rw [← Int.natCast_add]
  exact IntTy.i32_arith_ok h

theorem IdxTy.capacity_some {S : IdxTy} {cap : Nat} (h : S.capacity = some cap) :
    S.maxUsize = some S.max ∧ cap ≤ S.max ∧ cap < 2 ^ 31 := by
  unfold IdxTy.capacity at h
  split at h
  · next hlt =>
    have := Option.some.inj h
    exact ⟨if_pos hlt, by omega, by omega⟩
  · cases h

omit [Target] in
theorem IdxTy.add_ok {S : IdxTy} {oc : Bool} {a b : Nat} (h : a + b ≤ S.max) :
    S.add oc a b = .ok (a + b) := by simp [IdxTy.add, h]

omit [Target] in
theorem IntTy.i32_wrap (x : Int) :
    IntTy.i32.wrap x = (x + 2147483648) % 4294967296 - 2147483648 := by
  have hlo : IntTy.i32.lo = -2147483648 := rfl
  have hb : (2 : Int) ^ IntTy.i32.bits = 4294967296 := rfl
  unfold IntTy.wrap
  rw [hlo, hb]
  omega

omit [Target] in
/-- `i32` arithmetic never yields more than the exact result, unless that is below the type. -/
theorem IntTy.i32_arith_cases (oc : Bool) {x : Int} (hx : -2147483648 ≤ x) :
    (∃ y, IntTy.i32.arith oc x = .ok y ∧ -2147483648 ≤ y ∧ y ≤ x ∧ (x < 2147483648 → y = x)) ∨
      (IntTy.i32.arith oc x = .panic ∧ 2147483648 ≤ x) := by
  unfold IntTy.arith
  by_cases h : IntTy.i32.InRange x
  · rw [if_pos h]
    exact Or.inl ⟨x, rfl, hx, Int.le_refl _, fun _ => rfl⟩
  · rw [if_neg h]
    have hbig : 2147483648 ≤ x := by
      rw [IntTy.i32_inRange] at h
      omega
    cases oc with
    | true => exact Or.inr ⟨rfl, hbig⟩
    | false =>
      refine Or.inl ⟨_, rfl, ?_, ?_, ?_⟩ <;> rw [IntTy.i32_wrap] <;> omega

omit [Target] in
/-- The first time `i32` arithmetic wraps, the result is negative. -/
theorem IntTy.i32_arith_neg {oc : Bool} {x y : Int} (h : IntTy.i32.arith oc x = .ok y)
    (h1 : 2147483648 ≤ x) (h2 : x < 4294967296) : y < 0 := by
  unfold IntTy.arith at h
  rw [if_neg (by rw [IntTy.i32_inRange]; omega)] at h
  cases oc with
  | true => cases h
  | false =>
    cases h
    rw [IntTy.i32_wrap]
    omega

section
variable {oc : Bool} {S : IdxTy} {item : PrepItem K V} {stack rest : List (PrepItem K V)}
  {slots : List Slot} {entries entries' : List (K × V)} {idx num next : Int} {n mn cnt mx : Nat}

omit [Target] in
/-- One turn of the loop. -/
theorem fillLoop_turn (hr : runLoop item.slot item stack entries 0 = (rest, entries', n))
    (h1 : IntTy.i32.arith oc n = .ok num) (h2 : S.ofI32 idx = .ok mn) (h3 : S.ofI32 num = .ok cnt)
    (h4 : S.add oc mn cnt = .ok mx) (hs : item.slot < slots.length)
    (h5 : IntTy.i32.arith oc (idx + num) = .ok next) :
    fillLoop oc S (item :: stack) slots entries idx
      = fillLoop oc S rest (slots.set item.slot ⟨mn, mx⟩) entries' next := by
  rw [fillLoop]
  simp only [hr, h1, h2, h3, h4, h5, if_pos hs]

omit [Target] in
theorem fillLoop_panic1 (hr : runLoop item.slot item stack entries 0 = (rest, entries', n))
    (h1 : IntTy.i32.arith oc n = .panic) :
    fillLoop oc S (item :: stack) slots entries idx = .panic := by
  rw [fillLoop]
  simp only [hr, h1]

omit [Target] in
theorem fillLoop_panic2 (hr : runLoop item.slot item stack entries 0 = (rest, entries', n))
    (h1 : IntTy.i32.arith oc n = .ok num) (h2 : S.ofI32 idx = .panic) :
    fillLoop oc S (item :: stack) slots entries idx = .panic := by
  rw [fillLoop]
  simp only [hr, h1, h2]

omit [Target] in
theorem fillLoop_panic3 (hr : runLoop item.slot item stack entries 0 = (rest, entries', n))
    (h1 : IntTy.i32.arith oc n = .ok num) (h2 : S.ofI32 idx = .ok mn) (h3 : S.ofI32 num = .panic) :
    fillLoop oc S (item :: stack) slots entries idx = .panic := by
  rw [fillLoop]
  simp only [hr, h1, h2, h3]

omit [Target] in
theorem fillLoop_panic4 (hr : runLoop item.slot item stack entries 0 = (rest, entries', n))
    (h1 : IntTy.i32.arith oc n = .ok num) (h2 : S.ofI32 idx = .ok mn) (h3 : S.ofI32 num = .ok cnt)
    (h4 : S.add oc mn cnt = .ok mx) (h5 : IntTy.i32.arith oc (idx + num) = .panic) :
    fillLoop oc S (item :: stack) slots entries idx = .panic := by
  rw [fillLoop]
  simp only [hr, h1, h2, h3, h4, h5, ite_self]

end

omit [Target] in
theorem fillLoop_spec (oc : Bool) (S : IdxTy) (slotOf : K × V → Nat) (n : Nat) :
    ∀ (m : Nat) (stack : List (PrepItem K V)), stack.length ≤ m →
    ∀ (slots : List Slot) (entries : List (K × V)) (idx : Int),
      stack.Pairwise (fun a b => b.slot ≤ a.slot) →
      (∀ it ∈ stack, it.slot = slotOf it.entry ∧ it.slot < n) →
      slots.length = n →
      SlotInv slotOf slots entries →
      (∀ e ∈ entries, ∀ it ∈ stack, it.slot < slotOf e) →
      entries.length + stack.length ≤ S.max → entries.length + stack.length < 4294967296 →
      (idx = entries.length ∨ idx < 0 ∧ -2147483648 ≤ idx ∧ 2147483648 ≤ entries.length) →
      (∃ slots', fillLoop oc S stack slots entries idx
          = .ok (slots', entries ++ stack.map PrepItem.entry) ∧
        slots'.length = n ∧ SlotInv slotOf slots' (entries ++ stack.map PrepItem.entry)) ∨
      (fillLoop oc S stack slots entries idx = .panic ∧
        2147483648 ≤ entries.length + stack.length) := by
  intro m
  induction m with
  | zero =>
    intro stack hm slots entries idx _ _ hl hinv _ _ _ _
    have : stack = [] := List.length_eq_zero_iff.1 (by omega)
    subst this
    exact Or.inl ⟨slots, by simp [fillLoop], hl, by simpa using hinv⟩
  | succ m ih =>
    intro stack hm slots entries idx hsort hit hl hinv hlt hcap h32 hidx
    cases stack with
    | nil => exact Or.inl ⟨slots, by simp [fillLoop], hl, by simpa using hinv⟩
    | cons item stack =>
      obtain ⟨taken, rest, hst, hrun, htk, hrest⟩ := runLoop_spec item.slot stack item entries 0
      subst hst
      simp only [List.length_cons, List.length_append] at hm hcap h32
      have htot : (item :: (taken ++ rest)).length = taken.length + 1 + rest.length := by
        simp; omega
      have hitem := hit item List.mem_cons_self
      rw [Nat.zero_add] at hrun
      rcases IntTy.i32_arith_cases oc (x := ((taken.length + 1 : Nat) : Int)) (by omega) with
        ⟨num, h1, h2, h3, h4⟩ | ⟨h1, h2⟩
      swap
      · exact Or.inr ⟨fillLoop_panic1 hrun h1, by omega⟩
      by_cases hi : 0 ≤ idx
      swap
      · exact Or.inr ⟨fillLoop_panic2 hrun h1 (if_neg (by omega)), by omega⟩
      obtain rfl : idx = entries.length := hidx.resolve_right (by omega)
      by_cases hnum : (taken.length + 1 : Nat) < 2147483648
      swap
      · exact Or.inr ⟨fillLoop_panic3 hrun h1 (IdxTy.ofI32_ok (by omega)) (if_neg (by
          have := IntTy.i32_arith_neg h1 (by omega) (by omega)
          omega)), by omega⟩
      obtain rfl : num = (taken.length + 1 : Nat) := h4 (by omega)
      have hadd : S.add oc entries.length (taken.length + 1) = .ok (entries.length + (taken.length + 1)) :=
        IdxTy.add_ok (by omega)
      rcases IntTy.i32_arith_cases oc
          (x := (entries.length : Int) + ((taken.length + 1 : Nat) : Int)) (by omega) with
        ⟨next, k1, k2, k3, k4⟩ | ⟨k1, k2⟩
      swap
      · exact Or.inr ⟨fillLoop_panic4 hrun h1 (IdxTy.ofI32_ok (by omega)) (IdxTy.ofI32_ok (by omega))
          hadd k1, by omega⟩
      rw [fillLoop_turn hrun h1 (IdxTy.ofI32_ok (by omega)) (IdxTy.ofI32_ok (by omega)) hadd
        (by omega) k1]
      -- the strict order between the run and the rest
      have hp := List.pairwise_cons.1 hsort
      have hp2 := List.pairwise_append.1 hp.2
      have hrestlt : ∀ r ∈ rest, r.slot < item.slot := by
        intro r hr
        cases rest with
        | nil => simp at hr
        | cons r0 rs =>
          have h0 : r0.slot ≠ item.slot := hrest r0 (by simp)
          have h0le : r0.slot ≤ item.slot := hp.1 r0 (by simp)
          rcases List.mem_cons.1 hr with rfl | hr
          · omega
          · have := (List.pairwise_cons.1 hp2.2.1).1 r hr
            omega
      set entries' := entries ++ (item :: taken).map PrepItem.entry with hentries'
      have hlen' : entries'.length = entries.length + (taken.length + 1) := by
        simp [hentries']
      have hnew : ∀ e ∈ (item :: taken).map PrepItem.entry, slotOf e = item.slot := by
        intro e he
        obtain ⟨it, hit', rfl⟩ := List.mem_map.1 he
        rcases List.mem_cons.1 hit' with rfl | h
        · exact hitem.1.symm
        · rw [← (hit it (by simp [h])).1]; exact htk it h
      have hinv' : SlotInv slotOf
          (slots.set item.slot ⟨entries.length, entries.length + (taken.length + 1)⟩) entries' := by
        constructor
        · intro i s hs
          rw [List.getElem?_set] at hs
          split at hs
          · split at hs
            · simp at hs; subst hs; simp [hlen']
            · simp at hs
          · have := hinv.bounds i s hs
            omega
        · intro j e he i s hs
          rw [List.getElem?_set] at hs
          by_cases hj : j < entries.length
          · have heo : entries[j]? = some e := by
              rw [hentries', List.getElem?_append_left hj] at he; exact he
            have hne : item.slot < slotOf e :=
              hlt e (List.mem_of_getElem? heo) item List.mem_cons_self
            split at hs
            · rename_i hi
              split at hs
              · simp at hs; subst hs
                simp only
                constructor
                · intro h; omega
                · intro h; omega
              · simp at hs
            · exact hinv.mem j e heo i s hs
          · have hen : e ∈ (item :: taken).map PrepItem.entry := by
              rw [hentries', List.getElem?_append_right (by omega)] at he
              exact List.mem_of_getElem? he
            have hslot := hnew e hen
            have hjlt : j < entries'.length := (List.getElem?_eq_some_iff.1 he).1
            split at hs
            · rename_i hi
              split at hs
              · simp at hs; subst hs
                simp only
                constructor
                · intro _; omega
                · intro _; omega
              · simp at hs
            · rename_i hi
              have := hinv.bounds i s hs
              constructor
              · intro h; omega
              · intro h; omega
      have hrec := ih rest (by omega)
        (slots.set item.slot ⟨entries.length, entries.length + (taken.length + 1)⟩) entries' next
        hp2.2.1 (fun it h => hit it (by simp [h])) (by simpa using hl) hinv'
        (by
          intro e he it hitr
          have hr := hrestlt it hitr
          rw [hentries'] at he
          rcases List.mem_append.1 he with he | he
          · exact hlt e he it (by simp [hitr])
          · rw [hnew e he]; exact hr)
        (by omega) (by omega)
        (by
          by_cases hb : (entries.length : Int) + ((taken.length + 1 : Nat) : Int) < 2147483648
          · exact Or.inl (by rw [k4 hb]; omega)
          · exact Or.inr ⟨IntTy.i32_arith_neg k1 (by omega) (by omega), k2, by omega⟩)
      have hcat : entries ++ (item :: (taken ++ rest)).map PrepItem.entry
          = entries' ++ rest.map PrepItem.entry := by simp [hentries']
      rw [hcat]
      rcases hrec with h | ⟨h, hbig⟩
      · exact Or.inl h
      · exact Or.inr ⟨h, by omega⟩

/-- Every slot designates a range of entries. -/
def SlotsIn (slots : List Slot) (n : Nat) : Prop :=
  ∀ (i : Nat) (s : Slot), slots[i]? = some s → s.minIndex ≤ s.maxIndex ∧ s.maxIndex ≤ n

omit [Target] in
/-- The loop keeps every slot inside the entries and loses no entry, even if its counters overflow;
it panics only if they do. -/
theorem fillLoop_safe (oc : Bool) (S : IdxTy) (n : Nat) :
    ∀ (m : Nat) (stack : List (PrepItem K V)), stack.length ≤ m →
    ∀ (slots : List Slot) (entries : List (K × V)) (idx : Int),
      (∀ it ∈ stack, it.slot < n) → slots.length = n → SlotsIn slots entries.length →
      entries.length + stack.length ≤ S.max → -2147483648 ≤ idx → idx ≤ entries.length →
      (idx = entries.length ∨ 2147483648 ≤ entries.length + stack.length) →
      (∃ slots', fillLoop oc S stack slots entries idx
          = .ok (slots', entries ++ stack.map PrepItem.entry) ∧ slots'.length = n ∧
        SlotsIn slots' (entries ++ stack.map PrepItem.entry).length) ∨
      (fillLoop oc S stack slots entries idx = .panic ∧
        2147483648 ≤ entries.length + stack.length) := by
  intro m
  induction m with
  | zero =>
    intro stack hm slots entries idx _ hl hb _ _ _ _
    obtain rfl : stack = [] := List.eq_nil_of_length_eq_zero (by omega)
    exact Or.inl ⟨slots, by simp [fillLoop], hl, by simpa using hb⟩
  | succ m ih =>
    intro stack hm slots entries idx hs hl hb hcap hlo hhi hidx
    cases stack with
    | nil => exact Or.inl ⟨slots, by simp [fillLoop], hl, by simpa using hb⟩
    | cons item stack =>
      obtain ⟨taken, rest, rfl, hr, _, _⟩ := runLoop_spec item.slot stack item entries 0
      rw [Nat.zero_add] at hr
      simp only [List.length_cons, List.length_append] at hm hcap hidx
      have htot : (item :: (taken ++ rest)).length = taken.length + 1 + rest.length := by
        simp; omega
      have hlt : item.slot < slots.length := by rw [hl]; exact hs item (by simp)
      rcases IntTy.i32_arith_cases oc (x := ((taken.length + 1 : Nat) : Int)) (by omega) with
        ⟨num, h1, h2, h3, h4⟩ | ⟨h1, h2⟩
      swap
      · exact Or.inr ⟨fillLoop_panic1 hr h1, by omega⟩
      by_cases hi : 0 ≤ idx
      swap
      · exact Or.inr ⟨fillLoop_panic2 hr h1 (if_neg (by omega)), by omega⟩
      have hi' : S.ofI32 idx = .ok idx.toNat := if_pos ⟨hi, by omega⟩
      by_cases hn : 0 ≤ num
      swap
      · exact Or.inr ⟨fillLoop_panic3 hr h1 hi' (if_neg (by omega)), by omega⟩
      have hn' : S.ofI32 num = .ok num.toNat := if_pos ⟨hn, by omega⟩
      have hadd : S.add oc idx.toNat num.toNat = .ok (idx.toNat + num.toNat) :=
        IdxTy.add_ok (by omega)
      rcases IntTy.i32_arith_cases oc (x := idx + num) (by omega) with
        ⟨next, k1, k2, k3, k4⟩ | ⟨k1, k2⟩
      swap
      · exact Or.inr ⟨fillLoop_panic4 hr h1 hi' hn' hadd k1, by omega⟩
      rw [fillLoop_turn hr h1 hi' hn' hadd hlt k1]
      have hlen : (entries ++ (item :: taken).map PrepItem.entry).length
          = entries.length + (taken.length + 1) := by simp
      have hcat : (entries ++ (item :: taken).map PrepItem.entry) ++ rest.map PrepItem.entry
          = entries ++ (item :: (taken ++ rest)).map PrepItem.entry := by simp
      have := ih rest (by omega) (slots.set item.slot ⟨idx.toNat, idx.toNat + num.toNat⟩)
        (entries ++ (item :: taken).map PrepItem.entry) next
        (fun it hit => hs it (by simp [hit])) (by simp [hl])
        (by
          intro i s hi
          rw [List.getElem?_set] at hi
          split at hi
          · cases hi
            simp only [hlen]
            omega
          · have := hb i s hi
            omega)
        (by omega) k2 (by omega) (by omega)
      rw [hcat] at this
      rcases this with h | ⟨h, hbig⟩
      · exact Or.inl h
      · exact Or.inr ⟨h, by omega⟩

omit [Target] in
theorem prepItem_ok {n : Nat} (hn : 0 < n) {hash : K → Res Nat} {h : K → Nat} {e : K × V}
    (hh : hash e.1 = .ok (h e.1)) : prepItem n hash e = .ok ⟨h e.1 % n, e⟩ := by
  unfold prepItem umod
  rw [hh]
  simp only
  rw [if_neg (by omega)]

/-- Construction yields a well-formed table holding exactly the payload, or panics because there
are too many entries to count. -/
theorem HashTable.new_cases (env : Env) {S : IdxTy} (hS : S.maxUsize = some S.max)
    {payload : List (K × V)} (hcap : payload.length ≤ S.max) (h32 : payload.length < 4294967296)
    {n : Nat} (hn : payload ≠ [] → 0 < n)
    {hash : K → Res Nat} {h : K → Nat} (hh : ∀ e ∈ payload, hash e.1 = .ok (h e.1)) :
    (∃ T, HashTable.new env S payload n hash = .ok T ∧ TableOK h T ∧ T.entries.Perm payload ∧
      (payload ≠ [] → T.numSlots = n)) ∨
    (HashTable.new env S payload n hash = .panic ∧ 2147483648 ≤ payload.length) := by
  unfold HashTable.new
  by_cases he : payload = []
  · subst he
    refine Or.inl ⟨⟨1, [⟨0, 0⟩], []⟩, by simp, ⟨by simp, by simp, ⟨?_, ?_⟩⟩, by simp, by simp⟩
    · intro i s hs
      cases i with
      | zero => simp at hs; subst hs; simp
      | succ i => simp at hs
    · intro j e he; simp at he
  · have hn' := hn he
    have hemp : payload.isEmpty = false := by simpa using he
    rw [hemp, hS]
    simp only [Bool.false_eq_true, if_false, Res.unwrap, Res.ok_bind]
    rw [if_neg (by omega)]
    rw [Res.mapList_ok (g := fun e => ⟨h e.1 % n, e⟩) (fun e hm => prepItem_ok hn' (hh e hm))]
    simp only [Res.ok_bind]
    set prep := payload.map (fun e => (⟨h e.1 % n, e⟩ : PrepItem K V)) with hprep
    set sorted := env.srt.run PrepItem.slot prep with hsorted
    have hperm : sorted.Perm prep := env.srt.perm _ _
    have hpair : sorted.Pairwise (fun a b => a.slot ≤ b.slot) := env.srt.sorted _ _
    have hperm' : sorted.reverse.Perm prep := (List.reverse_perm _).trans hperm
    have hlen : sorted.reverse.length = payload.length := by
      rw [hperm'.length_eq, hprep, List.length_map]
    have hfill := fillLoop_spec env.oc S (fun e : K × V => h e.1 % n) n
      sorted.reverse.length sorted.reverse le_rfl (List.replicate n ⟨0, 0⟩) [] 0
      (List.pairwise_reverse.2 hpair)
      (by
        intro it hit
        have := hperm'.mem_iff.1 hit
        rw [hprep] at this
        obtain ⟨e, _, rfl⟩ := List.mem_map.1 this
        exact ⟨rfl, Nat.mod_lt _ hn'⟩)
      (by simp)
      ⟨by
        intro i s hs
        rw [List.getElem?_replicate] at hs
        split at hs <;> simp at hs
        subst hs; simp, by intro j e he; simp at he⟩
      (by simp) (by rw [hlen]; simp; omega) (by rw [hlen]; simp; omega) (Or.inl rfl)
    rcases hfill with ⟨slots', hf, hl, hinv⟩ | ⟨hf, hbig⟩
    swap
    · rw [hf]
      rw [hlen, List.length_nil] at hbig
      exact Or.inr ⟨rfl, by omega⟩
    simp only [List.nil_append] at hf hinv
    rw [hf]
    simp only [Res.ok_bind]
    rw [if_neg (by omega)]
    refine Or.inl ⟨_, rfl, ⟨by simp; omega, rfl, ?_⟩, ?_, fun _ => hl⟩
    · simp only
      rw [hl]
      exact hinv
    · simp only
      have := hperm'.map PrepItem.entry
      rw [hprep, List.map_map] at this
      simpa [Function.comp_def] using this

/-- Construction succeeds and yields a well-formed table holding exactly the payload. -/
theorem HashTable.new_ok (env : Env) {S : IdxTy} {cap : Nat} (hS : S.capacity = some cap)
    {payload : List (K × V)} (hcap : payload.length ≤ cap) {n : Nat} (hn : payload ≠ [] → 0 < n)
    {hash : K → Res Nat} {h : K → Nat} (hh : ∀ e ∈ payload, hash e.1 = .ok (h e.1)) :
    ∃ T, HashTable.new env S payload n hash = .ok T ∧ TableOK h T ∧ T.entries.Perm payload ∧
      (payload ≠ [] → T.numSlots = n) := by
  obtain ⟨hmu, hmax, h31⟩ := IdxTy.capacity_some hS
  exact (HashTable.new_cases env hmu (by omega) (by omega) hn hh).resolve_right
    (by rintro ⟨_, h⟩; omega)

/-- The lookup shared by all hash-based maps. -/
def tableLookup (eq : Q → Q → Bool) (borrow : K → Q) (T : HashTable K V) (code : Nat) (q : Q) :
    Res (Option (K × Ref V)) := do
  let r ← T.getHashInfo code
  let es ← sliceUnchecked T.entries r.1 r.2
  return scan eq borrow q r.1 es

omit [Target] in
/-- A lookup reads only inside the arrays; no assumption on hash or equality. -/
theorem tableLookup_safe {T : HashTable K V} (hT : SlotsOK T)
    (eq : Q → Q → Bool) (borrow : K → Q) (code : Nat) (q : Q) :
    ∃ s, T.slots[code % T.numSlots]? = some s ∧ s.minIndex ≤ s.maxIndex ∧
      s.maxIndex ≤ T.entries.length ∧
      tableLookup eq borrow T code q = .ok (scan eq borrow q s.minIndex
        ((T.entries.drop s.minIndex).take (s.maxIndex - s.minIndex))) := by
  have hlt : code % T.numSlots < T.slots.length := by
    rw [hT.len]; exact Nat.mod_lt _ hT.pos
  obtain ⟨s, hs⟩ : ∃ s, T.slots[code % T.numSlots]? = some s := ⟨_, List.getElem?_eq_getElem hlt⟩
  have hb := hT.bounds _ s hs
  refine ⟨s, hs, hb.1, hb.2, ?_⟩
  unfold tableLookup HashTable.getHashInfo sliceUnchecked
  rw [hs]
  simp [hb]

omit [Target] in
/-- When equal keys hash alike, a lookup is a scan of all entries. -/
theorem tableLookup_eq {h : K → Nat} {T : HashTable K V} (hT : TableOK h T)
    {eq : Q → Q → Bool} {borrow : K → Q} {code : Nat} {q : Q}
    (hcons : ∀ e ∈ T.entries, eq q (borrow e.1) = true → h e.1 = code) :
    tableLookup eq borrow T code q = .ok (scan eq borrow q 0 T.entries) := by
  obtain ⟨s, hs, hb1, hb2, hlook⟩ := tableLookup_safe hT.slotsOK eq borrow code q
  rw [hlook]
  congr 1
  apply scan_slice hb1 hb2
  intro j e hj hm
  have := hcons e (List.mem_of_getElem? hj) hm
  exact (hT.inv.mem j e hj _ s hs).1 (by rw [this])

omit [Target] in
theorem setVal_length (es : List (K × V)) (i : Nat) (v : V) :
    (setVal es i v).length = es.length := by simp [setVal]

omit [Target] in
theorem setVal_getElem? (es : List (K × V)) (i : Nat) (v : V) (j : Nat) :
    (setVal es i v)[j]? = (es[j]?).map (fun e => if i = j then (e.1, v) else e) := by
  unfold setVal
  rw [List.getElem?_modify]
  cases h : es[j]? with
  | none => simp
  | some e => by_cases hij : i = j <;> simp [hij]

omit [Target] in
/-- Writing a value keeps the table well formed. -/
theorem TableOK.write {h : K → Nat} {T : HashTable K V} (hT : TableOK h T) (i : Nat) (v : V) :
    TableOK h { T with entries := setVal T.entries i v } := by
  refine ⟨hT.pos, hT.len, ⟨?_, ?_⟩⟩
  · intro i' s hs
    simp only [setVal_length]
    exact hT.inv.bounds i' s hs
  · intro j e he i' s hs
    simp only [setVal_getElem?, Option.map_eq_some_iff] at he
    obtain ⟨e0, he0, rfl⟩ := he
    have := hT.inv.mem j e0 he0 i' s hs
    by_cases hij : i = j <;> simpa [hij] using this

end FC
