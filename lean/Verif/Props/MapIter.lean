import Verif.Props.MapLookup

/-
C11 (maps) and C13: iteration over maps.
-/

set_option autoImplicit false

namespace FC
variable {K V : Type}

theorem firstCalls_cons {α : Type} (e : α) (es : List α) (n : Nat) :
    firstCalls (e :: es) (n + 1) = some e :: firstCalls es n := by
  simp [firstCalls, List.range_succ_eq_map, Function.comp_def]

theorem firstCalls_nil {α : Type} (n : Nat) : firstCalls ([] : List α) n = List.replicate n none := by
  induction n with
  | zero => rfl
  | succ n ih => simp [firstCalls, List.map_const']

/-- An iterator that yields the entries from its index on. -/
theorem calls_index {σ α β : Type} (next : σ → Option α × σ) (mk : Nat → σ) (f : β → α)
    (es : List β)
    (hn : ∀ i, next (mk i) = match es[i]? with | some e => (some (f e), mk (i + 1)) | none => (none, mk i)) :
    ∀ (n i : Nat), i ≤ es.length →
      calls next n (mk i) = (firstCalls ((es.drop i).map f) n, mk (min (i + n) es.length)) := by
  intro n
  induction n with
  | zero => intro i hi; simp [calls, firstCalls, hi]
  | succ n ih =>
    intro i hi
    unfold calls
    rw [hn i]
    by_cases hlt : i < es.length
    · rw [List.getElem?_eq_getElem hlt]
      simp only
      rw [ih (i + 1) hlt, List.drop_eq_getElem_cons hlt, List.map_cons, firstCalls_cons]
      simp only [Prod.mk.injEq, true_and]
      congr 1
      omega
    · have hie : i = es.length := by omega
      subst hie
      have : es[es.length]? = none := by simp
      rw [this]
      simp only
      rw [ih es.length le_rfl]
      simp only [List.drop_length, List.map_nil, firstCalls_nil, List.replicate_succ]
      simp

theorem MapIter.fold_eq {B : Type} (f : B → K × V → B) (es : List (K × V)) :
    ∀ (n i : Nat) (b : B), es.length - i = n →
      MapIter.fold f b ⟨es, i⟩ = (es.drop i).foldl f b := by
  intro n
  induction n with
  | zero =>
    intro i b h
    unfold MapIter.fold
    have hi : es.length ≤ i := by omega
    have : es[i]? = none := by simp [hi]
    split
    · rename_i e he; simp only at he; rw [this] at he; cases he
    · rw [List.drop_eq_nil_of_le hi]; rfl
  | succ n ih =>
    intro i b h
    have hi : i < es.length := by omega
    unfold MapIter.fold
    split
    · rename_i e he
      simp only at he
      rw [List.getElem?_eq_getElem hi] at he
      cases he
      rw [List.drop_eq_getElem_cons hi, List.foldl_cons]
      exact ih (i + 1) _ (by omega)
    · rename_i he
      simp only at he
      rw [List.getElem?_eq_getElem hi] at he
      cases he

theorem usub_ok [Target] {oc : Bool} {a b : Nat} (h : b ≤ a) : usub oc a b = .ok (a - b) := by
  unfold usub; rw [if_pos h]

/-- `Iter`: the calls of `next` give the entries in order and then `None` for ever; after any number
`n` of calls `len`, `size_hint` and `count` are the number of entries not yet given, and `fold`
visits exactly those. -/
theorem C13_iter [Target] (oc : Bool) (es : List (K × V)) (n : Nat) :
    let r := calls MapIter.next n (MapIter.new es)
    r.1 = firstCalls es n ∧
    r.2.len oc = .ok (es.length - n) ∧
    r.2.sizeHint oc = .ok (es.length - n, some (es.length - n)) ∧
    r.2.count oc = .ok (es.length - n) ∧
    ∀ {B : Type} (f : B → K × V → B) (b : B), r.2.fold f b = (es.drop n).foldl f b := by
  have h := calls_index (MapIter.next (K := K) (V := V)) (fun i => ⟨es, i⟩) id es (by
    intro i
    simp only [MapIter.next]
    cases es[i]? <;> rfl) n 0 (Nat.zero_le _)
  simp only [List.drop_zero, List.map_id, Nat.zero_add] at h
  have hlen : usub oc es.length (min n es.length) = .ok (es.length - n) := by
    rw [usub_ok (by omega)]; congr 1; omega
  simp only [MapIter.new]
  rw [h]
  refine ⟨rfl, hlen, ?_, hlen, ?_⟩
  · simp only [MapIter.sizeHint, MapIter.len, hlen, Res.ok_bind, Res.pure_eq]
  · intro B f b
    rw [MapIter.fold_eq f es _ _ _ rfl]
    congr 1
    by_cases hn : n ≤ es.length
    · rw [Nat.min_eq_left hn]
    · rw [List.drop_eq_nil_of_le (by omega), List.drop_eq_nil_of_le (by omega)]

/-- `Keys`, in step with `Iter`. -/
theorem C13_keys [Target] (oc : Bool) (es : List (K × V)) (n : Nat) :
    let r := calls MapKeys.next n (MapKeys.new es)
    r.1 = firstCalls (es.map (·.1)) n ∧
    r.2.len oc = .ok (es.length - n) ∧
    r.2.sizeHint oc = .ok (es.length - n, some (es.length - n)) ∧
    r.2.count oc = .ok (es.length - n) ∧
    ∀ {B : Type} (f : B → K → B) (b : B), r.2.fold f b = ((es.map (·.1)).drop n).foldl f b := by
  have h := calls_index (MapKeys.next (K := K) (V := V)) (fun i => ⟨⟨es, i⟩⟩) (·.1) es (by
    intro i
    simp only [MapKeys.next, MapIter.next]
    cases es[i]? <;> rfl) n 0 (Nat.zero_le _)
  simp only [List.drop_zero, Nat.zero_add] at h
  have hlen : usub oc es.length (min n es.length) = .ok (es.length - n) := by
    rw [usub_ok (by omega)]; congr 1; omega
  simp only [MapKeys.new, MapIter.new]
  rw [h]
  refine ⟨rfl, hlen, ?_, hlen, ?_⟩
  · simp only [MapKeys.sizeHint, MapIter.sizeHint, MapIter.len, hlen, Res.ok_bind, Res.pure_eq]
  · intro B f b
    simp only [MapKeys.fold]
    rw [MapIter.fold_eq _ es _ _ _ rfl, ← List.map_drop, List.foldl_map]
    congr 1
    by_cases hn : n ≤ es.length
    · rw [Nat.min_eq_left hn]
    · rw [List.drop_eq_nil_of_le (by omega), List.drop_eq_nil_of_le (by omega)]

/-- `Values`, in step with `Iter`. -/
theorem C13_values [Target] (oc : Bool) (es : List (K × V)) (n : Nat) :
    let r := calls MapValues.next n (MapValues.new es)
    r.1 = firstCalls (es.map (·.2)) n ∧
    r.2.len oc = .ok (es.length - n) ∧
    r.2.sizeHint oc = .ok (es.length - n, some (es.length - n)) ∧
    r.2.count oc = .ok (es.length - n) ∧
    ∀ {B : Type} (f : B → V → B) (b : B), r.2.fold f b = ((es.map (·.2)).drop n).foldl f b := by
  have h := calls_index (MapValues.next (K := K) (V := V)) (fun i => ⟨⟨es, i⟩⟩) (·.2) es (by
    intro i
    simp only [MapValues.next, MapIter.next]
    cases es[i]? <;> rfl) n 0 (Nat.zero_le _)
  simp only [List.drop_zero, Nat.zero_add] at h
  have hlen : usub oc es.length (min n es.length) = .ok (es.length - n) := by
    rw [usub_ok (by omega)]; congr 1; omega
  simp only [MapValues.new, MapIter.new]
  rw [h]
  refine ⟨rfl, hlen, ?_, hlen, ?_⟩
  · simp only [MapValues.sizeHint, MapIter.sizeHint, MapIter.len, hlen, Res.ok_bind, Res.pure_eq]
  · intro B f b
    simp only [MapValues.fold]
    rw [MapIter.fold_eq _ es _ _ _ rfl, ← List.map_drop, List.foldl_map]
    congr 1
    by_cases hn : n ≤ es.length
    · rw [Nat.min_eq_left hn]
    · rw [List.drop_eq_nil_of_le (by omega), List.drop_eq_nil_of_le (by omega)]

/-- Once `next` has returned `None` it keeps doing so and the iterator stays as it is. -/
theorem C13_fused (es : List (K × V)) (i : Nat) (h : (MapIter.next ⟨es, i⟩).1 = none) (n : Nat) :
    (calls MapIter.next n (⟨es, i⟩ : MapIter K V)).1 = List.replicate n none := by
  induction n with
  | zero => rfl
  | succ n ih =>
    unfold calls
    have h' : MapIter.next (⟨es, i⟩ : MapIter K V) = (none, ⟨es, i⟩) := by
      unfold MapIter.next at h ⊢
      cases he : es[i]? with
      | none => rfl
      | some e => simp only [he] at h; simp at h
    rw [h', List.replicate_succ]
    simp only
    rw [ih]

example := C13_fused exU32 5 (by decide +kernel) 3

/-- The contract on a concrete partially consumed iterator, with calls past the end. -/
example : (calls MapIter.next 2 (MapIter.new exU32)).2.len true = .ok 3 ∧
    (calls MapIter.next 7 (MapIter.new exU32)).1 =
      [some (10, 1), some (500, 2), some (7, 3), some (9000, 4), some (3, 5), none, none] := by
  decide +kernel
example : (MapIter.next ⟨exU32, 5⟩).1 = none := by decide +kernel

/-- Iterating a constructed map: some permutation `es` of the payload is produced in full, in the
same order by `iter`, `keys` and `values`, then `None`. -/
theorem C11_map_iteration [Target] (env : Env) (ty : KeyTy K) (hty : LawfulKey ty)
    (payload : List (K × V)) (bh : Hasher) (m : FrozenMap K V)
    (hm : FrozenMap.new env ty payload bh = .ok m) :
    ∃ es : List (K × V), es.Perm payload ∧ ∀ n,
      (calls MapIter.next n (m.iter ty)).1 = firstCalls es n ∧
      (calls MapKeys.next n (m.keys ty)).1 = firstCalls (es.map (·.1)) n ∧
      (calls MapValues.next n (m.values ty)).1 = firstCalls (es.map (·.2)) n :=
  ⟨m.entries ty, new_perm env hty hm, fun n =>
    ⟨(C13_iter true _ n).1, (C13_keys true _ n).1, (C13_values true _ n).1⟩⟩

/-- After value writes the keys produced are still those of the payload, once each. -/
theorem C11_keys_after_writes [Target] (env : Env) (ty : KeyTy K) (hty : LawfulKey ty)
    (payload : List (K × V)) (bh : Hasher) (m : FrozenMap K V)
    (hm : Reachable env ty payload bh m) :
    ∃ ks : List K, ks.Perm (payload.map (·.1)) ∧ ∀ n,
      (calls MapKeys.next n (m.keys ty)).1 = firstCalls ks n :=
  ⟨(m.entries ty).map (·.1), hm.keys hty, fun n => (C13_keys true _ n).1⟩

example := C11_keys_after_writes checkedEnv stringTy stringTy_lawful exLeft demoHasher exMapLeft (.new exMapLeft_ok)

/-- A value write leaves the order of iteration as it was. -/
theorem C11_order_stable (ty : KeyTy K) (m : FrozenMap K V) (i : Nat) (v : V) (n : Nat) :
    (calls MapKeys.next n ((m.write i v).keys ty)).1 = (calls MapKeys.next n (m.keys ty)).1 := by
  have h : ((m.write i v).entries ty).map (·.1) = (m.entries ty).map (·.1) := by
    rw [FrozenMap.write_entries, setVal_keys]
  have h1 := (C13_keys true ((m.write i v).entries ty) n).1
  have h2 := (C13_keys true (m.entries ty) n).1
  unfold FrozenMap.keys
  rw [h1, h2, h]

/-- `firstCalls` says what a `for` loop over the list sees. -/
example : firstCalls [10, 20, 30] 5 = [some 10, some 20, some 30, none, none] := by decide
example : ∃ m, FrozenMap.new checkedEnv stringTy exLen demoHasher = .ok m ∧
    ∃ es, es.Perm exLen ∧ ∀ n, (calls MapIter.next n (m.iter stringTy)).1 = firstCalls es n := by
  obtain ⟨m, h⟩ := exLen_ok
  obtain ⟨es, h1, h2⟩ := C11_map_iteration _ _ stringTy_lawful _ _ m h
  exact ⟨m, h, es, h1, fun n => (h2 n).1⟩

end FC
