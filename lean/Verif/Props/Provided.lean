import Verif.Lemmas.Provided
import Verif.Props.IterPool

/-
C87: the methods every iterator has from std (`find`, `position`, `any`, `all`, `nth`, `try_fold`,
`fold`, `last`, `count`, `collect`), on the iterators of the library.
-/

set_option autoImplicit false

namespace FC
variable {K V T I X : Type}

/-- Whatever an iterator has left, the provided methods act on it as on a list. The methods that stop
early leave an iterator to which this applies again, so they may be called one after another, in any
order and as often as one likes. -/
theorem C87_one_after_another (next : I → Res (Option X × I)) (it : I) (l : List X)
    (h : HasLeft next it l) : StopsAsList next it l ∧ LoopsAsList next it l ∧
      ∀ n, l.length < n → iterCount next n it = some (.ok l.length) :=
  ⟨h.stops, h.loops, h.count⟩

/-! ### Maps -/

/-- `Iter` of a map. -/
theorem C87_map_iter (es : List (K × V)) :
    HasLeft (fun it : MapIter K V => .ok it.next) (MapIter.new es) es ∧
      StopsAsList (fun it : MapIter K V => .ok it.next) (MapIter.new es) es ∧
      LoopsAsList (fun it : MapIter K V => .ok it.next) (MapIter.new es) es := by
  have hd : Describes (fun it : MapIter K V => .ok it.next) (fun it => it.index ≤ it.entries.length)
      (fun it => it.entries.drop it.index) := by
    intro it hi
    have := MapIter.At.next (it := it) ⟨hi, rfl⟩
    exact ⟨it.next.2, by rw [← this.1], this.2.2, this.2.1⟩
  have h : HasLeft (fun it : MapIter K V => .ok it.next) (MapIter.new es) es :=
    hd.hasLeft (it := MapIter.new es) (Nat.zero_le _)
  exact ⟨h, h.stops, h.loops⟩

example := C87_map_iter [("a", 1), ("b", 2), ("c", 3)]
example := C87_one_after_another _ _ _ (C87_map_iter [("a", 1), ("b", 2), ("c", 3)]).1
/-- The first entry with a value over 1, then the one after it. -/
example : (iterFind (fun it : MapIter String Nat => .ok it.next) (quiet fun e => decide (1 < e.2)) 4 ()
    (MapIter.new [("a", 1), ("b", 2), ("c", 3)])).map (·.map fun r => (r.1, r.2.2.next.1))
    = some (.ok (some ("b", 2), some ("c", 3))) := by
  decide +kernel

/-- `Keys`, which has a `fold` of its own. -/
theorem C87_map_keys (es : List (K × V)) :
    HasLeft (fun it : MapKeys K V => .ok it.next) (MapKeys.new es) (es.map (·.1)) ∧
      StopsAsList (fun it : MapKeys K V => .ok it.next) (MapKeys.new es) (es.map (·.1)) ∧
      ∀ (it : MapKeys K V) (ks : List K), HasLeft (fun it : MapKeys K V => .ok it.next) it ks →
        (∀ {B : Type} (f : B → K → Res B) (b : B) (n : Nat), ks.length < n →
          keysFold f n b it = some (listFold f b ks)) ∧
        ∀ n, ks.length < n → iterLast keysFold n it = some (.ok ks.getLast?) := by
  have hd : Describes (fun it : MapKeys K V => .ok it.next)
      (fun it => it.inner.index ≤ it.inner.entries.length)
      (fun it => (it.inner.entries.drop it.inner.index).map (·.1)) := by
    intro it hi
    have := MapIter.At.next (it := it.inner) ⟨hi, rfl⟩
    refine ⟨it.next.2, ?_, ?_, this.2.1⟩
    · simp [MapKeys.next, this.1]
    · have h2 := this.2.2
      show ((it.inner.next.2).entries.drop (it.inner.next.2).index).map (·.1) = _
      rw [h2, List.map_tail]
  have h : HasLeft (fun it : MapKeys K V => .ok it.next) (MapKeys.new es) (es.map (·.1)) :=
    hd.hasLeft (it := MapKeys.new es) (Nat.zero_le _)
  refine ⟨h, h.stops, ?_⟩
  intro it ks hk
  have hf : ∀ {B : Type} (f : B → K → Res B) (n : Nat) (b : B) (it : MapKeys K V),
      keysFold f n b it = iterFold (fun it : MapKeys K V => .ok it.next) f n b it := by
    intro B f n
    induction n with
    | zero => intro b it; rfl
    | succ n ih =>
      intro b it
      unfold keysFold iterFold
      rcases hn : it.inner.next with ⟨_ | e, i'⟩
      · simp [MapKeys.next, hn]
      · simp only [MapKeys.next, hn, Option.map_some]
        cases f b e.1 with
        | panic => rfl
        | ub => rfl
        | ok b' => exact ih b' { inner := i' }
  refine ⟨fun f b n hn => by rw [hf, hk.loops.fold f b n hn], fun n hn => ?_⟩
  have := hk.loops.last n hn
  unfold iterLast at this ⊢
  rw [hf, this]

example := C87_map_keys [("a", 1), ("b", 2), ("c", 3)]
example : (iterNth (fun it : MapKeys String Nat => .ok it.next) 1
    (MapKeys.new [("a", 1), ("b", 2), ("c", 3)])).map (·.1) = .ok (some "b") := by decide +kernel

/-- `Values`, which has a `fold` of its own. -/
theorem C87_map_values (es : List (K × V)) :
    HasLeft (fun it : MapValues K V => .ok it.next) (MapValues.new es) (es.map (·.2)) ∧
      StopsAsList (fun it : MapValues K V => .ok it.next) (MapValues.new es) (es.map (·.2)) ∧
      ∀ (it : MapValues K V) (vs : List V), HasLeft (fun it : MapValues K V => .ok it.next) it vs →
        (∀ {B : Type} (f : B → V → Res B) (b : B) (n : Nat), vs.length < n →
          valuesFold f n b it = some (listFold f b vs)) ∧
        ∀ n, vs.length < n → iterLast valuesFold n it = some (.ok vs.getLast?) := by
  have hd : Describes (fun it : MapValues K V => .ok it.next)
      (fun it => it.inner.index ≤ it.inner.entries.length)
      (fun it => (it.inner.entries.drop it.inner.index).map (·.2)) := by
    intro it hi
    have := MapIter.At.next (it := it.inner) ⟨hi, rfl⟩
    refine ⟨it.next.2, ?_, ?_, this.2.1⟩
    · simp [MapValues.next, this.1]
    · have h2 := this.2.2
      show ((it.inner.next.2).entries.drop (it.inner.next.2).index).map (·.2) = _
      rw [h2, List.map_tail]
  have h : HasLeft (fun it : MapValues K V => .ok it.next) (MapValues.new es) (es.map (·.2)) :=
    hd.hasLeft (it := MapValues.new es) (Nat.zero_le _)
  refine ⟨h, h.stops, ?_⟩
  intro it vs hk
  have hf : ∀ {B : Type} (f : B → V → Res B) (n : Nat) (b : B) (it : MapValues K V),
      valuesFold f n b it = iterFold (fun it : MapValues K V => .ok it.next) f n b it := by
    intro B f n
    induction n with
    | zero => intro b it; rfl
    | succ n ih =>
      intro b it
      unfold valuesFold iterFold
      rcases hn : it.inner.next with ⟨_ | e, i'⟩
      · simp [MapValues.next, hn]
      · simp only [MapValues.next, hn, Option.map_some]
        cases f b e.2 with
        | panic => rfl
        | ub => rfl
        | ok b' => exact ih b' { inner := i' }
  refine ⟨fun f b n hn => by rw [hf, hk.loops.fold f b n hn], fun n hn => ?_⟩
  have := hk.loops.last n hn
  unfold iterLast at this ⊢
  rw [hf, this]

example := C87_map_values [("a", 1), ("b", 2), ("c", 3)]
/-- A closure that adds up values and panics past 2. -/
example : valuesFold (fun acc v => if v ≤ 2 then .ok (acc + v) else .panic) 4 0
    (MapValues.new [("a", 1), ("b", 2), ("c", 3)]) = some .panic := by decide +kernel
example : valuesFold (fun acc v => .ok (acc + v)) 4 0
    (MapValues.new [("a", 1), ("b", 2), ("c", 3)]) = some (.ok 6) := by decide +kernel

/-- The iterators of a constructed `FrozenMap` act on the entries of the payload, in some order. -/
theorem C87_frozen_map [Target] (env : Env) (ty : KeyTy K) (hty : LawfulKey ty)
    (payload : List (K × V)) (bh : Hasher) (m : FrozenMap K V)
    (hm : FrozenMap.new env ty payload bh = .ok m) :
    ∃ es : List (K × V), es.Perm payload ∧
      (StopsAsList (fun it : MapIter K V => .ok it.next) (m.iter ty) es ∧
        LoopsAsList (fun it : MapIter K V => .ok it.next) (m.iter ty) es) ∧
      StopsAsList (fun it : MapKeys K V => .ok it.next) (m.keys ty) (es.map (·.1)) ∧
      StopsAsList (fun it : MapValues K V => .ok it.next) (m.values ty) (es.map (·.2)) :=
  ⟨m.entries ty, new_perm env hty hm, (C87_map_iter _).2, (C87_map_keys _).2.1,
    (C87_map_values _).2.1⟩

example := C87_frozen_map checkedEnv u32Ty u32Ty_lawful exU32 demoHasher exMapU32 exMapU32_ok

/-! ### Sets -/

/-- `Iter` of a set. -/
theorem C87_set_iter (es : List (T × Unit)) :
    HasLeft (fun it : SetIter T => .ok it.next) (SetIter.new es) (es.map (·.1)) ∧
      StopsAsList (fun it : SetIter T => .ok it.next) (SetIter.new es) (es.map (·.1)) ∧
      LoopsAsList (fun it : SetIter T => .ok it.next) (SetIter.new es) (es.map (·.1)) := by
  have h : HasLeft (fun it : SetIter T => .ok it.next) (SetIter.new es) (es.map (·.1)) :=
    SetIter.describes.hasLeft (it := SetIter.new es) (Nat.zero_le _)
  exact ⟨h, h.stops, h.loops⟩

example := C87_set_iter (unitPayload [5, 6, 7])
example : (iterPosition (fun it : SetIter Nat => .ok it.next) (quiet fun x => x == 6) 4 ()
    (SetIter.new (unitPayload [5, 6, 7]))).map (·.map fun r => (r.1, r.2.2.next.1))
    = some (.ok (some 1, some 7)) := by decide +kernel

/-- `IntoIter` of a set. -/
theorem C87_set_into_iter (es : List (T × Unit)) :
    HasLeft (fun it : SetIntoIter T => .ok it.next) (SetIntoIter.new es) (es.map (·.1)) ∧
      StopsAsList (fun it : SetIntoIter T => .ok it.next) (SetIntoIter.new es) (es.map (·.1)) ∧
      LoopsAsList (fun it : SetIntoIter T => .ok it.next) (SetIntoIter.new es) (es.map (·.1)) := by
  have h : HasLeft (fun it : SetIntoIter T => .ok it.next) (SetIntoIter.new es) (es.map (·.1)) :=
    SetIntoIter.describes.hasLeft (it := SetIntoIter.new es) trivial
  exact ⟨h, h.stops, h.loops⟩

example := C87_set_into_iter (unitPayload [5, 6, 7])
example : iterLast (iterFold fun it : SetIntoIter Nat => .ok it.next) 4
    (SetIntoIter.new (unitPayload [5, 6, 7])) = some (.ok (some 7)) := by decide +kernel

/-- The iterator of a constructed `FrozenSet` acts on the payload, in some order. -/
theorem C87_frozen_set [Target] (env : Env) (ty : KeyTy T) (hty : LawfulKey ty)
    (payload : List T) (bh : Hasher) (s : FrozenSet T)
    (hs : FrozenSet.new env ty payload bh = .ok s) :
    ∃ es : List T, es.Perm payload ∧
      StopsAsList (fun it : SetIter T => .ok it.next) (s.iter ty) es ∧
      LoopsAsList (fun it : SetIter T => .ok it.next) (s.iter ty) es := by
  have hb := new_perm env hty (FrozenSet.new_ok hs)
  refine ⟨(s.toMap.entries ty).map (·.1), ?_, ?_⟩
  · have := hb.map (·.1)
    rwa [unitPayload_keys] at this
  · rw [FrozenSet.iter_toMap]
    exact (C87_set_iter _).2

example := C87_frozen_set checkedEnv u32Ty u32Ty_lawful exSetKeys demoHasher exFrozenSet exFrozenSet_ok

/-! ### Set operations

Two consistent sets, as in C32 and C33. -/

/-- `Union`. -/
theorem C87_union (eq : T → T → Bool) (heq : LawfulEq eq) (a b : SetI T) (ha : Consistent eq a)
    (hb : Consistent eq b) :
    ∃ l : List T, (Distinct eq l ∧ ∀ x, Has eq l x ↔ Has eq a.iter x ∨ Has eq b.iter x) ∧
      StopsAsList BinIter.unionNext (BinIter.new a b) l ∧
      LoopsAsList BinIter.unionNext (BinIter.new a b) l ∧
      ∀ n, l.length < n → iterCount BinIter.unionNext n (BinIter.new a b) = some (.ok l.length) := by
  obtain ⟨l, h, hd, hx, _⟩ := C32_union eq heq a b ha hb
  exact ⟨l, ⟨hd, hx⟩, C87_one_after_another _ _ l h⟩

example := C87_union _ lawfulEq_decide exSetA exSetB exSetA_consistent exSetB_consistent

/-- `Intersection`. -/
theorem C87_intersection (eq : T → T → Bool) (heq : LawfulEq eq) (a b : SetI T)
    (ha : Consistent eq a) (hb : Consistent eq b) :
    ∃ l : List T, (Distinct eq l ∧ ∀ x, Has eq l x ↔ Has eq a.iter x ∧ Has eq b.iter x) ∧
      StopsAsList BinIter.intersectionNext (BinIter.new a b) l ∧
      LoopsAsList BinIter.intersectionNext (BinIter.new a b) l ∧
      ∀ n, l.length < n →
        iterCount BinIter.intersectionNext n (BinIter.new a b) = some (.ok l.length) := by
  obtain ⟨l, h, hd, hx, _⟩ := C33_intersection eq heq a b ha hb
  exact ⟨l, ⟨hd, hx⟩, C87_one_after_another _ _ l h⟩

example := C87_intersection _ lawfulEq_decide exSetA exSetB exSetA_consistent exSetB_consistent

/-- `Difference`. -/
theorem C87_difference (eq : T → T → Bool) (heq : LawfulEq eq) (a b : SetI T)
    (ha : Consistent eq a) (hb : Consistent eq b) :
    ∃ l : List T, (Distinct eq l ∧ ∀ x, Has eq l x ↔ Has eq a.iter x ∧ ¬ Has eq b.iter x) ∧
      StopsAsList BinIter.differenceNext (BinIter.new a b) l ∧
      LoopsAsList BinIter.differenceNext (BinIter.new a b) l ∧
      ∀ n, l.length < n →
        iterCount BinIter.differenceNext n (BinIter.new a b) = some (.ok l.length) := by
  obtain ⟨l, h, hd, hx, _⟩ := C33_difference eq heq a b ha hb
  exact ⟨l, ⟨hd, hx⟩, C87_one_after_another _ _ l h⟩

example := C87_difference _ lawfulEq_decide exSetA exSetB exSetA_consistent exSetB_consistent

/-- `SymmetricDifference`. -/
theorem C87_symmetric_difference (eq : T → T → Bool) (heq : LawfulEq eq) (a b : SetI T)
    (ha : Consistent eq a) (hb : Consistent eq b) :
    ∃ l : List T, (Distinct eq l ∧
        ∀ x, Has eq l x ↔ (Has eq a.iter x ∧ ¬ Has eq b.iter x) ∨ (Has eq b.iter x ∧ ¬ Has eq a.iter x)) ∧
      StopsAsList BinIter.symDiffNext (BinIter.new a b) l ∧
      LoopsAsList BinIter.symDiffNext (BinIter.new a b) l ∧
      ∀ n, l.length < n → iterCount BinIter.symDiffNext n (BinIter.new a b) = some (.ok l.length) := by
  obtain ⟨l, h, hd, hx, _⟩ := C33_symmetric_difference eq heq a b ha hb
  exact ⟨l, ⟨hd, hx⟩, C87_one_after_another _ _ l h⟩

example := C87_symmetric_difference _ lawfulEq_decide exSetA exSetB exSetA_consistent exSetB_consistent
/-- Counting a union that has had one item taken by `any`. -/
example : ((iterAny BinIter.unionNext (quiet fun x => x == 2) 9 () (BinIter.new exSetA exSetB)).map
    (·.map fun r => (r.1, iterCount BinIter.unionNext 9 r.2.2))) = some (.ok (true, some (.ok 3))) := by
  decide +kernel

end FC
