import Verif.Lemmas.IterPool
import Verif.Lemmas.Sets
import Verif.Props.SetOps

/-
C83: iterators and their clones, used in any order.
-/

set_option autoImplicit false

namespace FC
variable {K V T : Type}

/-! ### Maps -/

/-- `Iter` of a map: the iterator and its clones act as lists of the entries left, whatever is
asked of them and in whatever order. -/
theorem C83_map_iter [Target] (oc : Bool) (es : List (K × V)) :
    ActsAsList (mapIterApi oc) id (fun _ => True) (MapIter.new es) es := by
  refine ActsAsList.of_rel MapIter.At ?_ ?_ ?_ ⟨Nat.zero_le _, rfl⟩
  · intro it l h
    exact ⟨it.next.2, by rw [← h.next.1]; rfl, h.next.2⟩
  · intro it l h
    rw [List.map_id]
    exact h
  · intro it l q _ h
    have hl := h.len oc
    cases q <;> simp only [mapIterApi, listIter, MapIter.sizeHint, MapIter.count, hl, Res.map,
      Res.ok_bind, Res.pure_eq]
    rw [h.fold, foldl_snoc (fun e => e)]
    simp

example := C83_map_iter true [("a", 1), ("b", 2), ("c", 3)]
/-- Taken one, cloned, taken another from the original: the clone still has two left. -/
example : (mapIterApi true).poolRun [some (MapIter.new [("a", 1), ("b", 2), ("c", 3)])]
    [.next 0, .clone 0, .next 0, .ask 1 .len, .ask 0 .len, .ask 1 .rest, .next 1, .next 0, .next 0]
    = .ok [.item (some ("a", 1)), .nothing, .item (some ("b", 2)), .number 2, .number 1,
        .items [("b", 2), ("c", 3)], .nothing, .item (some ("c", 3)), .item none] := by
  decide +kernel

/-- `Keys`. -/
theorem C83_map_keys [Target] (oc : Bool) (es : List (K × V)) :
    ActsAsList (mapKeysApi oc) id (fun _ => True) (MapKeys.new es) (es.map (·.1)) := by
  refine ActsAsList.of_rel (fun it ks => ∃ l, it.inner.At l ∧ l.map (·.1) = ks) ?_ ?_ ?_
    ⟨es, ⟨Nat.zero_le _, rfl⟩, rfl⟩
  · rintro it _ ⟨l, h, rfl⟩
    refine ⟨it.next.2, ?_, l.tail, h.next.2, by simp [List.map_tail]⟩
    simp [mapKeysApi, MapKeys.next, h.next.1]
  · rintro it _ ⟨l, h, rfl⟩
    exact ⟨l, h, by simp⟩
  · rintro it _ q _ ⟨l, h, rfl⟩
    have hl := h.len oc
    cases q <;> simp only [mapKeysApi, listIter, MapKeys.sizeHint, MapKeys.count, MapKeys.len,
      MapIter.sizeHint, MapIter.count, hl, Res.map, Res.ok_bind, Res.pure_eq, List.length_map]
    rw [MapKeys.fold, h.fold, foldl_snoc (fun e : K × V => e.1)]
    simp

example := C83_map_keys true [("a", 1), ("b", 2), ("c", 3)]
example : (mapKeysApi true).poolRun [some (MapKeys.new [("a", 1), ("b", 2)])]
    [.clone 0, .next 1, .clone 1, .ask 2 .rest, .ask 0 .count, .next 1, .next 1]
    = .ok [.nothing, .item (some "a"), .nothing, .items ["b"], .number 2, .item (some "b"),
        .item none] := by
  decide +kernel

/-- `Values`. -/
theorem C83_map_values [Target] (oc : Bool) (es : List (K × V)) :
    ActsAsList (mapValuesApi oc) id (fun _ => True) (MapValues.new es) (es.map (·.2)) := by
  refine ActsAsList.of_rel (fun it vs => ∃ l, it.inner.At l ∧ l.map (·.2) = vs) ?_ ?_ ?_
    ⟨es, ⟨Nat.zero_le _, rfl⟩, rfl⟩
  · rintro it _ ⟨l, h, rfl⟩
    refine ⟨it.next.2, ?_, l.tail, h.next.2, by simp [List.map_tail]⟩
    simp [mapValuesApi, MapValues.next, h.next.1]
  · rintro it _ ⟨l, h, rfl⟩
    exact ⟨l, h, by simp⟩
  · rintro it _ q _ ⟨l, h, rfl⟩
    have hl := h.len oc
    cases q <;> simp only [mapValuesApi, listIter, MapValues.sizeHint, MapValues.count,
      MapValues.len, MapIter.sizeHint, MapIter.count, hl, Res.map, Res.ok_bind, Res.pure_eq,
      List.length_map]
    rw [MapValues.fold, h.fold, foldl_snoc (fun e : K × V => e.2)]
    simp

example := C83_map_values true [("a", 1), ("b", 2), ("c", 3)]
example : (mapValuesApi true).poolRun [some (MapValues.new [("a", 1), ("b", 2)])]
    [.next 0, .clone 0, .next 0, .next 0, .ask 1 .sizeHint, .next 1]
    = .ok [.item (some 1), .nothing, .item (some 2), .item none, .bounds 1 (some 1),
        .item (some 2)] := by
  decide +kernel

/-- The iterators of a constructed `FrozenMap`: each acts as a list of the payload, in some order
that is the same for all three. -/
theorem C83_frozen_map [Target] (env : Env) (ty : KeyTy K) (hty : LawfulKey ty)
    (payload : List (K × V)) (bh : Hasher) (m : FrozenMap K V)
    (hm : FrozenMap.new env ty payload bh = .ok m) :
    ∃ es : List (K × V), es.Perm payload ∧
      ActsAsList (mapIterApi env.oc) id (fun _ => True) (m.iter ty) es ∧
      ActsAsList (mapKeysApi env.oc) id (fun _ => True) (m.keys ty) (es.map (·.1)) ∧
      ActsAsList (mapValuesApi env.oc) id (fun _ => True) (m.values ty) (es.map (·.2)) :=
  ⟨m.entries ty, new_perm env hty hm, C83_map_iter _ _, C83_map_keys _ _, C83_map_values _ _⟩

example := C83_frozen_map checkedEnv u32Ty u32Ty_lawful exU32 demoHasher exMapU32 exMapU32_ok

/-! ### Sets -/

/-- `Iter` of a set, asked anything but `count`, which is wrong once an item has been taken (C14). -/
theorem C83_set_iter [Target] (oc : Bool) (es : List (T × Unit)) :
    ActsAsList (setIterApi oc) id (fun q => q ≠ .count) (SetIter.new es) (es.map (·.1)) := by
  refine ActsAsList.of_rel (fun it ts => it.index ≤ it.entries.length ∧
    (it.entries.drop it.index).map (·.1) = ts) ?_ ?_ ?_ ⟨Nat.zero_le _, rfl⟩
  · rintro it _ ⟨h, rfl⟩
    obtain ⟨it', h1, h2, h3⟩ := SetIter.describes it h
    exact ⟨it', h1, h3, h2⟩
  · rintro it _ ⟨h, rfl⟩
    exact ⟨h, by simp [setIterApi, SetIter.clone]⟩
  · rintro it ts q hq ⟨h, h'⟩
    have hl : it.len oc = .ok ts.length := by
      unfold SetIter.len
      rw [usub_ok h, ← h', List.length_map, List.length_drop]
    have hd := SetIter.describes.drain _ SetIter.next_dec ts it h h'
    cases q with
    | count => exact absurd rfl hq
    | len => simp only [setIterApi, listIter, hl, Res.map]
    | sizeHint => simp only [setIterApi, listIter, SetIter.sizeHint, hl, Res.map, Res.ok_bind,
        Res.pure_eq]
    | rest => simp only [setIterApi, listIter, hd, Res.map]

example := C83_set_iter true (unitPayload [5, 6, 7])
example : (setIterApi true).poolRun [some (SetIter.new (unitPayload [5, 6, 7]))]
    [.next 0, .clone 0, .next 1, .next 1, .next 1, .ask 0 .len, .ask 0 .rest]
    = .ok [.item (some 5), .nothing, .item (some 6), .item (some 7), .item none, .number 2,
        .items [6, 7]] := by
  decide +kernel

/-- `IntoIter` of a set: a clone has the items left, each cloned with the caller's `Clone`. -/
theorem C83_set_into_iter (ct : T → T) (es : List (T × Unit)) :
    ActsAsList (setIntoIterApi ct) ct (fun _ => True) (SetIntoIter.new es) (es.map (·.1)) := by
  refine ActsAsList.of_rel (fun it ts => it.rest.map (·.1) = ts) ?_ ?_ ?_ rfl
  · rintro it _ rfl
    obtain ⟨it', h1, h2, _⟩ := SetIntoIter.describes it trivial
    exact ⟨it', h1, h2⟩
  · rintro it _ rfl
    simp [setIntoIterApi, SetIntoIter.clone, Function.comp_def]
  · rintro it ts q _ h
    have hl : it.rest.length = ts.length := by rw [← h, List.length_map]
    have hd := SetIntoIter.describes.drain _ SetIntoIter.next_dec ts it trivial h
    cases q <;> simp only [setIntoIterApi, listIter, SetIntoIter.len, SetIntoIter.sizeHint,
      SetIntoIter.count, hl, hd, Res.map]

example := C83_set_into_iter (fun n : Nat => n) (unitPayload [5, 6, 7])
example : (setIntoIterApi (· + 100)).poolRun [some (SetIntoIter.new (unitPayload [5, 6, 7]))]
    [.next 0, .clone 0, .ask 0 .count, .next 0, .ask 1 .rest]
    = .ok [.item (some 5), .nothing, .number 2, .nothing, .items [106, 107]] := by
  decide +kernel

/-- The iterator of a constructed `FrozenSet`. -/
theorem C83_frozen_set [Target] (env : Env) (ty : KeyTy T) (hty : LawfulKey ty)
    (payload : List T) (bh : Hasher) (s : FrozenSet T)
    (hs : FrozenSet.new env ty payload bh = .ok s) :
    ∃ es : List T, es.Perm payload ∧
      ActsAsList (setIterApi env.oc) id (fun q => q ≠ .count) (s.iter ty) es := by
  have hb := new_perm env hty (FrozenSet.new_ok hs)
  refine ⟨(s.toMap.entries ty).map (·.1), ?_, ?_⟩
  · have := hb.map (·.1)
    rwa [unitPayload_keys] at this
  · rw [FrozenSet.iter_toMap]
    exact C83_set_iter _ _

example := C83_frozen_set checkedEnv u32Ty u32Ty_lawful exSetKeys demoHasher exFrozenSet exFrozenSet_ok

/-! ### Set operations

Two sets whose `contains` always returns. Nothing else is asked of them: `contains` and `iter` may
disagree, and items may repeat. -/

/-- `Union` and its clones act as lists, starting with what one loop over the iterator visits. -/
theorem C83_union [Target] (a b : SetI T) (ha : ∀ x, ∃ r, a.contains x = .ok r)
    (hb : ∀ x, ∃ r, b.contains x = .ok r) :
    ∃ l, BinIter.unionAll (BinIter.new a b) = .ok l ∧
      ActsAsList unionApi id (fun q => q = .count ∨ q = .rest) (BinIter.new a b) l := by
  choose c1 h1 using ha
  choose c2 h2 using hb
  have h := union_describes h1 h2
  exact ⟨_, h.drain _ BinIter.unionNext_dec _ _ ⟨rfl, rfl⟩ rfl,
    BinIter.actsAsList h BinIter.unionNext_dec _ ⟨rfl, rfl⟩⟩

example := C83_union exSetA exSetB (fun _ => ⟨_, rfl⟩) (fun _ => ⟨_, rfl⟩)

/-- `SymmetricDifference`. -/
theorem C83_symmetric_difference [Target] (a b : SetI T) (ha : ∀ x, ∃ r, a.contains x = .ok r)
    (hb : ∀ x, ∃ r, b.contains x = .ok r) :
    ∃ l, BinIter.symDiffAll (BinIter.new a b) = .ok l ∧
      ActsAsList symDiffApi id (fun q => q = .count ∨ q = .rest) (BinIter.new a b) l := by
  choose c1 h1 using ha
  choose c2 h2 using hb
  have h := symDiff_describes h1 h2
  exact ⟨_, h.drain _ BinIter.symDiffNext_dec _ _ ⟨rfl, rfl⟩ rfl,
    BinIter.actsAsList h BinIter.symDiffNext_dec _ ⟨rfl, rfl⟩⟩

example := C83_symmetric_difference exSetA exSetB (fun _ => ⟨_, rfl⟩) (fun _ => ⟨_, rfl⟩)

/-- `Difference`, which only asks the second set. -/
theorem C83_difference [Target] (a b : SetI T) (hb : ∀ x, ∃ r, b.contains x = .ok r) :
    ∃ l, BinIter.differenceAll (BinIter.new a b) = .ok l ∧
      ActsAsList differenceApi id (fun q => q = .count ∨ q = .rest) (BinIter.new a b) l := by
  choose c2 h2 using hb
  have h := difference_describes (a := a) h2
  exact ⟨_, h.drain _ BinIter.differenceNext_dec _ _ ⟨rfl, rfl⟩ rfl,
    BinIter.actsAsList h BinIter.differenceNext_dec _ ⟨rfl, rfl⟩⟩

example := C83_difference exSetA exSetB (fun _ => ⟨_, rfl⟩)

/-- `Intersection`. -/
theorem C83_intersection [Target] (a b : SetI T) (ha : ∀ x, ∃ r, a.contains x = .ok r)
    (hb : ∀ x, ∃ r, b.contains x = .ok r) :
    ∃ l, BinIter.intersectionAll (BinIter.new a b) = .ok l ∧
      ActsAsList intersectionApi id (fun q => q = .count ∨ q = .rest) (BinIter.new a b) l := by
  choose c1 h1 using ha
  choose c2 h2 using hb
  have h := intersection_describes h1 h2
  exact ⟨_, h.drain _ BinIter.intersectionNext_dec _ _ ⟨rfl, rfl⟩ rfl,
    BinIter.actsAsList h BinIter.intersectionNext_dec _ ⟨rfl, rfl⟩⟩

example := C83_intersection exSetA exSetB (fun _ => ⟨_, rfl⟩) (fun _ => ⟨_, rfl⟩)

/-- One taken from the union, a clone, the clone run to its end, the original goes on. -/
example : unionApi.poolRun [some (BinIter.new exSetA exSetB)]
    [.next 0, .clone 0, .ask 1 .rest, .next 0, .ask 0 .count]
    = .ok [.item (some 1), .nothing, .items [2, 3, 4, 9], .item (some 2), .number 3] := by
  decide +kernel

end FC
