import Verif.Basic

/-
Model of specialized_maps/iterators.rs and specialized_sets/iterators.rs.
-/

set_option autoImplicit false

namespace FC
variable [Target]

/-! ### Map iterators -/

/-- specialized_maps/iterators.rs:5-8 (`Iter`). -/
structure MapIter (K V : Type) where
  entries : List (K × V)
  index : Nat

namespace MapIter
variable {K V : Type}

/-- specialized_maps/iterators.rs:12-14. -/
def new (entries : List (K × V)) : MapIter K V := ⟨entries, 0⟩

/-- specialized_maps/iterators.rs:29-37 (`next`); `self.entries[self.index]` is in bounds by the
test, so the pattern match on the entry stands for both. -/
def next (it : MapIter K V) : Option (K × V) × MapIter K V :=
  match it.entries[it.index]? with
  | some e => (some (e.1, e.2), { it with index := it.index + 1 })
  | none => (none, it)

/-- specialized_maps/iterators.rs:52-54 (`ExactSizeIterator::len`). -/
def len (oc : Bool) (it : MapIter K V) : Res Nat := usub oc it.entries.length it.index

/-- specialized_maps/iterators.rs:39-41 (`size_hint`). -/
def sizeHint (oc : Bool) (it : MapIter K V) : Res (Nat × Option Nat) := do
  let a ← it.len oc
  let b ← it.len oc
  return (a, some b)

/-- specialized_maps/iterators.rs:43-48 (`count`). -/
def count (oc : Bool) (it : MapIter K V) : Res Nat := it.len oc

/-- The default `Iterator::fold` (repeated `next`), used by `Keys::fold`/`Values::fold`.
specialized_maps/iterators.rs:111, 175. -/
def fold {B : Type} (f : B → K × V → B) (init : B) (it : MapIter K V) : B :=
  match _h : it.entries[it.index]? with
  | some e => fold f (f init e) { it with index := it.index + 1 }
  | none => init
termination_by it.entries.length - it.index
decreasing_by
  have := (List.getElem?_eq_some_iff.1 _h).1
  omega

end MapIter

/-- specialized_maps/iterators.rs:70-72 (`Keys`). -/
structure MapKeys (K V : Type) where
  inner : MapIter K V

namespace MapKeys
variable {K V : Type}

/-- specialized_maps/iterators.rs:76-80. -/
def new (entries : List (K × V)) : MapKeys K V := ⟨MapIter.new entries⟩

/-- specialized_maps/iterators.rs:94-96 (`next`). -/
def next (it : MapKeys K V) : Option K × MapKeys K V :=
  (it.inner.next.1.map (·.1), ⟨it.inner.next.2⟩)

/-- specialized_maps/iterators.rs:98-100. -/
def sizeHint (oc : Bool) (it : MapKeys K V) : Res (Nat × Option Nat) := it.inner.sizeHint oc

/-- specialized_maps/iterators.rs:102-104. -/
def count (oc : Bool) (it : MapKeys K V) : Res Nat := it.inner.count oc

/-- specialized_maps/iterators.rs:106-112. -/
def fold {B : Type} (f : B → K → B) (init : B) (it : MapKeys K V) : B :=
  it.inner.fold (fun acc e => f acc e.1) init

/-- specialized_maps/iterators.rs:116-118. -/
def len (oc : Bool) (it : MapKeys K V) : Res Nat := it.inner.len oc

end MapKeys

/-- specialized_maps/iterators.rs:134-136 (`Values`). -/
structure MapValues (K V : Type) where
  inner : MapIter K V

namespace MapValues
variable {K V : Type}

/-- specialized_maps/iterators.rs:140-144. -/
def new (entries : List (K × V)) : MapValues K V := ⟨MapIter.new entries⟩

/-- specialized_maps/iterators.rs:158-160 (`next`). -/
def next (it : MapValues K V) : Option V × MapValues K V :=
  (it.inner.next.1.map (·.2), ⟨it.inner.next.2⟩)

/-- specialized_maps/iterators.rs:162-164. -/
def sizeHint (oc : Bool) (it : MapValues K V) : Res (Nat × Option Nat) := it.inner.sizeHint oc

/-- specialized_maps/iterators.rs:166-168. -/
def count (oc : Bool) (it : MapValues K V) : Res Nat := it.inner.count oc

/-- specialized_maps/iterators.rs:170-176. -/
def fold {B : Type} (f : B → V → B) (init : B) (it : MapValues K V) : B :=
  it.inner.fold (fun acc e => f acc e.2) init

/-- specialized_maps/iterators.rs:180-182. -/
def len (oc : Bool) (it : MapValues K V) : Res Nat := it.inner.len oc

end MapValues

/-! ### Set iterators -/

/-- specialized_sets/iterators.rs:8-11 (`Iter`). -/
structure SetIter (T : Type) where
  entries : List (T × Unit)
  index : Nat

namespace SetIter
variable {T : Type}

/-- specialized_sets/iterators.rs:14-16. -/
def new (entries : List (T × Unit)) : SetIter T := ⟨entries, 0⟩

/-- specialized_sets/iterators.rs:22-30 (`next`). -/
def next (it : SetIter T) : Option T × SetIter T :=
  match it.entries[it.index]? with
  | some e => (some e.1, { it with index := it.index + 1 })
  | none => (none, it)

/-- specialized_sets/iterators.rs:54-56 (`ExactSizeIterator::len`). -/
def len (oc : Bool) (it : SetIter T) : Res Nat := usub oc it.entries.length it.index

/-- specialized_sets/iterators.rs:32-34 (`size_hint`). -/
def sizeHint (oc : Bool) (it : SetIter T) : Res (Nat × Option Nat) := do
  let a ← it.len oc
  let b ← it.len oc
  return (a, some b)

/-- specialized_sets/iterators.rs:36-41 (`count`): `self.len() - self.index`, where `self.len()`
already subtracted the index. -/
def count (oc : Bool) (it : SetIter T) : Res Nat := do
  let l ← it.len oc
  usub oc l it.index

end SetIter

/-- specialized_sets/iterators.rs:72-82 (`IntoIter`), a `std::vec::IntoIter`: the remaining items. -/
structure SetIntoIter (T : Type) where
  rest : List (T × Unit)

namespace SetIntoIter
variable {T : Type}

/-- specialized_sets/iterators.rs:77-81. -/
def new (entries : List (T × Unit)) : SetIntoIter T := ⟨entries⟩

/-- specialized_sets/iterators.rs:87-90. -/
def next (it : SetIntoIter T) : Option T × SetIntoIter T :=
  match it.rest with
  | [] => (none, it)
  | e :: es => (some e.1, ⟨es⟩)

/-- specialized_sets/iterators.rs:92-94 (std's exact hint). -/
def sizeHint (it : SetIntoIter T) : Nat × Option Nat := (it.rest.length, some it.rest.length)

/-- specialized_sets/iterators.rs:96-101. -/
def count (it : SetIntoIter T) : Nat := it.rest.length

/-- specialized_sets/iterators.rs:105-107. -/
def len (it : SetIntoIter T) : Nat := it.rest.length

end SetIntoIter

/-! ### The `Set` trait and the set-operation iterators -/

/-- A value of a type implementing `Set<T>` (specialized_sets/set.rs:9-181): what `iter` yields,
`contains`, and `len`. Simplification: the iterator of a set is the list of its remaining items, so
it is assumed to keep returning `None` once exhausted. -/
structure SetI (T : Type) where
  iter : List T
  contains : T → Res Bool
  len : Nat

/-- State of a set-operation iterator: the two sets and the items their iterators have left
(specialized_sets/iterators.rs:122-132, 227-237, 325-334, 408-418). `Difference` has no second
iterator; its `it2` stays unused. -/
structure BinIter (T : Type) where
  s1 : SetI T
  it1 : List T
  s2 : SetI T
  it2 : List T

/-- specialized_sets/iterators.rs:139-146, 244-251, 341-347, 425-432 (`new`). -/
def BinIter.new {T : Type} (s1 s2 : SetI T) : BinIter T := ⟨s1, s1.iter, s2, s2.iter⟩

/-- `loop { let item = iter.next()?; if contains(item) == want { return Some(item) } }`
(specialized_sets/iterators.rs:163-168, 175-180, 274-279, 358-363, 444-449, 451-456): the next item
and the iterator's remaining items. -/
def skipTo {T : Type} (want : Bool) (contains : T → Res Bool) : List T → Res (Option T × List T)
  | [] => .ok (none, [])
  | x :: xs =>
    match contains x with
    | .ok b => if b = want then .ok (some x, xs) else skipTo want contains xs
    | .panic => .panic
    | .ub => .ub

namespace BinIter
variable {T : Type}

/-- specialized_sets/iterators.rs:156-182 (`Union::next`). -/
def unionNext (s : BinIter T) : Res (Option T × BinIter T) :=
  if s.s1.len > s.s2.len then
    match s.it1 with
    | x :: xs => .ok (some x, { s with it1 := xs })
    | [] =>
      match skipTo false s.s1.contains s.it2 with
      | .ok (o, rest) => .ok (o, { s with it2 := rest })
      | .panic => .panic
      | .ub => .ub
  else
    match s.it2 with
    | x :: xs => .ok (some x, { s with it2 := xs })
    | [] =>
      match skipTo false s.s2.contains s.it1 with
      | .ok (o, rest) => .ok (o, { s with it1 := rest })
      | .panic => .panic
      | .ub => .ub

/-- specialized_sets/iterators.rs:261-280 (`SymmetricDifference::next`). -/
def symDiffNext (s : BinIter T) : Res (Option T × BinIter T) :=
  match skipTo false s.s2.contains s.it1 with
  | .ok (some x, rest) => .ok (some x, { s with it1 := rest })
  | .ok (none, rest) =>
    match skipTo false s.s1.contains s.it2 with
    | .ok (o, rest2) => .ok (o, { s with it1 := rest, it2 := rest2 })
    | .panic => .panic
    | .ub => .ub
  | .panic => .panic
  | .ub => .ub

/-- specialized_sets/iterators.rs:357-364 (`Difference::next`). -/
def differenceNext (s : BinIter T) : Res (Option T × BinIter T) :=
  match skipTo false s.s2.contains s.it1 with
  | .ok (o, rest) => .ok (o, { s with it1 := rest })
  | .panic => .panic
  | .ub => .ub

/-- specialized_sets/iterators.rs:442-458 (`Intersection::next`). -/
def intersectionNext (s : BinIter T) : Res (Option T × BinIter T) :=
  if s.s1.len < s.s2.len then
    match skipTo true s.s2.contains s.it1 with
    | .ok (o, rest) => .ok (o, { s with it1 := rest })
    | .panic => .panic
    | .ub => .ub
  else
    match skipTo true s.s1.contains s.it2 with
    | .ok (o, rest) => .ok (o, { s with it2 := rest })
    | .panic => .panic
    | .ub => .ub

/-- `usize::checked_add`. std, called at specialized_sets/iterators.rs:185, 283. -/
def checkedAdd (a b : Nat) : Option Nat := if a + b < usz then some (a + b) else none

/-- specialized_sets/iterators.rs:184-186 (`Union::size_hint`). -/
def unionSizeHint (s : BinIter T) : Nat × Option Nat := (s.s1.len, checkedAdd s.s1.len s.s2.len)

/-- specialized_sets/iterators.rs:282-284 (`SymmetricDifference::size_hint`). -/
def symDiffSizeHint (s : BinIter T) : Nat × Option Nat := (0, checkedAdd s.s1.len s.s2.len)

/-- specialized_sets/iterators.rs:366-368 (`Difference::size_hint`). -/
def differenceSizeHint (s : BinIter T) : Nat × Option Nat := (0, some s.s1.len)

/-- specialized_sets/iterators.rs:460-462 (`Intersection::size_hint`). -/
def intersectionSizeHint (s : BinIter T) : Nat × Option Nat := (0, some (max s.s1.len s.s2.len))

/-- Items the two inner iterators still hold: the termination measure of draining. Model device for
specialized_sets/iterators.rs:156-182 and 261-280. -/
def size (s : BinIter T) : Nat := s.it1.length + s.it2.length

end BinIter

omit [Target] in
theorem skipTo_length {T : Type} {want : Bool} {contains : T → Res Bool} {l : List T}
    {x : T} {rest : List T} (h : skipTo want contains l = .ok (some x, rest)) :
    rest.length < l.length := by
  induction l with
  | nil => simp [skipTo] at h
  | cons y ys ih =>
    simp only [skipTo] at h
    split at h
    · split at h
      · simp at h; simp [h.2]
      · have := ih h; simp; omega
    · simp at h
    · simp at h

/-- Calling `next` until it returns `None` (a `for` loop, `collect`, `count`, …). The iterator must
shrink some size whenever it yields; that is the proof that the loop ends. Model device: the caller's
loop over e.g. specialized_sets/iterators.rs:156-182. -/
def drain {σ T : Type} (next : σ → Res (Option T × σ)) (size : σ → Nat)
    (hdec : ∀ s x s', next s = .ok (some x, s') → size s' < size s) (s : σ) : Res (List T) :=
  match _h : next s with
  | .ok (some x, s') =>
    match drain next size hdec s' with
    | .ok xs => .ok (x :: xs)
    | .panic => .panic
    | .ub => .ub
  | .ok (none, _) => .ok []
  | .panic => .panic
  | .ub => .ub
termination_by size s
decreasing_by exact hdec _ _ _ _h

namespace BinIter
variable {T : Type}

omit [Target] in
theorem unionNext_dec (s : BinIter T) (x : T) (s' : BinIter T)
    (h : s.unionNext = .ok (some x, s')) : s'.size < s.size := by
  unfold unionNext at h
  split at h
  · split at h
    · rename_i heq; simp at h; rw [← h.2]; simp [size, heq]
    · rename_i heq
      split at h <;> simp at h
      rename_i o rest hsk
      obtain ⟨rfl, rfl⟩ := h
      have := skipTo_length hsk
      simp [size, heq]; omega
  · split at h
    · rename_i heq; simp at h; rw [← h.2]; simp [size, heq]
    · rename_i heq
      split at h <;> simp at h
      rename_i o rest hsk
      obtain ⟨rfl, rfl⟩ := h
      have := skipTo_length hsk
      simp [size, heq]; omega

omit [Target] in
theorem skipTo_length_le {T : Type} {want : Bool} {contains : T → Res Bool} {l : List T}
    {o : Option T} {rest : List T} (h : skipTo want contains l = .ok (o, rest)) :
    rest.length ≤ l.length := by
  induction l with
  | nil => simp [skipTo] at h; simp [h.2]
  | cons y ys ih =>
    simp only [skipTo] at h
    split at h
    · split at h
      · simp at h; simp [h.2]
      · have := ih h; simp; omega
    · simp at h
    · simp at h

omit [Target] in
theorem symDiffNext_dec (s : BinIter T) (x : T) (s' : BinIter T)
    (h : s.symDiffNext = .ok (some x, s')) : s'.size < s.size := by
  unfold symDiffNext at h
  split at h
  · rename_i hsk; simp at h
    obtain ⟨rfl, rfl⟩ := h
    have := skipTo_length hsk
    simp [size]; omega
  · rename_i hsk
    split at h <;> simp at h
    rename_i o rest2 hsk2
    obtain ⟨rfl, rfl⟩ := h
    have := skipTo_length hsk2
    have := skipTo_length_le hsk
    simp [size]; omega
  · simp at h
  · simp at h

omit [Target] in
theorem differenceNext_dec (s : BinIter T) (x : T) (s' : BinIter T)
    (h : s.differenceNext = .ok (some x, s')) : s'.size < s.size := by
  unfold differenceNext at h
  split at h <;> simp at h
  rename_i hsk
  obtain ⟨rfl, rfl⟩ := h
  have := skipTo_length hsk
  simp [size]; omega

omit [Target] in
theorem intersectionNext_dec (s : BinIter T) (x : T) (s' : BinIter T)
    (h : s.intersectionNext = .ok (some x, s')) : s'.size < s.size := by
  unfold intersectionNext at h
  split at h
  · split at h <;> simp at h
    rename_i hsk
    obtain ⟨rfl, rfl⟩ := h
    have := skipTo_length hsk
    simp [size]; omega
  · split at h <;> simp at h
    rename_i hsk
    obtain ⟨rfl, rfl⟩ := h
    have := skipTo_length hsk
    simp [size]; omega

/-- Everything a `Union` iterator still yields. specialized_sets/iterators.rs:156-182. -/
def unionAll (s : BinIter T) : Res (List T) := drain unionNext size unionNext_dec s
/-- Everything a `SymmetricDifference` iterator still yields. specialized_sets/iterators.rs:261-280. -/
def symDiffAll (s : BinIter T) : Res (List T) := drain symDiffNext size symDiffNext_dec s
/-- Everything a `Difference` iterator still yields. specialized_sets/iterators.rs:357-364. -/
def differenceAll (s : BinIter T) : Res (List T) := drain differenceNext size differenceNext_dec s
/-- Everything an `Intersection` iterator still yields. specialized_sets/iterators.rs:442-458. -/
def intersectionAll (s : BinIter T) : Res (List T) :=
  drain intersectionNext size intersectionNext_dec s

end BinIter

end FC
