import Verif.Model.FrozenSet

/-
Model of the `Debug` implementations. The text is the one of `{:?}` without flags. A caller's `fmt`
is a function giving the text it writes, or `none` when it returns `Err`.
-/

set_option autoImplicit false

namespace FC
variable [Target]

/-- `Debug` of a caller's type. Called through specialized_maps/hash_table.rs:125. -/
abbrev Fmt (α : Type) := α → Option String

/-- core::fmt::builders (outside the repo): `DebugList`/`DebugMap` while being filled. `out` is the
text so far, `none` after an error; `hasFields` says whether something was written. Used at
specialized_maps/hash_table.rs:125, specialized_sets/common_set.rs:206. -/
structure Builder where
  out : Option String
  hasFields : Bool

namespace Builder

/-- `Formatter::debug_list` and `debug_map`: writes the opening bracket. Called at
specialized_maps/hash_table.rs:125, specialized_sets/common_set.rs:206. -/
def start (opening : String) : Builder := ⟨some opening, false⟩

/-- `DebugList::entry`: a separator unless this is the first entry, then the entry. Once an error
occurred nothing more is written. Called through specialized_sets/common_set.rs:206. -/
def entry (b : Builder) (item : Option String) : Builder :=
  ⟨b.out.bind fun o =>
      item.map fun s => if b.hasFields then (o ++ ", ") ++ s else o ++ s, true⟩

/-- `DebugMap::entry`: key, then `": "`, then value. Called through specialized_maps/hash_table.rs:125.
-/
def mapEntry (b : Builder) (key value : Option String) : Builder :=
  b.entry (key.bind fun k => value.map fun v => k ++ ": " ++ v)

/-- `finish`: the closing bracket. Called at specialized_maps/hash_table.rs:125,
specialized_sets/common_set.rs:206. -/
def finish (b : Builder) (closing : String) : Option String := b.out.map (· ++ closing)

end Builder

/-- `f.debug_list().entries(items).finish()`. specialized_sets/common_set.rs:206,
specialized_maps/iterators.rs:65. -/
def debugList {α : Type} (fa : Fmt α) (items : List α) : Option String :=
  (items.foldl (fun b x => b.entry (fa x)) (Builder.start "[")).finish "]"

/-- `f.debug_map().entries(pairs).finish()`. specialized_maps/hash_table.rs:125, scanning_map.rs:143,
integer_range_map.rs:168. -/
def debugMap {K V : Type} (fk : Fmt K) (fv : Fmt V) (pairs : List (K × V)) : Option String :=
  (pairs.foldl (fun b e => b.mapEntry (fk e.1) (fv e.2)) (Builder.start "{")).finish "}"

/-- core's `Debug for ()`. Reached from a set through specialized_maps/hash_table.rs:125. -/
def fmtUnit : Fmt Unit := fun _ => some "()"

/-- core's `Debug` for pairs: `(a, b)`. Reached from specialized_maps/iterators.rs:65. -/
def fmtPair {α β : Type} (fa : Fmt α) (fb : Fmt β) : Fmt (α × β) :=
  fun p => (fa p.1).bind fun a => (fb p.2).map fun b => "(" ++ a ++ ", " ++ b ++ ")"

/-! ### Maps -/

section Maps
variable {K V : Type}

/-- specialized_maps/hash_table.rs:118-127. -/
def HashTable.debug (fk : Fmt K) (fv : Fmt V) (t : HashTable K V) : Option String :=
  debugMap fk fv (t.entries.map fun x => (x.1, x.2))

/-- specialized_maps/scanning_map.rs:136-145. -/
def ScanningMap.debug (fk : Fmt K) (fv : Fmt V) (m : ScanningMap K V) : Option String :=
  debugMap fk fv (m.entries.map fun x => (x.1, x.2))

/-- specialized_maps/common_map.rs:197-205. -/
def CommonMap.debug (fk : Fmt K) (fv : Fmt V) (m : CommonMap K V) : Option String :=
  m.table.debug fk fv

/-- specialized_maps/integer_map.rs:164-172. -/
def IntegerMap.debug (fk : Fmt Int) (fv : Fmt V) (m : IntegerMap V) : Option String :=
  m.table.debug fk fv

/-- specialized_maps/length_map.rs:166-174. -/
def LengthMap.debug (fk : Fmt K) (fv : Fmt V) (m : LengthMap K V) : Option String :=
  m.table.debug fk fv

/-- specialized_maps/left_slice_map.rs:229-237. -/
def LeftSliceMap.debug (fk : Fmt Bytes) (fv : Fmt V) (m : LeftSliceMap V) : Option String :=
  m.table.debug fk fv

/-- specialized_maps/right_slice_map.rs:232-240. -/
def RightSliceMap.debug (fk : Fmt Bytes) (fv : Fmt V) (m : RightSliceMap V) : Option String :=
  m.table.debug fk fv

/-- specialized_maps/integer_range_map.rs:161-170. -/
def IntegerRangeMap.debug (fk : Fmt Int) (fv : Fmt V) (m : IntegerRangeMap V) : Option String :=
  debugMap fk fv (m.entries.map fun x => (x.1, x.2))

/-- `Debug` of `u32`, which is `K` when this is reached (the variants hold `u32` keys,
facades/frozen_map.rs:25-27). -/
def KeyTy.fmtInt (ty : KeyTy K) (fk : Fmt K) : Fmt Int := fun i =>
  match ty.kind with
  | .u32 _ g => fk (g i)
  | _ => none

/-- `Debug` of `String`, which is `K` when this is reached (facades/frozen_map.rs:28-35). -/
def KeyTy.fmtB (ty : KeyTy K) (fk : Fmt K) : Fmt Bytes := fun b =>
  match ty.kind with
  | .string _ g => fk (g b)
  | _ => none

/-- facades/frozen_map.rs:745-766. -/
def FrozenMap.debug (ty : KeyTy K) (fk : Fmt K) (fv : Fmt V) : FrozenMap K V → Option String
  | .scanning m => m.debug fk fv
  | .commonSmall m => m.debug fk fv
  | .commonLarge m => m.debug fk fv
  | .u32Small m => m.debug (ty.fmtInt fk) fv
  | .u32Large m => m.debug (ty.fmtInt fk) fv
  | .u32Range m => m.debug (ty.fmtInt fk) fv
  | .leftSmall m => m.debug (ty.fmtB fk) fv
  | .leftLarge m => m.debug (ty.fmtB fk) fv
  | .rightSmall m => m.debug (ty.fmtB fk) fv
  | .rightLarge m => m.debug (ty.fmtB fk) fv
  | .lengthSmall m => m.debug (ty.fmtB fk) fv

end Maps

/-! ### Sets -/

section Sets
variable {T : Type}

/-- specialized_sets/scanning_set.rs:64-71. -/
def ScanningSet.debug (ft : Fmt T) (s : ScanningSet T) : Option String := s.map.debug ft fmtUnit

/-- specialized_sets/common_set.rs:199-208: the only set that prints as a list. -/
def CommonSet.debug (ft : Fmt T) (s : CommonSet T) : Option String := debugList ft s.iter.items

/-- specialized_sets/integer_set.rs:65-72. -/
def IntegerSet.debug (ft : Fmt Int) (s : IntegerSet) : Option String := s.map.debug ft fmtUnit

/-- specialized_sets/length_set.rs:70-77. -/
def LengthSet.debug (ft : Fmt T) (s : LengthSet T) : Option String := s.map.debug ft fmtUnit

/-- specialized_sets/left_slice_set.rs:117-124. -/
def LeftSliceSet.debug (ft : Fmt Bytes) (s : LeftSliceSet) : Option String := s.map.debug ft fmtUnit

/-- specialized_sets/right_slice_set.rs:117-124. -/
def RightSliceSet.debug (ft : Fmt Bytes) (s : RightSliceSet) : Option String :=
  s.map.debug ft fmtUnit

/-- specialized_sets/integer_range_set.rs:64-71. -/
def IntegerRangeSet.debug (ft : Fmt Int) (s : IntegerRangeSet) : Option String :=
  s.map.debug ft fmtUnit

/-! `FrozenSet` has no `Debug`: the code at facades/frozen_set.rs:481-502 is commented out. -/

end Sets

/-! ### Iterators

Each `fmt` clones the iterator and lets `debug_list().entries(..)` run the clone to its end. -/

section Iterators
variable {K V T : Type}

/-- specialized_maps/iterators.rs:17-24. -/
def MapIter.clone (it : MapIter K V) : MapIter K V := ⟨it.entries, it.index⟩

/-- specialized_maps/iterators.rs:83-89. -/
def MapKeys.clone (it : MapKeys K V) : MapKeys K V := ⟨it.inner.clone⟩

/-- specialized_maps/iterators.rs:147-153. -/
def MapValues.clone (it : MapValues K V) : MapValues K V := ⟨it.inner.clone⟩

/-- specialized_sets/iterators.rs:44-51. -/
def SetIter.clone (it : SetIter T) : SetIter T := ⟨it.entries, it.index⟩

/-- specialized_sets/iterators.rs:71 (derived): the remaining items are cloned one by one with the
caller's `Clone`. -/
def SetIntoIter.clone (c : T → T) (it : SetIntoIter T) : SetIntoIter T :=
  ⟨it.rest.map fun e => (c e.1, e.2)⟩

/-- specialized_sets/iterators.rs:189-204, 287-302, 371-385, 465-480. -/
def BinIter.clone (it : BinIter T) : BinIter T := ⟨it.s1, it.it1, it.s2, it.it2⟩

/-- specialized_maps/iterators.rs:59-67: one builder call per item the clone yields. -/
def MapIter.debug (fk : Fmt K) (fv : Fmt V) (it : MapIter K V) : Option String :=
  ((it.clone).fold (fun b e => b.entry (fmtPair fk fv e)) (Builder.start "[")).finish "]"

/-- specialized_maps/iterators.rs:123-131. -/
def MapKeys.debug (fk : Fmt K) (it : MapKeys K V) : Option String :=
  ((it.clone).fold (fun b k => b.entry (fk k)) (Builder.start "[")).finish "]"

/-- specialized_maps/iterators.rs:187-195. -/
def MapValues.debug (fv : Fmt V) (it : MapValues K V) : Option String :=
  ((it.clone).fold (fun b v => b.entry (fv v)) (Builder.start "[")).finish "]"

/-- specialized_sets/iterators.rs:61-68; what the clone yields is `items` (C46). -/
def SetIter.debug (ft : Fmt T) (it : SetIter T) : Option String := debugList ft it.clone.items

/-- specialized_sets/iterators.rs:112-119. -/
def SetIntoIter.debug (c : T → T) (ft : Fmt T) (it : SetIntoIter T) : Option String :=
  debugList ft ((it.clone c).rest.map (·.1))

/-- specialized_sets/iterators.rs:213-224 (`Union`). -/
def BinIter.unionDebug (ft : Fmt T) (it : BinIter T) : Res (Option String) :=
  it.clone.unionAll.map (debugList ft)

/-- specialized_sets/iterators.rs:311-322 (`SymmetricDifference`). -/
def BinIter.symDiffDebug (ft : Fmt T) (it : BinIter T) : Res (Option String) :=
  it.clone.symDiffAll.map (debugList ft)

/-- specialized_sets/iterators.rs:394-405 (`Difference`). -/
def BinIter.differenceDebug (ft : Fmt T) (it : BinIter T) : Res (Option String) :=
  it.clone.differenceAll.map (debugList ft)

/-- specialized_sets/iterators.rs:489-500 (`Intersection`). -/
def BinIter.intersectionDebug (ft : Fmt T) (it : BinIter T) : Res (Option String) :=
  it.clone.intersectionAll.map (debugList ft)

end Iterators

end FC
