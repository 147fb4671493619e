import Verif.Model.FrozenSet
import Verif.Model.UserCode

/-
Model of the derived `Clone` implementations. A derived `Clone` clones every field; `Box<[(K, V)]>`
clones entry by entry, first to last. The caller's `K: Clone` and `V: Clone` are the functions `ck`
and `cv`. A cloned hasher is taken to hash like the original. `u32` and `String` clone to equal
values, so the maps over integer and byte-string keys take no `ck`.
-/

set_option autoImplicit false

namespace FC
variable [Target]

section Maps
variable {K V : Type}

/-- `<[(K, V)] as ToOwned>`: cloning an entry slice. std; called by the derived `Clone` of
specialized_maps/hash_table.rs:8-13. -/
def cloneEntries (ck : K → K) (cv : V → V) (es : List (K × V)) : List (K × V) :=
  es.map fun e => (ck e.1, cv e.2)

/-- specialized_maps/hash_table.rs:8-13 (`#[derive(Clone)] HashTable`) and 15-19 (`HashTableSlot`, whose
two numbers are copied). -/
def HashTable.clone (ck : K → K) (cv : V → V) (t : HashTable K V) : HashTable K V where
  numSlots := t.numSlots
  slots := t.slots.map fun s => ⟨s.minIndex, s.maxIndex⟩
  entries := cloneEntries ck cv t.entries

/-- specialized_maps/scanning_map.rs:11-14. -/
def ScanningMap.clone (ck : K → K) (cv : V → V) (m : ScanningMap K V) : ScanningMap K V :=
  ⟨cloneEntries ck cv m.entries⟩

/-- specialized_maps/common_map.rs:18-22. -/
def CommonMap.clone (ck : K → K) (cv : V → V) (m : CommonMap K V) : CommonMap K V :=
  ⟨m.table.clone ck cv, m.bh⟩

/-- specialized_maps/integer_map.rs:16-19. -/
def IntegerMap.clone (cv : V → V) (m : IntegerMap V) : IntegerMap V :=
  ⟨m.table.clone id cv⟩

/-- specialized_maps/length_map.rs:17-20. -/
def LengthMap.clone (ck : K → K) (cv : V → V) (m : LengthMap K V) : LengthMap K V :=
  ⟨m.table.clone ck cv⟩

/-- specialized_maps/left_slice_map.rs:19-24. -/
def LeftSliceMap.clone (cv : V → V) (m : LeftSliceMap V) : LeftSliceMap V :=
  { m with table := m.table.clone id cv }

/-- specialized_maps/right_slice_map.rs:19-24. -/
def RightSliceMap.clone (cv : V → V) (m : RightSliceMap V) : RightSliceMap V :=
  { m with table := m.table.clone id cv }

/-- specialized_maps/integer_range_map.rs:13-18. -/
def IntegerRangeMap.clone (cv : V → V) (m : IntegerRangeMap V) : IntegerRangeMap V :=
  { m with entries := cloneEntries id cv m.entries }

/-- facades/frozen_map.rs:20-39 (`#[derive(Clone)] MapTypes`) and 152-155 (`FrozenMap`). -/
def FrozenMap.clone (ck : K → K) (cv : V → V) : FrozenMap K V → FrozenMap K V
  | .scanning m => .scanning (m.clone ck cv)
  | .commonSmall m => .commonSmall (m.clone ck cv)
  | .commonLarge m => .commonLarge (m.clone ck cv)
  | .u32Small m => .u32Small (m.clone cv)
  | .u32Large m => .u32Large (m.clone cv)
  | .u32Range m => .u32Range (m.clone cv)
  | .leftSmall m => .leftSmall (m.clone cv)
  | .leftLarge m => .leftLarge (m.clone cv)
  | .rightSmall m => .rightSmall (m.clone cv)
  | .rightLarge m => .rightLarge (m.clone cv)
  | .lengthSmall m => .lengthSmall (m.clone id cv)

end Maps

section Sets
variable {T : Type}

/-- specialized_sets/scanning_set.rs:14-17; the values of a set's map are `()`. -/
def ScanningSet.clone (ct : T → T) (s : ScanningSet T) : ScanningSet T := ⟨s.map.clone ct id⟩

/-- specialized_sets/common_set.rs:22-25. -/
def CommonSet.clone (ct : T → T) (s : CommonSet T) : CommonSet T := ⟨s.map.clone ct id⟩

/-- specialized_sets/integer_set.rs:14-17. -/
def IntegerSet.clone (s : IntegerSet) : IntegerSet := ⟨s.map.clone id⟩

/-- specialized_sets/length_set.rs:14-17. -/
def LengthSet.clone (ct : T → T) (s : LengthSet T) : LengthSet T := ⟨s.map.clone ct id⟩

/-- specialized_sets/left_slice_set.rs:15-18. -/
def LeftSliceSet.clone (s : LeftSliceSet) : LeftSliceSet := ⟨s.map.clone id⟩

/-- specialized_sets/right_slice_set.rs:15-18. -/
def RightSliceSet.clone (s : RightSliceSet) : RightSliceSet := ⟨s.map.clone id⟩

/-- specialized_sets/integer_range_set.rs:14-17. -/
def IntegerRangeSet.clone (s : IntegerRangeSet) : IntegerRangeSet := ⟨s.map.clone id⟩

/-- facades/frozen_set.rs:19-38 (`#[derive(Clone)] SetTypes`) and 130-133 (`FrozenSet`). -/
def FrozenSet.clone (ct : T → T) : FrozenSet T → FrozenSet T
  | .scanning s => .scanning (s.clone ct)
  | .commonSmall s => .commonSmall (s.clone ct)
  | .commonLarge s => .commonLarge (s.clone ct)
  | .u32Small s => .u32Small s.clone
  | .u32Large s => .u32Large s.clone
  | .u32Range s => .u32Range s.clone
  | .leftSmall s => .leftSmall s.clone
  | .leftLarge s => .leftLarge s.clone
  | .rightSmall s => .rightSmall s.clone
  | .rightLarge s => .rightLarge s.clone
  | .lengthSmall s => .lengthSmall (s.clone id)

end Sets

/-- The derived `Clone`s with arbitrary code for `K: Clone` and `V: Clone`, cloning the pairs first to
last (scanning_map.rs:11, hash_table.rs:8, common_map.rs:18, length_map.rs:17, left_slice_map.rs:19,
right_slice_map.rs:19, frozen_map.rs:20). -/
def UMap.clone {σ K V : Type} (ck : K → Call σ K) (cv : V → Call σ V) :
    UMap K V → Call σ (UMap K V)
  | .scanning es => do
    let es' ← Call.mapList (fun e : K × V => do return (← ck e.1, ← cv e.2)) es
    return .scanning es'
  | .hashed t => do
    let es' ← Call.mapList (fun e : K × V => do return (← ck e.1, ← cv e.2)) t.entries
    return .hashed ⟨t.numSlots, t.slots, es'⟩

end FC
