import Verif.Model.FrozenMap
import Verif.Model.FrozenSet

/-
How much room a map takes.
-/

set_option autoImplicit false

namespace FC
variable {K V T : Type}

/-- A table of `slots` slots for `n` entries: about one slot per entry at least, sixteen, ten or three
per entry at most. -/
structure Proportionate (n slots : Nat) : Prop where
  none : n = 0 → slots = 1
  some : 0 < n → 0 < slots ∧ n - 5 * (n / 100) ≤ slots
  below128 : 0 < n → n < 128 → n ≤ slots ∧ slots ≤ 16 * n
  from128 : 128 ≤ n → slots ≤ 10 * n
  from1000 : 1000 ≤ n → slots ≤ 3 * n

/-- A map holding the table `t` made from `n` entries: exactly the entries and a proportionate number
of slots, none of which designates anything beyond the entries. -/
structure Compact (t : HashTable K V) (n : Nat) : Prop where
  entries : t.entries.length = n
  slots : Proportionate n t.slots.length
  indices : ∀ s ∈ t.slots, s.minIndex ≤ s.maxIndex ∧ s.maxIndex ≤ n

variable [Target]

/-- The slots of the hash table inside a `FrozenMap`, if there is one, and the type of the two indices
that a slot consists of: facades/frozen_map.rs:21-39 (`MapTypes`), specialized_maps/hash_table.rs:16-19
(`HashTableSlot`). -/
def FrozenMap.slotTable : FrozenMap K V → Option (IdxTy × List Slot)
  | .scanning _ => none
  | .u32Range _ => none
  | .commonSmall m => some (IdxTy.u8, m.table.slots)
  | .commonLarge m => some (IdxTy.usize, m.table.slots)
  | .u32Small m => some (IdxTy.u8, m.table.slots)
  | .u32Large m => some (IdxTy.usize, m.table.slots)
  | .leftSmall m => some (IdxTy.u8, m.table.slots)
  | .leftLarge m => some (IdxTy.usize, m.table.slots)
  | .rightSmall m => some (IdxTy.u8, m.table.slots)
  | .rightLarge m => some (IdxTy.usize, m.table.slots)
  | .lengthSmall m => some (IdxTy.u8, m.table.slots)

/-- The same for a `FrozenSet`: facades/frozen_set.rs:20-38 (`SetTypes`). -/
def FrozenSet.slotTable : FrozenSet T → Option (IdxTy × List Slot)
  | .scanning _ => none
  | .u32Range _ => none
  | .commonSmall s => some (IdxTy.u8, s.map.table.slots)
  | .commonLarge s => some (IdxTy.usize, s.map.table.slots)
  | .u32Small s => some (IdxTy.u8, s.map.table.slots)
  | .u32Large s => some (IdxTy.usize, s.map.table.slots)
  | .leftSmall s => some (IdxTy.u8, s.map.table.slots)
  | .leftLarge s => some (IdxTy.usize, s.map.table.slots)
  | .rightSmall s => some (IdxTy.u8, s.map.table.slots)
  | .rightLarge s => some (IdxTy.usize, s.map.table.slots)
  | .lengthSmall s => some (IdxTy.u8, s.map.table.slots)

/-- Bits taken by the slots. -/
def tableBits : Option (IdxTy × List Slot) → Nat
  | none => 0
  | some (S, slots) => slots.length * (2 * S.bits)

/-- No table, or a proportionate one whose slots hold bytes up to 255 entries and machine words
beyond. -/
def TableFits (n : Nat) (tab : Option (IdxTy × List Slot)) : Prop :=
  tab = none ∨ ∃ slots, tab = some (if n ≤ 255 then IdxTy.u8 else IdxTy.usize, slots) ∧
    4 ≤ n ∧ Proportionate n slots.length ∧ ∀ s ∈ slots, s.minIndex ≤ s.maxIndex ∧ s.maxIndex ≤ n

end FC
