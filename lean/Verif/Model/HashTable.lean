import Verif.Basic

/-
Model of specialized_maps/hash_table.rs.
-/

set_option autoImplicit false

namespace FC
variable [Target]

/-- specialized_maps/hash_table.rs:16-19 (`HashTableSlot`); the two `S` values as numbers. -/
structure Slot where
  minIndex : Nat
  maxIndex : Nat
  deriving Repr, DecidableEq

/-- specialized_maps/hash_table.rs:9-13 (`HashTable`). -/
structure HashTable (K V : Type) where
  numSlots : Nat
  slots : List Slot
  entries : List (K × V)
  deriving Repr, DecidableEq

/-- specialized_maps/hash_table.rs:21-24 (`PrepItem`). -/
structure PrepItem (K V : Type) where
  slot : Nat
  entry : K × V
  deriving Repr, DecidableEq

/-- The inner `loop`, specialized_maps/hash_table.rs:74-85. `stack` is `prep_items` with its last
element first, so `pop` takes the head. Returns the remaining stack, the entries and the number of
entries pushed. -/
def runLoop {K V : Type} (slot : Nat) (item : PrepItem K V) :
    List (PrepItem K V) → List (K × V) → Nat → List (PrepItem K V) × List (K × V) × Nat
  | [], entries, n => ([], entries ++ [item.entry], n + 1)
  | next :: stack, entries, n =>
    if next.slot ≠ slot then (next :: stack, entries ++ [item.entry], n + 1)
    else runLoop slot next stack (entries ++ [item.entry]) (n + 1)

omit [Target] in
theorem runLoop_stack_le {K V : Type} (slot : Nat) (item : PrepItem K V)
    (stack : List (PrepItem K V)) (entries : List (K × V)) (n : Nat) :
    (runLoop slot item stack entries n).1.length ≤ stack.length := by
  induction stack generalizing item entries n with
  | nil => simp [runLoop]
  | cons next stack ih =>
    unfold runLoop
    split
    · simp
    · exact Nat.le_succ_of_le (ih _ _ _)

/-- The outer `while let Some(item) = prep_items.pop()` loop,
specialized_maps/hash_table.rs:70-93. `slots[hash_slot_index] = ..` is bounds-checked, the
conversions to `S` and the addition in `S` can fail. The counters `entry_index` (line 61) and
`num_entries` (line 72) are integer literals whose type only `S::from` constrains, to any
`ToPrimitive`, so they are `i32`: `num_entries += 1` (line 76) and `entry_index += num_entries`
(line 92) are `i32` arithmetic. Adding 1 `n` times to an `i32` gives what adding `n` once gives. -/
def fillLoop {K V : Type} (oc : Bool) (S : IdxTy) :
    List (PrepItem K V) → List Slot → List (K × V) → Int → Res (List Slot × List (K × V))
  | [], slots, entries, _ => .ok (slots, entries)
  | item :: stack, slots, entries, entryIndex =>
    let r := runLoop item.slot item stack entries 0
    match IntTy.i32.arith oc r.2.2 with
    | .ok numEntries =>
      match S.ofI32 entryIndex with
      | .ok mn =>
        match S.ofI32 numEntries with
        | .ok cnt =>
          match S.add oc mn cnt with
          | .ok mx =>
            if item.slot < slots.length then
              match IntTy.i32.arith oc (entryIndex + numEntries) with
              | .ok entryIndex' =>
                fillLoop oc S r.1 (slots.set item.slot ⟨mn, mx⟩) r.2.1 entryIndex'
              | .panic => .panic
              | .ub => .ub
            else .panic
          | .panic => .panic
          | .ub => .ub
        | .panic => .panic
        | .ub => .ub
      | .panic => .panic
      | .ub => .ub
    | .panic => .panic
    | .ub => .ub
termination_by stack => stack.length
decreasing_by
  have := runLoop_stack_le item.slot item stack entries 0
  simp only [List.length_cons]
  omega

/-- One iteration of the preparation loop, specialized_maps/hash_table.rs:48-56. -/
def prepItem {K V : Type} (numHashSlots : Nat) (hash : K → Res Nat) (entry : K × V) :
    Res (PrepItem K V) :=
  match hash entry.1 with
  | .ok code =>
    match umod code numHashSlots with
    | .ok slot => .ok ⟨slot, entry⟩
    | .panic => .panic
    | .ub => .ub
  | .panic => .panic
  | .ub => .ub

/-- specialized_maps/hash_table.rs:30-100 (`HashTable::new`). The hash closure may itself run into
undefined behaviour (slice maps). -/
def HashTable.new {K V : Type} (env : Env) (S : IdxTy) (payload : List (K × V))
    (numHashSlots : Nat) (hash : K → Res Nat) : Res (HashTable K V) := do
  if payload.isEmpty then
    return ⟨1, [⟨0, 0⟩], []⟩
  else
    let cap ← Res.unwrap S.maxUsize
    if payload.length > cap then
      Res.panic
    else
      let prep ← Res.mapList (prepItem numHashSlots hash) payload
      let sorted := env.srt.run PrepItem.slot prep
      let (slots, entries) ←
        fillLoop env.oc S sorted.reverse (List.replicate numHashSlots ⟨0, 0⟩) [] 0
      if slots.length = 0 then Res.panic
      else return ⟨slots.length, slots, entries⟩

/-- specialized_maps/hash_table.rs:103-108 (`get_hash_info`): remainder by a `NonZeroU64`, then an
unchecked slot access. -/
def HashTable.getHashInfo {K V : Type} (t : HashTable K V) (hashCode : Nat) : Res (Nat × Nat) :=
  match t.slots[hashCode % t.numSlots]? with
  | some s => .ok (s.minIndex, s.maxIndex)
  | none => .ub

/-- specialized_maps/hash_table.rs:113-115 (`len`). -/
def HashTable.len {K V : Type} (t : HashTable K V) : Nat := t.entries.length

/-- Writing `v` through a `&mut V` that designates entry `i` (the effect of `*r = v` for a
reference obtained from `get_mut`). E.g. specialized_maps/common_map.rs:104-118; the write itself is the
caller's. -/
def setVal {K V : Type} (entries : List (K × V)) (i : Nat) (v : V) : List (K × V) :=
  entries.modify i (fun e => (e.1, v))

end FC
