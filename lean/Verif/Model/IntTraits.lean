import Verif.Model.UserCode

/-
The maps over integer types of the caller's own. `PrimInt` and `Unsigned` of the `num_traits` crate
are open traits, which safe code can implement. They bound the index type `S` of every hash-based
map, and the keys and probes of `IntegerRangeMap`. Here the implementations of these traits are
arbitrary code, like those of the key types in Model/UserCode.lean.
-/

set_option autoImplicit false

namespace FC
variable [Target]
variable {σ X M K V Q : Type}

/-- What a map offers to the rest of its code: a lookup that says where the entry is, equality of two
probes, the entries, and a write through a reference to entry `i`. Model device for `get_many_mut` and
`PartialEq`, e.g. specialized_maps/common_map.rs:121-145 and 249-256. -/
structure CallApi (σ M K V Q : Type) where
  lookup : M → Q → Call σ (Option (K × Ref V))
  same : Q → Q → Call σ Bool
  entries : M → List (K × V)
  write : M → Nat → V → M

namespace CallApi

/-- The uniqueness test of `get_many_mut` (lines at `getManyMut` in Model/Maps.lean). E.g.
specialized_maps/common_map.rs:127-133. -/
def hasDup (A : CallApi σ M K V Q) : List Q → List Q → Call σ Bool
  | _, [] => pure false
  | seen, k :: ks => do
    if ← Call.anyList (fun s => A.same s k) seen then return true
    else hasDup A (seen ++ [k]) ks

/-- The second loop of `get_many_mut`. E.g. specialized_maps/common_map.rs:135-144. -/
def getAll (A : CallApi σ M K V Q) (m : M) : List Q → Call σ (Option (List (Ref V)))
  | [] => pure (some [])
  | k :: ks => do
    match ← A.lookup m k with
    | none => return none
    | some r =>
      match ← getAll A m ks with
      | none => return none
      | some rs => return some (r.2 :: rs)

/-- `get_many_mut`. E.g. specialized_maps/common_map.rs:121-145, integer_range_map.rs:88-112. -/
def getManyMut (A : CallApi σ M K V Q) (m : M) (qs : List Q) : Call σ (Option (List (Ref V))) := do
  if ← A.hasDup [] qs then return none else A.getAll m qs

end CallApi

/-- The maps of Model/UserCode.lean. E.g. specialized_maps/common_map.rs:58-118. -/
def UMap.api (u : UserCode σ K Q) : CallApi σ (UMap K V) K V Q where
  lookup := UMap.lookup u
  same := u.isSame
  entries := UMap.entries
  write := UMap.write

/-! ### An index type of the caller's own -/

/-- The calls a table makes into the code of its index type `S: PrimInt + Unsigned`. `PrimInt`
implies `Copy`, so copying a value runs no code. specialized_maps/hash_table.rs:30-108. -/
structure IdxCode (σ X : Type) where
  /-- `S::zero()` -/
  zero : Call σ X
  /-- `S::max_value()` -/
  maxValue : Call σ X
  /-- `x.to_usize()` -/
  toUsize : X → Call σ (Option Nat)
  /-- `S::from(n)` for an `n : i32` -/
  ofI32 : Int → Call σ (Option X)
  /-- `x + y` -/
  add : X → X → Call σ X

/-- `S::from(n).unwrap()`, specialized_maps/hash_table.rs:88-89. -/
def IdxCode.mk! (I : IdxCode σ X) (n : Int) : Call σ X := do
  match ← I.ofI32 n with
  | some x => return x
  | none => Call.lift .panic

/-- `x.to_usize().unwrap()`, specialized_maps/hash_table.rs:43 and 107. -/
def IdxCode.size! (I : IdxCode σ X) (x : X) : Call σ Nat := do
  match ← I.toUsize x with
  | some n => return n
  | none => Call.lift .panic

/-- specialized_maps/hash_table.rs:9-20 with slots that hold values of the index type. -/
structure STable (X K V : Type) where
  numSlots : Nat
  slots : List (X × X)
  entries : List (K × V)

/-- The outer loop of `HashTable::new`, specialized_maps/hash_table.rs:70-93; see `fillLoop` in
Model/HashTable.lean for the counters, which are `i32`. The entry is converted twice, once for each
end. -/
def fillLoopS (oc : Bool) (I : IdxCode σ X) :
    List (PrepItem K V) → List (X × X) → List (K × V) → Int →
      Call σ (List (X × X) × List (K × V))
  | [], slots, entries, _ => pure (slots, entries)
  | item :: stack, slots, entries, entryIndex => do
    let r := runLoop item.slot item stack entries 0
    let numEntries ← Call.lift (IntTy.i32.arith oc r.2.2)
    let mn ← I.mk! entryIndex
    let base ← I.mk! entryIndex
    let cnt ← I.mk! numEntries
    let mx ← I.add base cnt
    if item.slot < slots.length then
      let next ← Call.lift (IntTy.i32.arith oc (entryIndex + numEntries))
      fillLoopS oc I r.1 (slots.set item.slot (mn, mx)) r.2.1 next
    else Call.lift .panic
termination_by stack => stack.length
decreasing_by
  have := runLoop_stack_le item.slot item stack entries 0
  simp only [List.length_cons]
  omega

/-- An empty slot: two calls of `S::zero()`, specialized_maps/hash_table.rs:38-39 and 66-67. -/
def IdxCode.emptySlot (I : IdxCode σ X) : Call σ (X × X) := do
  let a ← I.zero
  let b ← I.zero
  return (a, b)

/-- specialized_maps/hash_table.rs:30-100 (`HashTable::new`) with arbitrary code for `hash` and for the
index type. -/
def STable.new (env : Env) (I : IdxCode σ X) (payload : List (K × V)) (numHashSlots : Nat)
    (hash : K → Call σ Nat) : Call σ (STable X K V) := do
  if payload.isEmpty then
    let slot ← I.emptySlot
    return ⟨1, [slot], []⟩
  else
    let mx ← I.maxValue
    let cap ← I.size! mx
    if payload.length > cap then
      Call.lift Res.panic
    else
      let prep ← Call.mapList (fun e : K × V => do
        let code ← hash e.1
        let slot ← Call.lift (umod code numHashSlots)
        return (⟨slot, e⟩ : PrepItem K V)) payload
      let sorted := env.srt.run PrepItem.slot prep
      let empties ← Call.mapList (fun _ => I.emptySlot) (List.replicate numHashSlots ())
      let (slots, entries) ← fillLoopS env.oc I sorted.reverse empties [] 0
      if slots.length = 0 then Call.lift Res.panic
      else return ⟨slots.length, slots, entries⟩

namespace STable

/-- The two passes of construction; lines at `UMap.fromVec` in Model/UserCode.lean. E.g.
specialized_maps/common_map.rs:31-38. -/
def fromVec (env : Env) (I : IdxCode σ X) (u : UserCode σ K Q) (payload : List (K × V)) :
    Call σ (STable X K V) := do
  let codes ← Call.mapList (fun e : K × V => u.sizeCode e.1) payload
  let analysis ← Call.lift (analyzeHashCodes codes)
  STable.new env I payload analysis.numHashSlots u.slotCode

/-- specialized_maps/hash_table.rs:103-108: the slot is read unchecked, its ends are converted to
`usize`. -/
def getHashInfo (I : IdxCode σ X) (T : STable X K V) (code : Nat) : Call σ (Nat × Nat) := do
  match T.slots[code % T.numSlots]? with
  | some s =>
    let a ← I.size! s.1
    let b ← I.size! s.2
    return (a, b)
  | none => Call.lift .ub

/-- `get`, `get_key_value` and `get_mut`; lines at `UMap.lookup` in Model/UserCode.lean. E.g.
specialized_maps/common_map.rs:58-118. -/
def lookup (I : IdxCode σ X) (u : UserCode σ K Q) (T : STable X K V) (q : Q) :
    Call σ (Option (K × Ref V)) := do
  let code ← u.probeCode q
  let r ← T.getHashInfo I code
  let es ← Call.lift (sliceUnchecked T.entries r.1 r.2)
  UMap.scan u q r.1 es

/-- A write through a reference to entry `i`. E.g. specialized_maps/common_map.rs:104-118 (`get_mut`). -/
def write (T : STable X K V) (i : Nat) (v : V) : STable X K V :=
  { T with entries := setVal T.entries i v }

/-- A hash-based map with an index type of the caller's own. E.g. specialized_maps/common_map.rs:58-118.
-/
def api (I : IdxCode σ X) (u : UserCode σ K Q) : CallApi σ (STable X K V) K V Q where
  lookup := STable.lookup I u
  same := u.isSame
  entries T := T.entries
  write := STable.write

end STable

/-- The code of a built-in unsigned integer type. std and num-traits, called from
specialized_maps/hash_table.rs:30-108. -/
def IdxTy.code (S : IdxTy) (oc : Bool) : IdxCode σ Nat where
  zero := pure 0
  maxValue := pure S.max
  toUsize x := pure (if x < usz then some x else none)
  ofI32 n := pure (if 0 ≤ n ∧ n ≤ S.max then some n.toNat else none)
  add a b := Call.lift (S.add oc a b)

/-! ### Range maps over integers of the caller's own -/

/-- The calls a range map makes into the code of its key type `K: PrimInt` and probe type
`Q: PrimInt`. specialized_maps/integer_range_map.rs:28-128. -/
structure RangeCode (σ K V Q : Type) where
  /-- `K::zero()` -/
  zero : Call σ K
  /-- `payload.sort_by_key(|x| x.0)`, which calls `K::cmp`. -/
  sort : List (K × V) → Call σ (List (K × V))
  /-- `max.sub(min)` -/
  span : K → K → Call σ K
  /-- `to_usize` of a key -/
  spanSize : K → Call σ (Option Nat)
  /-- `*key >= *k.borrow()` -/
  ge : Q → K → Call σ Bool
  /-- `*key <= *k.borrow()` -/
  le : Q → K → Call σ Bool
  /-- `*key - *k.borrow()` -/
  sub : Q → K → Call σ Q
  /-- `to_usize` of a probe -/
  toUsize : Q → Call σ (Option Nat)
  /-- `keys[j].eq(keys[i])` -/
  same : Q → Q → Call σ Bool

/-- specialized_maps/integer_range_map.rs:14-18. -/
structure RMap (K V : Type) where
  min : K
  max : K
  entries : List (K × V)

namespace RMap

/-- integer_range_map.rs:28-53. -/
def fromVec (c : RangeCode σ K V Q) (payload : List (K × V)) : Call σ (RMap K V) := do
  if payload.isEmpty then
    let a ← c.zero
    let b ← c.zero
    return ⟨a, b, []⟩
  else
    let sorted ← c.sort payload
    match sorted.head?, sorted.getLast? with
    | some first, some last =>
      let d ← c.span last.1 first.1
      match ← c.spanSize d with
      | some n => if n = sorted.length - 1 then return ⟨first.1, last.1, sorted⟩ else Call.lift .panic
      | none => Call.lift .panic
    | _, _ => Call.lift .panic

/-- `get`, `get_key_value` and `get_mut`: integer_range_map.rs:59-85 and 116-127. The entry is read
with a bounds check. -/
def lookup (c : RangeCode σ K V Q) (m : RMap K V) (q : Q) : Call σ (Option (K × Ref V)) := do
  if ← c.ge q m.min then
    if ← c.le q m.max then
      let d ← c.sub q m.min
      match ← c.toUsize d with
      | some i =>
        match m.entries[i]? with
        | some e => return some (e.1, ⟨i, e.2⟩)
        | none => Call.lift .panic
      | none => return none
    else return none
  else return none

/-- A write through a reference to entry `i`. specialized_maps/integer_range_map.rs:74-85 (`get_mut`). -/
def write (m : RMap K V) (i : Nat) (v : V) : RMap K V :=
  { m with entries := setVal m.entries i v }

/-- A range map with integers of the caller's own. specialized_maps/integer_range_map.rs:59-128. -/
def api (c : RangeCode σ K V Q) : CallApi σ (RMap K V) K V Q where
  lookup := RMap.lookup c
  same := c.same
  entries m := m.entries
  write := RMap.write

end RMap

/-- The code of a built-in integer type. std and num-traits, called from
specialized_maps/integer_range_map.rs:28-128. -/
def IntTy.rangeCode (oc : Bool) (t : IntTy) : RangeCode σ Int V Int where
  zero := pure 0
  sort l := pure (stableSortByKey (·.1) l)
  span a b := Call.lift (t.arith oc (a - b))
  spanSize x := pure (FC.toUsize x)
  ge q k := pure (decide (k ≤ q))
  le q k := pure (decide (q ≤ k))
  sub q k := Call.lift (t.arith oc (q - k))
  toUsize x := pure (FC.toUsize x)
  same a b := pure (decide (a = b))

end FC
