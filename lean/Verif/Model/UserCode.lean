import Verif.Model.FrozenMap

/-
The hash-based maps and the scanning map once more, this time with the caller's trait
implementations (`Hash`, `BuildHasher`, `Eq`, `Borrow`, `Len`, `SliceHash`) as arbitrary code. Every
call into that code reads and changes a hidden state and may panic. So two calls with the same
argument may answer differently, as with keys that contain a `Cell`, keys that look at global state,
or keys that answer at random. Lemmas/UserCode.lean proves that for implementations that are
functions of their arguments these definitions are those of Model/Maps.lean.
-/

set_option autoImplicit false

namespace FC
variable [Target]

/-- A computation that may call the caller's code; `σ` is everything that code can read or change. Model
device for the trait calls at specialized_maps/common_map.rs:32, 35, 62, 76 and their counterparts. -/
abbrev Call (σ : Type) := StateT σ Res

/-- A step that does not involve the caller's code. Model device; e.g. for
specialized_maps/common_map.rs:73-74. -/
def Call.lift {σ α : Type} (r : Res α) : Call σ α := fun s => r.map (fun a => (a, s))

/-- The calls a map makes into the code of its key type `K` and probe type `Q`.
specialized_maps/common_map.rs:32, 35, 62, 76 and 127-133, and their counterparts. -/
structure UserCode (σ K Q : Type) where
  /-- Hash code of a key in the first pass of construction, which picks the table size. -/
  sizeCode : K → Call σ Nat
  /-- Hash code of a key in the second pass, which places the entry. -/
  slotCode : K → Call σ Nat
  /-- Hash code of a probe. -/
  probeCode : Q → Call σ Nat
  /-- `key.eq(entry.0.borrow())` -/
  isMatch : Q → K → Call σ Bool
  /-- `keys[j].eq(keys[i])` -/
  isSame : Q → Q → Call σ Bool

/-- Run code over a list, left to right. std's `map` and `for`, e.g. specialized_maps/common_map.rs:32,
hash_table.rs:48-57. -/
def Call.mapList {σ α β : Type} (f : α → Call σ β) : List α → Call σ (List β)
  | [] => pure []
  | a :: as => do
    let b ← f a
    let bs ← Call.mapList f as
    return b :: bs

/-- Do all elements pass? Stops at the first that does not (`Iterator::all`). std, called e.g. at
specialized_maps/common_map.rs:249-256. -/
def Call.allList {σ α : Type} (p : α → Call σ Bool) : List α → Call σ Bool
  | [] => pure true
  | a :: as => do
    if ← p a then Call.allList p as else return false

/-- Does some element pass? Stops at the first that does (the loop over `j` in `get_many_mut`). E.g.
specialized_maps/common_map.rs:127-133. -/
def Call.anyList {σ α : Type} (p : α → Call σ Bool) : List α → Call σ Bool
  | [] => pure false
  | a :: as => do
    if ← p a then return true else Call.anyList p as

variable {σ K V Q : Type}

/-- specialized_maps/hash_table.rs:30-100 (`HashTable::new`) with arbitrary code for `hash`. -/
def HashTable.newU (env : Env) (S : IdxTy) (payload : List (K × V)) (numHashSlots : Nat)
    (hash : K → Call σ Nat) : Call σ (HashTable K V) := do
  if payload.isEmpty then
    return ⟨1, [⟨0, 0⟩], []⟩
  else
    let cap ← Call.lift (Res.unwrap S.maxUsize)
    if payload.length > cap then
      Call.lift Res.panic
    else
      let prep ← Call.mapList (fun e : K × V => do
        let code ← hash e.1
        let slot ← Call.lift (umod code numHashSlots)
        return (⟨slot, e⟩ : PrepItem K V)) payload
      let sorted := env.srt.run PrepItem.slot prep
      let (slots, entries) ← Call.lift
        (fillLoop env.oc S sorted.reverse (List.replicate numHashSlots ⟨0, 0⟩) [] 0)
      if slots.length = 0 then Call.lift Res.panic
      else return ⟨slots.length, slots, entries⟩

/-- A map that scans all its entries, or one that scans the entries of one slot of its table.
specialized_maps/scanning_map.rs:11-14, hash_table.rs:8-13. -/
inductive UMap (K V : Type) where
  | scanning (entries : List (K × V))
  | hashed (table : HashTable K V)

/-- The two passes of construction: common_map.rs:31-38, integer_map.rs:27-32, length_map.rs:28-34,
left_slice_map.rs:33-51, right_slice_map.rs:33-51. -/
def UMap.fromVec (env : Env) (S : IdxTy) (u : UserCode σ K Q) (payload : List (K × V)) :
    Call σ (UMap K V) := do
  let codes ← Call.mapList (fun e : K × V => u.sizeCode e.1) payload
  let analysis ← Call.lift (analyzeHashCodes codes)
  let table ← HashTable.newU env S payload analysis.numHashSlots u.slotCode
  return .hashed table

/-- facades/frozen_map.rs:212-224 (`FrozenMap::new`) and 308-314 (`new_common_map`) for a key type
of the caller's own. -/
def UMap.facade (env : Env) (u : UserCode σ K Q) (payload : List (K × V)) : Call σ (UMap K V) :=
  if payload.length < 4 then pure (.scanning payload)
  else if payload.length ≤ 255 then UMap.fromVec env IdxTy.u8 u payload
  else UMap.fromVec env IdxTy.usize u payload

namespace UMap

/-- The stored entries in iteration order. specialized_maps/scanning_map.rs:115-127,
common_map.rs:160-172. -/
def entries : UMap K V → List (K × V)
  | .scanning es => es
  | .hashed T => T.entries

/-- The loop over candidate entries, e.g. common_map.rs:75-81; `i` is the place of the first. -/
def scan (u : UserCode σ K Q) (q : Q) : Nat → List (K × V) → Call σ (Option (K × Ref V))
  | _, [] => pure none
  | i, e :: es => do
    if ← u.isMatch q e.1 then return some (e.1, ⟨i, e.2⟩) else scan u q (i + 1) es

/-- `get`, `get_key_value` and `get_mut`, which differ in what they return only: scanning_map.rs:31-75,
common_map.rs:58-118, integer_map.rs:41-128, length_map.rs:43-103, left_slice_map.rs:75-140,
right_slice_map.rs:75-143. -/
def lookup (u : UserCode σ K Q) (m : UMap K V) (q : Q) : Call σ (Option (K × Ref V)) :=
  match m with
  | .scanning es => scan u q 0 es
  | .hashed T => do
    let code ← u.probeCode q
    let r ← Call.lift (T.getHashInfo code)
    let es ← Call.lift (sliceUnchecked T.entries r.1 r.2)
    scan u q r.1 es

/-- The uniqueness test of `get_many_mut` (lines at `getManyMut` in Model/Maps.lean). E.g.
specialized_maps/common_map.rs:127-133. -/
def hasDup (u : UserCode σ K Q) : List Q → List Q → Call σ Bool
  | _, [] => pure false
  | seen, k :: ks => do
    if ← Call.anyList (fun s => u.isSame s k) seen then return true
    else hasDup u (seen ++ [k]) ks

/-- The second loop of `get_many_mut`. E.g. specialized_maps/common_map.rs:135-144. -/
def getAll (u : UserCode σ K Q) (m : UMap K V) : List Q → Call σ (Option (List (Ref V)))
  | [] => pure (some [])
  | k :: ks => do
    match ← m.lookup u k with
    | none => return none
    | some r =>
      match ← getAll u m ks with
      | none => return none
      | some rs => return some (r.2 :: rs)

/-- `get_many_mut`. scanning_map.rs:78-102, common_map.rs:121-145, integer_map.rs:86-110,
length_map.rs:106-130, left_slice_map.rs:143-167, right_slice_map.rs:146-170. -/
def getManyMut (u : UserCode σ K Q) (m : UMap K V) (qs : List Q) :
    Call σ (Option (List (Ref V))) := do
  if ← hasDup u [] qs then return none else m.getAll u qs

/-- A write through a reference to entry `i`. References come from scanning_map.rs:47-59,
common_map.rs:104-118, integer_map.rs:69-83, length_map.rs:89-103, left_slice_map.rs:126-140,
right_slice_map.rs:129-143. -/
def write (m : UMap K V) (i : Nat) (v : V) : UMap K V :=
  match m with
  | .scanning es => .scanning (setVal es i v)
  | .hashed T => .hashed { T with entries := setVal T.entries i v }

/-- `len` (scanning_map.rs:130, common_map.rs:191, integer_map.rs:158, length_map.rs:160,
left_slice_map.rs:223, right_slice_map.rs:226). -/
def len (m : UMap K V) : Nat := m.entries.length

/-- `PartialEq::eq` (lines at `mapEq` in Model/Maps.lean) with arbitrary code for `V: PartialEq`. E.g.
specialized_maps/common_map.rs:249-256. -/
def partialEq (u : UserCode σ K K) (veq : V → V → Call σ Bool) (m other : UMap K V) : Call σ Bool :=
  if m.len ≠ other.len then pure false
  else Call.allList (fun e : K × V => do
    match ← other.lookup u e.1 with
    | none => return false
    | some r => veq e.2 r.2.val) m.entries

end UMap

/-! ### The calls made by each map type -/

/-- common_map.rs:32 and 35 (`bh.hash_one` of the key, twice), 62 (of the probe). -/
def commonCode (hashK : K → Call σ Nat) (hashQ : Q → Call σ Nat) (isMatch : Q → K → Call σ Bool)
    (isSame : Q → Q → Call σ Bool) : UserCode σ K Q :=
  ⟨hashK, hashK, hashQ, isMatch, isSame⟩

/-- length_map.rs:29 and 32 (`len` of the key, twice), 47 (of the probe). Also integer_map.rs:28, 30
and 45, with `as_` for `len`. -/
def lengthCode (lenK : K → Call σ Nat) (lenQ : Q → Call σ Nat) (isMatch : Q → K → Call σ Bool)
    (isSame : Q → Q → Call σ Bool) : UserCode σ K Q :=
  ⟨lenK, lenK, lenQ, isMatch, isSame⟩

/-- left_slice_map.rs:34-41, 45-47 and 79-83: `len` and the slice `hash` are the key type's own. -/
def leftCode (a b : Nat) (lenK : K → Call σ Nat) (hashK : K → Nat → Nat → Call σ Nat)
    (lenQ : Q → Call σ Nat) (hashQ : Q → Nat → Nat → Call σ Nat) (isMatch : Q → K → Call σ Bool)
    (isSame : Q → Q → Call σ Bool) : UserCode σ K Q where
  sizeCode k := do if (← lenK k) ≥ b then hashK k a b else return 0
  slotCode k := hashK k a b
  probeCode q := do if (← lenQ q) ≥ b then hashQ q a b else return 0
  isMatch := isMatch
  isSame := isSame

/-- `key.hash(&bh, key.len() - range.start..key.len() - range.end)`: two more calls of `len`, then
the slice hash, right_slice_map.rs:37, 46 and 80-83. -/
def rightCall {X : Type} (oc : Bool) (a b : Nat) (len : X → Call σ Nat)
    (hash : X → Nat → Nat → Call σ Nat) (x : X) : Call σ Nat := do
  let lo ← Call.lift (usub oc (← len x) a)
  let hi ← Call.lift (usub oc (← len x) b)
  hash x lo hi

/-- right_slice_map.rs:34-41, 45-47 and 79-86. -/
def rightCode (oc : Bool) (a b : Nat) (lenK : K → Call σ Nat) (hashK : K → Nat → Nat → Call σ Nat)
    (lenQ : Q → Call σ Nat) (hashQ : Q → Nat → Nat → Call σ Nat) (isMatch : Q → K → Call σ Bool)
    (isSame : Q → Q → Call σ Bool) : UserCode σ K Q where
  sizeCode k := do if (← lenK k) ≥ b then rightCall oc a b lenK hashK k else return 0
  slotCode k := rightCall oc a b lenK hashK k
  probeCode q := do if (← lenQ q) ≥ a then rightCall oc a b lenQ hashQ q else return 0
  isMatch := isMatch
  isSame := isSame

end FC
