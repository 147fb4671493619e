import Verif.Model.HashCode
import Verif.Model.SliceKey
import Verif.Model.HashTable

/-
Model of specialized_maps/{scanning,common,integer,length,left_slice,right_slice,integer_range}_map.rs.
-/

set_option autoImplicit false

namespace FC
variable [Target]

/-- How a key type is probed through a borrowed type: `K: Borrow<Q>`, `Q: Eq (+ Hash)`. `enc` is
`Q`'s `Hash` implementation (the calls it makes on the hasher). E.g. specialized_maps/common_map.rs:58-62
and 76. -/
structure Probe (K Q : Type) where
  borrow : K → Q
  eq : Q → Q → Bool
  enc : Q → List HCall

/-- `for entry in entries { if key.eq(entry.0.borrow()) { return Some(..) } } None`
(e.g. specialized_maps/common_map.rs:75-81): the first matching entry, with its place. `i` is the
index of the first scanned entry in the whole entry array. -/
def scan {K V Q : Type} (eq : Q → Q → Bool) (borrow : K → Q) (q : Q) :
    (i : Nat) → List (K × V) → Option (K × Ref V)
  | _, [] => none
  | i, e :: es => if eq q (borrow e.1) then some (e.1, ⟨i, e.2⟩) else scan eq borrow q (i + 1) es

/-- `for i in 0..keys.len() { for j in 0..i { if keys[j].eq(keys[i]) { return None } } }`
(e.g. facades/frozen_map.rs:495-501): is some key equal to a later one? `seen` are the keys before
the current one. -/
def hasDup {Q : Type} (eq : Q → Q → Bool) : (seen : List Q) → List Q → Bool
  | _, [] => false
  | seen, k :: ks => seen.any (fun s => eq s k) || hasDup eq (seen ++ [k]) ks

/-- `for (i, key) in keys.iter().enumerate() { p[i] = transmute(self.get(key)?) }`
(e.g. facades/frozen_map.rs:507-509): stops with `None` at the first missing key. -/
def getAll {Q V : Type} (get : Q → Res (Option (Ref V))) : List Q → Res (Option (List (Ref V)))
  | [] => .ok (some [])
  | k :: ks =>
    match get k with
    | .ok (some r) =>
      match getAll get ks with
      | .ok (some rs) => .ok (some (r :: rs))
      | .ok none => .ok none
      | .panic => .panic
      | .ub => .ub
    | .ok none => .ok none
    | .panic => .panic
    | .ub => .ub

/-- The body shared verbatim by every `get_many_mut` (facades/frozen_map.rs:493-513,
scanning_map.rs:78-102, common_map.rs:121-145, integer_map.rs:86-110, length_map.rs:106-130,
left_slice_map.rs:143-167, right_slice_map.rs:146-170, integer_range_map.rs:88-112). -/
def getManyMut {Q V : Type} (eq : Q → Q → Bool) (get : Q → Res (Option (Ref V))) (keys : List Q) :
    Res (Option (List (Ref V))) :=
  if hasDup eq [] keys then .ok none else getAll get keys

/-- The body shared by every map `PartialEq::eq` (facades/frozen_map.rs:773-780,
common_map.rs:249-256, scanning_map.rs:183-190, integer_map.rs:213-220, length_map.rs:215-222,
left_slice_map.rs:281-288, right_slice_map.rs:284-291, integer_range_map.rs:208-215). -/
def mapEq {K V : Type} (veq : V → V → Bool) (selfLen otherLen : Nat) (selfIter : List (K × V))
    (otherGet : K → Res (Option (Ref V))) : Res Bool :=
  if selfLen ≠ otherLen then .ok false
  else
    Res.allList (fun e =>
      (otherGet e.1).map (fun o => match o with | none => false | some r => veq e.2 r.val)) selfIter

/-- `self.get(&index).unwrap()` (e.g. facades/frozen_map.rs:718-720). -/
def indexOf {V : Type} (r : Res (Option (Ref V))) : Res (Ref V) :=
  match r with
  | .ok (some r) => .ok r
  | .ok none => .panic
  | .panic => .panic
  | .ub => .ub

/-! ### ScanningMap -/

/-- specialized_maps/scanning_map.rs:12-14 (`ScanningMap`). -/
structure ScanningMap (K V : Type) where
  entries : List (K × V)

namespace ScanningMap
variable {K V Q : Type}

/-- scanning_map.rs:21-25. -/
def fromVec (payload : List (K × V)) : ScanningMap K V := ⟨payload⟩

/-- scanning_map.rs:31-43. -/
def get (P : Probe K Q) (m : ScanningMap K V) (q : Q) : Res (Option (Ref V)) :=
  .ok ((scan P.eq P.borrow q 0 m.entries).map (·.2))

/-- scanning_map.rs:47-59. -/
def getMut (P : Probe K Q) (m : ScanningMap K V) (q : Q) : Res (Option (Ref V)) :=
  .ok ((scan P.eq P.borrow q 0 m.entries).map (·.2))

/-- scanning_map.rs:63-75. -/
def getKeyValue (P : Probe K Q) (m : ScanningMap K V) (q : Q) : Res (Option (K × Ref V)) :=
  .ok (scan P.eq P.borrow q 0 m.entries)

/-- scanning_map.rs:78-102. -/
def getManyMut (P : Probe K Q) (m : ScanningMap K V) (keys : List Q) :
    Res (Option (List (Ref V))) := FC.getManyMut P.eq (m.get P) keys

/-- scanning_map.rs:106-112. -/
def containsKey (P : Probe K Q) (m : ScanningMap K V) (q : Q) : Res Bool :=
  (m.get P q).map Option.isSome

/-- scanning_map.rs:130-134. -/
def len (m : ScanningMap K V) : Nat := m.entries.length

/-- A write through a reference to entry `i`. It comes from specialized_maps/scanning_map.rs:47-59
(`get_mut`). -/
def write (m : ScanningMap K V) (i : Nat) (v : V) : ScanningMap K V := ⟨setVal m.entries i v⟩

end ScanningMap

/-! ### CommonMap -/

/-- specialized_maps/common_map.rs:19-22 (`CommonMap`). -/
structure CommonMap (K V : Type) where
  table : HashTable K V
  bh : Hasher

namespace CommonMap
variable {K V Q : Type}

/-- common_map.rs:31-38; `enc` is `K`'s `Hash` implementation. -/
def fromVecWithHasher (env : Env) (S : IdxTy) (enc : K → List HCall) (payload : List (K × V))
    (bh : Hasher) : Res (CommonMap K V) := do
  let analysis ← analyzeHashCodes (payload.map (fun e => bh (enc e.1)))
  let table ← HashTable.new env S payload analysis.numHashSlots (fun k => .ok (bh (enc k)))
  return ⟨table, bh⟩

/-- common_map.rs:58-64. -/
def getHashInfo (P : Probe K Q) (m : CommonMap K V) (q : Q) : Res (Nat × Nat) :=
  m.table.getHashInfo (m.bh (P.enc q))

/-- common_map.rs:68-82. -/
def get (P : Probe K Q) (m : CommonMap K V) (q : Q) : Res (Option (Ref V)) := do
  let r ← m.getHashInfo P q
  let es ← sliceUnchecked m.table.entries r.1 r.2
  return (scan P.eq P.borrow q r.1 es).map (·.2)

/-- common_map.rs:86-100. -/
def getKeyValue (P : Probe K Q) (m : CommonMap K V) (q : Q) : Res (Option (K × Ref V)) := do
  let r ← m.getHashInfo P q
  let es ← sliceUnchecked m.table.entries r.1 r.2
  return scan P.eq P.borrow q r.1 es

/-- common_map.rs:104-118. -/
def getMut (P : Probe K Q) (m : CommonMap K V) (q : Q) : Res (Option (Ref V)) := do
  let r ← m.getHashInfo P q
  let es ← sliceUnchecked m.table.entries r.1 r.2
  return (scan P.eq P.borrow q r.1 es).map (·.2)

/-- common_map.rs:121-145. -/
def getManyMut (P : Probe K Q) (m : CommonMap K V) (keys : List Q) :
    Res (Option (List (Ref V))) := FC.getManyMut P.eq (m.get P) keys

/-- common_map.rs:149-155. -/
def containsKey (P : Probe K Q) (m : CommonMap K V) (q : Q) : Res Bool :=
  (m.get P q).map Option.isSome

/-- common_map.rs:191-195. -/
def len (m : CommonMap K V) : Nat := m.table.len

/-- A write through a reference to entry `i`. It comes from specialized_maps/common_map.rs:104-118
(`get_mut`). -/
def write (m : CommonMap K V) (i : Nat) (v : V) : CommonMap K V :=
  { m with table := { m.table with entries := setVal m.table.entries i v } }

end CommonMap

/-! ### IntegerMap -/

/-- specialized_maps/integer_map.rs:17-19 (`IntegerMap`); keys are integers (the only type an
integer type borrows as is itself). -/
structure IntegerMap (V : Type) where
  table : HashTable Int V

namespace IntegerMap
variable {V : Type}

/-- integer_map.rs:27-32. -/
def fromVec (env : Env) (S : IdxTy) (payload : List (Int × V)) : Res (IntegerMap V) := do
  let analysis ← analyzeHashCodes (payload.map (fun e => asU64 e.1))
  let table ← HashTable.new env S payload analysis.numHashSlots (fun k => .ok (asU64 k))
  return ⟨table⟩

/-- integer_map.rs:41-47. -/
def getHashInfo (m : IntegerMap V) (q : Int) : Res (Nat × Nat) := m.table.getHashInfo (asU64 q)

/-- Integer `==`. std, called at specialized_maps/integer_map.rs:59. -/
def ieq (a b : Int) : Bool := decide (a = b)

/-- integer_map.rs:51-65. -/
def get (m : IntegerMap V) (q : Int) : Res (Option (Ref V)) := do
  let r ← m.getHashInfo q
  let es ← sliceUnchecked m.table.entries r.1 r.2
  return (scan ieq id q r.1 es).map (·.2)

/-- integer_map.rs:69-83. -/
def getMut (m : IntegerMap V) (q : Int) : Res (Option (Ref V)) := do
  let r ← m.getHashInfo q
  let es ← sliceUnchecked m.table.entries r.1 r.2
  return (scan ieq id q r.1 es).map (·.2)

/-- integer_map.rs:86-110. -/
def getManyMut (m : IntegerMap V) (keys : List Int) : Res (Option (List (Ref V))) :=
  FC.getManyMut ieq m.get keys

/-- integer_map.rs:114-128. -/
def getKeyValue (m : IntegerMap V) (q : Int) : Res (Option (Int × Ref V)) := do
  let r ← m.getHashInfo q
  let es ← sliceUnchecked m.table.entries r.1 r.2
  return scan ieq id q r.1 es

/-- integer_map.rs:132-138. -/
def containsKey (m : IntegerMap V) (q : Int) : Res Bool := (m.get q).map Option.isSome

/-- integer_map.rs:158-162. -/
def len (m : IntegerMap V) : Nat := m.table.len

/-- A write through a reference to entry `i`. It comes from specialized_maps/integer_map.rs:69-83
(`get_mut`). -/
def write (m : IntegerMap V) (i : Nat) (v : V) : IntegerMap V :=
  ⟨{ m.table with entries := setVal m.table.entries i v }⟩

end IntegerMap

/-! ### LengthMap -/

/-- specialized_maps/length_map.rs:18-20 (`LengthMap`). -/
structure LengthMap (K V : Type) where
  table : HashTable K V

namespace LengthMap
variable {K V Q : Type}

/-- length_map.rs:28-34; `len` is `K`'s `Len` implementation. -/
def fromVec (env : Env) (S : IdxTy) (lenK : K → Nat) (payload : List (K × V)) :
    Res (LengthMap K V) := do
  let analysis ← analyzeHashCodes (payload.map (fun e => lenK e.1))
  let table ← HashTable.new env S payload analysis.numHashSlots (fun k => .ok (lenK k))
  return ⟨table⟩

/-- length_map.rs:43-49. -/
def getHashInfo (lenQ : Q → Nat) (m : LengthMap K V) (q : Q) : Res (Nat × Nat) :=
  m.table.getHashInfo (lenQ q)

/-- length_map.rs:53-67. -/
def get (borrow : K → Q) (eq : Q → Q → Bool) (lenQ : Q → Nat) (m : LengthMap K V) (q : Q) :
    Res (Option (Ref V)) := do
  let r ← m.getHashInfo lenQ q
  let es ← sliceUnchecked m.table.entries r.1 r.2
  return (scan eq borrow q r.1 es).map (·.2)

/-- length_map.rs:71-85. -/
def getKeyValue (borrow : K → Q) (eq : Q → Q → Bool) (lenQ : Q → Nat) (m : LengthMap K V) (q : Q) :
    Res (Option (K × Ref V)) := do
  let r ← m.getHashInfo lenQ q
  let es ← sliceUnchecked m.table.entries r.1 r.2
  return scan eq borrow q r.1 es

/-- length_map.rs:89-103. -/
def getMut (borrow : K → Q) (eq : Q → Q → Bool) (lenQ : Q → Nat) (m : LengthMap K V) (q : Q) :
    Res (Option (Ref V)) := do
  let r ← m.getHashInfo lenQ q
  let es ← sliceUnchecked m.table.entries r.1 r.2
  return (scan eq borrow q r.1 es).map (·.2)

/-- length_map.rs:106-130. -/
def getManyMut (borrow : K → Q) (eq : Q → Q → Bool) (lenQ : Q → Nat) (m : LengthMap K V)
    (keys : List Q) : Res (Option (List (Ref V))) :=
  FC.getManyMut eq (m.get borrow eq lenQ) keys

/-- length_map.rs:134-140. -/
def containsKey (borrow : K → Q) (eq : Q → Q → Bool) (lenQ : Q → Nat) (m : LengthMap K V) (q : Q) :
    Res Bool := (m.get borrow eq lenQ q).map Option.isSome

/-- length_map.rs:160-164. -/
def len (m : LengthMap K V) : Nat := m.table.len

/-- A write through a reference to entry `i`. It comes from specialized_maps/length_map.rs:89-103
(`get_mut`). -/
def write (m : LengthMap K V) (i : Nat) (v : V) : LengthMap K V :=
  ⟨{ m.table with entries := setVal m.table.entries i v }⟩

end LengthMap

/-! ### LeftSliceMap and RightSliceMap (keys are byte strings) -/

/-- Byte-string `==`. std, called at specialized_maps/left_slice_map.rs:98. -/
def beq (a b : Bytes) : Bool := decide (a = b)

/-- traits/slice_hash.rs:11-19 (`SliceHash for String`): unchecked sub-slice, then `write` and
`finish`. -/
def sliceHash (bh : Hasher) (s : Bytes) (a b : Nat) : Res Nat := do
  let sub ← sliceUnchecked s a b
  return bh [.write sub]

/-- specialized_maps/left_slice_map.rs:20-24 (`LeftSliceMap`). -/
structure LeftSliceMap (V : Type) where
  table : HashTable Bytes V
  bh : Hasher
  start : Nat
  stop : Nat

namespace LeftSliceMap
variable {V : Type}

/-- Hash code used for the size analysis, left_slice_map.rs:34-41 (short keys count as 0). -/
def analysisCode (bh : Hasher) (a b : Nat) (k : Bytes) : Res Nat :=
  if k.length ≥ b then sliceHash bh k a b else .ok 0

/-- left_slice_map.rs:33-51. The closure given to the table (lines 45-47) has no length guard. -/
def fromVecWithHasher (env : Env) (S : IdxTy) (payload : List (Bytes × V)) (a b : Nat)
    (bh : Hasher) : Res (LeftSliceMap V) := do
  let codes ← Res.mapList (fun e => analysisCode bh a b e.1) payload
  let analysis ← analyzeHashCodes codes
  let table ← HashTable.new env S payload analysis.numHashSlots (fun k => sliceHash bh k a b)
  return ⟨table, bh, a, b⟩

/-- left_slice_map.rs:75-86. -/
def getHashInfo (m : LeftSliceMap V) (q : Bytes) : Res (Nat × Nat) := do
  let code ← if q.length ≥ m.stop then sliceHash m.bh q m.start m.stop else .ok 0
  m.table.getHashInfo code

/-- left_slice_map.rs:90-104. -/
def get (m : LeftSliceMap V) (q : Bytes) : Res (Option (Ref V)) := do
  let r ← m.getHashInfo q
  let es ← sliceUnchecked m.table.entries r.1 r.2
  return (scan beq id q r.1 es).map (·.2)

/-- left_slice_map.rs:108-122. -/
def getKeyValue (m : LeftSliceMap V) (q : Bytes) : Res (Option (Bytes × Ref V)) := do
  let r ← m.getHashInfo q
  let es ← sliceUnchecked m.table.entries r.1 r.2
  return scan beq id q r.1 es

/-- left_slice_map.rs:126-140. -/
def getMut (m : LeftSliceMap V) (q : Bytes) : Res (Option (Ref V)) := do
  let r ← m.getHashInfo q
  let es ← sliceUnchecked m.table.entries r.1 r.2
  return (scan beq id q r.1 es).map (·.2)

/-- left_slice_map.rs:143-167. -/
def getManyMut (m : LeftSliceMap V) (keys : List Bytes) : Res (Option (List (Ref V))) :=
  FC.getManyMut beq m.get keys

/-- left_slice_map.rs:171-177. -/
def containsKey (m : LeftSliceMap V) (q : Bytes) : Res Bool := (m.get q).map Option.isSome

/-- left_slice_map.rs:223-227. -/
def len (m : LeftSliceMap V) : Nat := m.table.len

/-- A write through a reference to entry `i`. It comes from specialized_maps/left_slice_map.rs:126-140
(`get_mut`). -/
def write (m : LeftSliceMap V) (i : Nat) (v : V) : LeftSliceMap V :=
  { m with table := { m.table with entries := setVal m.table.entries i v } }

end LeftSliceMap

/-- specialized_maps/right_slice_map.rs:20-24 (`RightSliceMap`). -/
structure RightSliceMap (V : Type) where
  table : HashTable Bytes V
  bh : Hasher
  start : Nat
  stop : Nat

namespace RightSliceMap
variable {V : Type}

/-- `key.hash(&bh, key.len() - range.start..key.len() - range.end)`, right_slice_map.rs:37,46,80. -/
def rightHash (oc : Bool) (bh : Hasher) (k : Bytes) (a b : Nat) : Res Nat := do
  let lo ← usub oc k.length a
  let hi ← usub oc k.length b
  sliceHash bh k lo hi

/-- Hash code used for the size analysis, right_slice_map.rs:34-41. -/
def analysisCode (oc : Bool) (bh : Hasher) (a b : Nat) (k : Bytes) : Res Nat :=
  if k.length ≥ b then rightHash oc bh k a b else .ok 0

/-- right_slice_map.rs:33-51. -/
def fromVecWithHasher (env : Env) (S : IdxTy) (payload : List (Bytes × V)) (a b : Nat)
    (bh : Hasher) : Res (RightSliceMap V) := do
  let codes ← Res.mapList (fun e => analysisCode env.oc bh a b e.1) payload
  let analysis ← analyzeHashCodes codes
  let table ← HashTable.new env S payload analysis.numHashSlots
    (fun k => rightHash env.oc bh k a b)
  return ⟨table, bh, a, b⟩

/-- right_slice_map.rs:75-89. -/
def getHashInfo (oc : Bool) (m : RightSliceMap V) (q : Bytes) : Res (Nat × Nat) := do
  let code ← if q.length ≥ m.start then rightHash oc m.bh q m.start m.stop else .ok 0
  m.table.getHashInfo code

/-- right_slice_map.rs:93-107. -/
def get (oc : Bool) (m : RightSliceMap V) (q : Bytes) : Res (Option (Ref V)) := do
  let r ← m.getHashInfo oc q
  let es ← sliceUnchecked m.table.entries r.1 r.2
  return (scan beq id q r.1 es).map (·.2)

/-- right_slice_map.rs:111-125. -/
def getKeyValue (oc : Bool) (m : RightSliceMap V) (q : Bytes) : Res (Option (Bytes × Ref V)) := do
  let r ← m.getHashInfo oc q
  let es ← sliceUnchecked m.table.entries r.1 r.2
  return scan beq id q r.1 es

/-- right_slice_map.rs:129-143. -/
def getMut (oc : Bool) (m : RightSliceMap V) (q : Bytes) : Res (Option (Ref V)) := do
  let r ← m.getHashInfo oc q
  let es ← sliceUnchecked m.table.entries r.1 r.2
  return (scan beq id q r.1 es).map (·.2)

/-- right_slice_map.rs:146-170. -/
def getManyMut (oc : Bool) (m : RightSliceMap V) (keys : List Bytes) :
    Res (Option (List (Ref V))) := FC.getManyMut beq (m.get oc) keys

/-- right_slice_map.rs:174-180. -/
def containsKey (oc : Bool) (m : RightSliceMap V) (q : Bytes) : Res Bool :=
  (m.get oc q).map Option.isSome

/-- right_slice_map.rs:226-230. -/
def len (m : RightSliceMap V) : Nat := m.table.len

/-- A write through a reference to entry `i`. It comes from specialized_maps/right_slice_map.rs:129-143
(`get_mut`). -/
def write (m : RightSliceMap V) (i : Nat) (v : V) : RightSliceMap V :=
  { m with table := { m.table with entries := setVal m.table.entries i v } }

end RightSliceMap

/-! ### IntegerRangeMap -/

/-- specialized_maps/integer_range_map.rs:14-18 (`IntegerRangeMap`). -/
structure IntegerRangeMap (V : Type) where
  min : Int
  max : Int
  entries : List (Int × V)

namespace IntegerRangeMap
variable {V : Type}

/-- integer_range_map.rs:28-53. `max.sub(min)` is arithmetic of the key type. -/
def fromVec (oc : Bool) (t : IntTy) (payload : List (Int × V)) : Res (IntegerRangeMap V) := do
  let sorted := stableSortByKey (·.1) payload
  match sorted with
  | [] => return ⟨0, 0, []⟩
  | first :: rest =>
    let mn := first.1
    let mx := ((first :: rest).getLast (by simp)).1
    let d ← t.arith oc (mx - mn)
    let span ← Res.unwrap (toUsize d)
    let _ ← Res.assert (decide (span = sorted.length - 1))
    return ⟨mn, mx, sorted⟩

/-- Position of a probe in the entry array: the range test and `(key - min).to_usize()?`,
integer_range_map.rs:64-65 (repeated at 79-80 and 121-122). -/
def position (oc : Bool) (t : IntTy) (m : IntegerRangeMap V) (q : Int) : Res (Option Nat) :=
  if m.min ≤ q ∧ q ≤ m.max then
    match t.arith oc (q - m.min) with
    | .ok d => .ok (toUsize d)
    | .panic => .panic
    | .ub => .ub
  else .ok none

/-- `self.entries[index]`: bounds-checked. specialized_maps/integer_range_map.rs:66, 81, 123. -/
def entryAt (m : IntegerRangeMap V) (i : Nat) : Res (Int × Ref V) :=
  match m.entries[i]? with
  | some e => .ok (e.1, ⟨i, e.2⟩)
  | none => .panic

/-- integer_range_map.rs:59-70. -/
def get (oc : Bool) (t : IntTy) (m : IntegerRangeMap V) (q : Int) : Res (Option (Ref V)) := do
  match ← m.position oc t q with
  | none => return none
  | some i =>
    let e ← m.entryAt i
    return some e.2

/-- integer_range_map.rs:74-85. -/
def getMut (oc : Bool) (t : IntTy) (m : IntegerRangeMap V) (q : Int) : Res (Option (Ref V)) := do
  match ← m.position oc t q with
  | none => return none
  | some i =>
    let e ← m.entryAt i
    return some e.2

/-- integer_range_map.rs:88-112. -/
def getManyMut (oc : Bool) (t : IntTy) (m : IntegerRangeMap V) (keys : List Int) :
    Res (Option (List (Ref V))) := FC.getManyMut IntegerMap.ieq (m.get oc t) keys

/-- integer_range_map.rs:116-127. -/
def getKeyValue (oc : Bool) (t : IntTy) (m : IntegerRangeMap V) (q : Int) :
    Res (Option (Int × Ref V)) := do
  match ← m.position oc t q with
  | none => return none
  | some i =>
    let e ← m.entryAt i
    return some e

/-- integer_range_map.rs:131-137. -/
def containsKey (oc : Bool) (t : IntTy) (m : IntegerRangeMap V) (q : Int) : Res Bool :=
  (m.get oc t q).map Option.isSome

/-- integer_range_map.rs:155-159. -/
def len (m : IntegerRangeMap V) : Nat := m.entries.length

/-- A write through a reference to entry `i`. It comes from specialized_maps/integer_range_map.rs:74-85
(`get_mut`). -/
def write (m : IntegerRangeMap V) (i : Nat) (v : V) : IntegerRangeMap V :=
  { m with entries := setVal m.entries i v }

end IntegerRangeMap

end FC
