import Verif.Model.FrozenMap

/-
The lookups of the hash-based maps once more, this time also counting how often the probe is compared
with a stored key. Dropping the count gives back the lookups of Model/Maps.lean (see
`Verif.Lemmas.Cost`).
-/

set_option autoImplicit false

namespace FC
variable [Target]
variable {K V Q : Type}

/-- The scanning loop of every `get_key_value` (e.g. specialized_maps/common_map.rs:93-99) with the
number of `key.eq(..)` calls made. -/
def scanCounted (eq : Q → Q → Bool) (borrow : K → Q) (q : Q) :
    (i : Nat) → List (K × V) → Option (K × Ref V) × Nat
  | _, [] => (none, 0)
  | i, e :: es =>
    if eq q (borrow e.1) then (some (e.1, ⟨i, e.2⟩), 1)
    else ((scanCounted eq borrow q (i + 1) es).1, (scanCounted eq borrow q (i + 1) es).2 + 1)

/-- scanning_map.rs:63-75, counting comparisons. -/
def ScanningMap.getKeyValueCounted (P : Probe K Q) (m : ScanningMap K V) (q : Q) :
    Res (Option (K × Ref V) × Nat) := .ok (scanCounted P.eq P.borrow q 0 m.entries)

/-- common_map.rs:86-100, counting comparisons. -/
def CommonMap.getKeyValueCounted (P : Probe K Q) (m : CommonMap K V) (q : Q) :
    Res (Option (K × Ref V) × Nat) := do
  let r ← m.getHashInfo P q
  let es ← sliceUnchecked m.table.entries r.1 r.2
  return scanCounted P.eq P.borrow q r.1 es

/-- integer_map.rs:114-128, counting comparisons. -/
def IntegerMap.getKeyValueCounted (m : IntegerMap V) (q : Int) :
    Res (Option (Int × Ref V) × Nat) := do
  let r ← m.getHashInfo q
  let es ← sliceUnchecked m.table.entries r.1 r.2
  return scanCounted IntegerMap.ieq id q r.1 es

/-- length_map.rs:71-85, counting comparisons. -/
def LengthMap.getKeyValueCounted (borrow : K → Q) (eq : Q → Q → Bool) (lenQ : Q → Nat)
    (m : LengthMap K V) (q : Q) : Res (Option (K × Ref V) × Nat) := do
  let r ← m.getHashInfo lenQ q
  let es ← sliceUnchecked m.table.entries r.1 r.2
  return scanCounted eq borrow q r.1 es

/-- left_slice_map.rs:108-122, counting comparisons. -/
def LeftSliceMap.getKeyValueCounted (m : LeftSliceMap V) (q : Bytes) :
    Res (Option (Bytes × Ref V) × Nat) := do
  let r ← m.getHashInfo q
  let es ← sliceUnchecked m.table.entries r.1 r.2
  return scanCounted beq id q r.1 es

/-- right_slice_map.rs:111-125, counting comparisons. -/
def RightSliceMap.getKeyValueCounted (oc : Bool) (m : RightSliceMap V) (q : Bytes) :
    Res (Option (Bytes × Ref V) × Nat) := do
  let r ← m.getHashInfo oc q
  let es ← sliceUnchecked m.table.entries r.1 r.2
  return scanCounted beq id q r.1 es

/-- integer_range_map.rs:116-127, counting comparisons: the place is computed, no stored key is looked
at. -/
def IntegerRangeMap.getKeyValueCounted (oc : Bool) (t : IntTy) (m : IntegerRangeMap V) (q : Int) :
    Res (Option (Int × Ref V) × Nat) := (m.getKeyValue oc t q).map (fun o => (o, 0))

/-- facades/frozen_map.rs:371-400 (`get_key_value`), counting comparisons. -/
def FrozenMap.getKeyValueCounted (env : Env) (ty : KeyTy K) (m : FrozenMap K V) (k : K) :
    Res (Option (K × Ref V) × Nat) :=
  match m with
  | .scanning m => m.getKeyValueCounted ty.probe k
  | .commonSmall m => m.getKeyValueCounted ty.probe k
  | .commonLarge m => m.getKeyValueCounted ty.probe k
  | .u32Small m => (m.getKeyValueCounted (ty.toInt k)).map (Prod.map ty.ofIntKV id)
  | .u32Large m => (m.getKeyValueCounted (ty.toInt k)).map (Prod.map ty.ofIntKV id)
  | .u32Range m => (m.getKeyValueCounted env.oc IntTy.u32 (ty.toInt k)).map (Prod.map ty.ofIntKV id)
  | .leftSmall m => (m.getKeyValueCounted (ty.toB k)).map (Prod.map ty.ofBKV id)
  | .leftLarge m => (m.getKeyValueCounted (ty.toB k)).map (Prod.map ty.ofBKV id)
  | .rightSmall m => (m.getKeyValueCounted env.oc (ty.toB k)).map (Prod.map ty.ofBKV id)
  | .rightLarge m => (m.getKeyValueCounted env.oc (ty.toB k)).map (Prod.map ty.ofBKV id)
  | .lengthSmall m => (m.getKeyValueCounted id beq List.length (ty.toB k)).map (Prod.map ty.ofBKV id)

end FC
