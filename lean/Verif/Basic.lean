import Mathlib.Data.List.Sort

/-
Outcomes, machine integers, slices and the sort contract shared by the whole model.
Paths are relative to /repo/frozen-collections-core/src.
-/

set_option autoImplicit false

namespace FC

/-- Outcome of running a piece of Rust: a value, a panic (failed `unwrap`, `assert`, checked index,
overflow check, `panic!`), or undefined behaviour (an unchecked access outside its bounds). Model device;
a panic is e.g. the failed assertion at specialized_maps/integer_range_map.rs:42-46, undefined behaviour
e.g. a bad range at common_map.rs:74. -/
inductive Res (α : Type) where
  | ok (a : α)
  | panic
  | ub
  deriving Repr, DecidableEq

namespace Res

/-- Sequencing: the first panic or undefined behaviour wins. Model device: `;` of every function
modelled, e.g. specialized_maps/common_map.rs:31-38. -/
@[inline] def bind {α β : Type} : Res α → (α → Res β) → Res β
  | ok a, f => f a
  | panic, _ => panic
  | ub, _ => ub

instance : Monad Res where
  pure := ok
  bind := bind

/-- `f` on the value of a normal outcome. Model device, as `bind`, e.g.
specialized_maps/common_map.rs:31-38. -/
@[inline] def map {α β : Type} (f : α → β) : Res α → Res β
  | ok a => ok (f a)
  | panic => panic
  | ub => ub

/-- `Option::unwrap`: panics on `None` (used e.g. in specialized_maps/hash_table.rs:43,88,89). -/
def unwrap {α : Type} : Option α → Res α
  | some a => ok a
  | none => panic

/-- `assert!`/`assert_eq!` (specialized_maps/integer_range_map.rs:42-46). -/
def assert (b : Bool) : Res Unit := if b then ok () else panic

/-- Run a fallible function over a list left to right (`iter().map(..).collect()` and the
`for entry in payload` loop of specialized_maps/hash_table.rs:47-56). -/
def mapList {α β : Type} (f : α → Res β) : List α → Res (List β)
  | [] => ok []
  | a :: as =>
    match f a with
    | ok b =>
      match mapList f as with
      | ok bs => ok (b :: bs)
      | panic => panic
      | ub => ub
    | panic => panic
    | ub => ub

/-- `Iterator::all` with a fallible predicate: stops at the first `false`
(e.g. facades/frozen_map.rs:778-779, specialized_sets/set_ops.rs:10,23,36). -/
def allList {α : Type} (p : α → Res Bool) : List α → Res Bool
  | [] => ok true
  | a :: as =>
    match p a with
    | ok true => allList p as
    | ok false => ok false
    | panic => panic
    | ub => ub

end Res

/-- The machine the code runs on, given by the width of `usize`. Targets with a standard library have
32 or 64 bits; nothing in between is excluded. Not in the code; decides e.g.
specialized_maps/hash_table.rs:43 and integer_range_map.rs:65. -/
class Target where
  bits : Nat
  atLeast : 32 ≤ bits
  atMost : bits ≤ 64

/-- `usize::MAX + 1`. Bounds e.g. specialized_maps/hash_table.rs:43 and integer_range_map.rs:65. -/
def usz [Target] : Nat := 2 ^ Target.bits

theorem usz_ge [Target] : 4294967296 ≤ usz :=
  Nat.le_trans (by decide) (Nat.pow_le_pow_right (by decide) Target.atLeast)

variable [Target]

/-- `usize` subtraction. `oc` is the build's overflow-check mode: with checks a negative result
panics, without it wraps. Used for specialized_maps/right_slice_map.rs:37, 46, 80-83,
specialized_maps/iterators.rs:53, specialized_sets/iterators.rs:40, 55. -/
def usub (oc : Bool) (a b : Nat) : Res Nat :=
  if b ≤ a then .ok (a - b) else if oc then .panic else .ok (a + usz - b)

/-- `u64`/`usize` remainder: division by zero panics. Used for specialized_maps/hash_table.rs:50 and
analyzers/hash_code_analyzer.rs:14-144. -/
def umod (a b : Nat) : Res Nat :=
  if b = 0 then .panic else .ok (a % b)

/-- Checked slicing `&l[a..b]` (panics when the range is inverted or out of bounds). Used for
analyzers/slice_key_analyzer.rs:193-210. -/
def sliceChecked {α : Type} (l : List α) (a b : Nat) : Res (List α) :=
  if a ≤ b ∧ b ≤ l.length then .ok ((l.drop a).take (b - a)) else .panic

/-- Unchecked slicing `l.get_unchecked(a..b)` (undefined behaviour when the range is inverted or
out of bounds). Used for specialized_maps/common_map.rs:74, 92, 110 and traits/slice_hash.rs:15, 25. -/
def sliceUnchecked {α : Type} (l : List α) (a b : Nat) : Res (List α) :=
  if a ≤ b ∧ b ≤ l.length then .ok ((l.drop a).take (b - a)) else .ub

/-- A primitive integer type (`PrimInt`): width and signedness. num-traits; key types of
specialized_maps/integer_map.rs:27-32, integer_range_map.rs:28-54. -/
structure IntTy where
  bits : Nat
  signed : Bool
  deriving Repr, DecidableEq

namespace IntTy

/-- `K::min_value()`. num-traits, called at analyzers/int_key_analyzer.rs:20. -/
def lo (t : IntTy) : Int := if t.signed then -(2 ^ (t.bits - 1)) else 0

/-- `K::max_value()`. num-traits, called at analyzers/int_key_analyzer.rs:19. -/
def hi (t : IntTy) : Int := if t.signed then 2 ^ (t.bits - 1) - 1 else 2 ^ t.bits - 1

/-- `x` is a value of the type. Model device: says what a key of specialized_maps/integer_map.rs:27-32
can be. -/
def InRange (t : IntTy) (x : Int) : Prop := t.lo ≤ x ∧ x ≤ t.hi

instance (t : IntTy) (x : Int) : Decidable (t.InRange x) := by unfold InRange; infer_instance

/-- Two's complement wrapping into the type. std; used through `arith` for
analyzers/int_key_analyzer.rs:30. -/
def wrap (t : IntTy) (x : Int) : Int :=
  (x - t.lo) % (2 ^ t.bits) + t.lo

/-- Result of `+`/`-` at this type whose exact result is `x`: checked builds panic outside the
range, unchecked builds wrap. Used for analyzers/int_key_analyzer.rs:30 and
specialized_maps/integer_range_map.rs:43. -/
def arith (t : IntTy) (oc : Bool) (x : Int) : Res Int :=
  if t.InRange x then .ok x else if oc then .panic else .ok (t.wrap x)

/-- `u8` as a key type, macros/frozen_map.rs:93-122, facades/frozen_map.rs:216. -/
def u8 : IntTy := ⟨8, false⟩
/-- `i8` as a key type, macros/frozen_map.rs:93-122, facades/frozen_map.rs:216. -/
def i8 : IntTy := ⟨8, true⟩
/-- `u16` as a key type, macros/frozen_map.rs:93-122, facades/frozen_map.rs:216. -/
def u16 : IntTy := ⟨16, false⟩
/-- `i16` as a key type, macros/frozen_map.rs:93-122, facades/frozen_map.rs:216. -/
def i16 : IntTy := ⟨16, true⟩
/-- `u32` as a key type, macros/frozen_map.rs:93-122, facades/frozen_map.rs:216. -/
def u32 : IntTy := ⟨32, false⟩
/-- `i32` as a key type, macros/frozen_map.rs:93-122, facades/frozen_map.rs:216. -/
def i32 : IntTy := ⟨32, true⟩
/-- `u64` as a key type, macros/frozen_map.rs:93-122, facades/frozen_map.rs:216. -/
def u64 : IntTy := ⟨64, false⟩
/-- `i64` as a key type, macros/frozen_map.rs:93-122, facades/frozen_map.rs:216. -/
def i64 : IntTy := ⟨64, true⟩
/-- `u128` as a key type, macros/frozen_map.rs:93-122, facades/frozen_map.rs:216. -/
def u128 : IntTy := ⟨128, false⟩
/-- `i128` as a key type, macros/frozen_map.rs:93-122, facades/frozen_map.rs:216. -/
def i128 : IntTy := ⟨128, true⟩

end IntTy

/-- `ToPrimitive::to_usize` of an integer value `None` when negative or too large. num-traits, called at
specialized_maps/integer_range_map.rs:43, 65, 80, 122. -/
def toUsize (x : Int) : Option Nat :=
  if 0 ≤ x ∧ x < usz then some x.toNat else none

/-- `AsPrimitive<u64>::as_`: truncating/sign-extending cast to `u64`. num-traits, called at
specialized_maps/integer_map.rs:28, 30, 45. -/
def asU64 (x : Int) : Nat := (x % 2 ^ 64).toNat

/-- The index type `S: PrimInt + Unsigned` of the hash-based maps, given by its width.
specialized_maps/hash_table.rs:8-19. -/
structure IdxTy where
  bits : Nat
  deriving Repr, DecidableEq

namespace IdxTy

/-- `S::max_value()`. num-traits, called at specialized_maps/hash_table.rs:43. -/
def max (s : IdxTy) : Nat := 2 ^ s.bits - 1

/-- `S::max_value().to_usize()`: `None` for types wider than `usize`. specialized_maps/hash_table.rs:43.
-/
def maxUsize (s : IdxTy) : Option Nat := if s.max < usz then some s.max else none

/-- `S::from(x).unwrap()` for an `x : i32`: `None` for a negative `x` and for one too large.
specialized_maps/hash_table.rs:88-89. -/
def ofI32 (s : IdxTy) (x : Int) : Res Nat :=
  if 0 ≤ x ∧ x ≤ s.max then .ok x.toNat else .panic

/-- How many entries a table indexed by `S` can hold: the largest value of `S`, but never more than
`i32::MAX`, since specialized_maps/hash_table.rs:61,72 counts the entries in `i32`. `None` for types
wider than `usize`, which specialized_maps/hash_table.rs:43 refuses. A specification, not code. -/
def capacity (s : IdxTy) : Option Nat :=
  if s.max < usz then some (min s.max (2 ^ 31 - 1)) else none

/-- A table indexed by `S` can hold `n` entries. Model device: the test at
specialized_maps/hash_table.rs:43 passes. -/
def Holds (s : IdxTy) (n : Nat) : Prop := ∃ cap, s.capacity = some cap ∧ n ≤ cap

/-- `a + b` at type `S`. specialized_maps/hash_table.rs:89. -/
def add (s : IdxTy) (oc : Bool) (a b : Nat) : Res Nat :=
  if a + b ≤ s.max then .ok (a + b) else if oc then .panic else .ok ((a + b) % 2 ^ s.bits)

/-- `u8` as an index type, facades/frozen_map.rs:235-315, macros/frozen_map.rs:151-160. -/
def u8 : IdxTy := ⟨8⟩
/-- `u16` as an index type, facades/frozen_map.rs:235-315, macros/frozen_map.rs:151-160. -/
def u16 : IdxTy := ⟨16⟩
/-- `usize` as an index type, facades/frozen_map.rs:235-315, macros/frozen_map.rs:151-160. -/
def usize : IdxTy := ⟨Target.bits⟩
/-- `u128` as an index type, facades/frozen_map.rs:235-315, macros/frozen_map.rs:151-160. -/
def u128 : IdxTy := ⟨128⟩

end IdxTy

/-- `slice::sort_unstable_by` on a `usize` key: some sorted permutation, nothing more is promised
(used at specialized_maps/hash_table.rs:59). -/
structure UnstableSort where
  run : {α : Type} → (α → Nat) → List α → List α
  perm : ∀ {α : Type} (key : α → Nat) (l : List α), (run key l).Perm l
  sorted : ∀ {α : Type} (key : α → Nat) (l : List α),
    (run key l).Pairwise (fun a b => key a ≤ key b)

/-- Insertion sort is one admissible unstable sort, so the contract is satisfiable; ties keep
payload order. For specialized_maps/hash_table.rs:59. -/
def insertionUnstable : UnstableSort where
  run key l := l.insertionSort (fun a b => key a ≤ key b)
  perm _ l := List.perm_insertionSort _ l
  sorted key l :=
    haveI : Std.Total (fun a b => key a ≤ key b) := ⟨fun _ _ => Nat.le_total _ _⟩
    haveI : IsTrans _ (fun a b => key a ≤ key b) := ⟨fun _ _ _ => Nat.le_trans⟩
    List.pairwise_insertionSort _ l

/-- Another admissible sort: ties come out in reverse payload order. For
specialized_maps/hash_table.rs:59. -/
def reverseUnstable : UnstableSort where
  run key l := l.reverse.insertionSort (fun a b => key a ≤ key b)
  perm _ l := (List.perm_insertionSort _ _).trans (List.reverse_perm l)
  sorted key l :=
    haveI : Std.Total (fun a b => key a ≤ key b) := ⟨fun _ _ => Nat.le_total _ _⟩
    haveI : IsTrans _ (fun a b => key a ≤ key b) := ⟨fun _ _ _ => Nat.le_trans⟩
    List.pairwise_insertionSort _ l.reverse

/-- `slice::sort_by_key` (stable) on an integer key: all stable sorts give the same result, so
insertion sort stands for it (used at specialized_maps/integer_range_map.rs:37). -/
def stableSortByKey {α : Type} (key : α → Int) (l : List α) : List α :=
  l.insertionSort (fun a b => key a ≤ key b)

/-- The calls a `Hash` implementation makes on a `Hasher` (std::hash::Hasher methods). Made from
specialized_maps/common_map.rs:32, 35, 62. -/
inductive HCall where
  | write (bytes : List UInt8)
  | writeStr (bytes : List UInt8)
  | writeLengthPrefix (n : Nat)
  | writeInt (bits : Nat) (v : Int)
  deriving Repr, DecidableEq

/-- A `BuildHasher`: build a hasher, feed it calls, `finish`. Any function is allowed; the result
is not even required to fit 64 bits. Called at specialized_maps/common_map.rs:32, 35, 62 and
traits/slice_hash.rs:14-17. -/
abbrev Hasher := List HCall → Nat

/-- `bh.hash_one(sub)` for `sub: &[u8]`: std hashes a length prefix, then the bytes
(used at analyzers/slice_key_analyzer.rs:201). -/
def Hasher.hashOneBytes (bh : Hasher) (s : List UInt8) : Nat :=
  bh [.writeLengthPrefix s.length, .write s]

/-- A place in a map's entry array together with the value stored there: the model of `&V` and
`&mut V`. Returned e.g. by specialized_maps/common_map.rs:58-118. -/
structure Ref (V : Type) where
  idx : Nat
  val : V
  deriving Repr, DecidableEq

/-- The build environment: overflow-check mode and the standard library's unstable sort. Model device:
parameters of e.g. specialized_maps/hash_table.rs:30-100. -/
structure Env where
  /-- overflow checks enabled -/
  oc : Bool
  srt : UnstableSort

end FC
