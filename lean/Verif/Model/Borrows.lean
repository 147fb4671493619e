import Verif.Basic

/-
Rust's aliasing rules for the references that maps hand out, after the Stacked Borrows model: each
place keeps a stack of the references made to it, and using a reference is undefined behaviour when
it is no longer in the stack or does not permit the access. Simplified: raw pointers, interior
mutability, `Unpin` and protectors are left out (the library uses none of the first two here); keys
are left out, being never handed out mutably; re-borrows by the caller are left out.
-/

set_option autoImplicit false

namespace FC

/-- What a reference may do to the place it refers to. Model device for the signatures of
specialized_maps/common_map.rs:68-82 (`&V`) and 104-118 (`&mut V`) and their counterparts. -/
inductive Perm where
  /-- made as a `&mut` -/
  | unique
  /-- made as a `&` -/
  | readOnly
deriving DecidableEq

/-- A reference in the stack of a place: its tag and what it may do. Model device, see `Perm`. -/
structure Borrow where
  tag : Nat
  perm : Perm
deriving DecidableEq

/-- The value of one entry: the references made to it, newest first, and the next unused tag. Model
device, see `Perm`. -/
structure Cell where
  stack : List Borrow
  next : Nat
deriving DecidableEq

/-- The value of an entry of a map nobody has looked at: only the map itself, its owner, refers to it
(`entries: Box<[(K, V)]>`, specialized_maps/hash_table.rs:12). The owner has tag 0. -/
def Cell.owned : Cell := ⟨[⟨0, .unique⟩], 1⟩

/-- A read through the reference tagged `t`: mutable references made after it are dead. Model device,
see `Perm`. -/
def readStack (t : Nat) : List Borrow → Option (List Borrow)
  | [] => none
  | b :: bs =>
    if b.tag = t then some (b :: bs)
    else (readStack t bs).map fun r => if b.perm = .readOnly then b :: r else r

/-- A write through the reference tagged `t`, which must be a mutable one: all references made after
it are dead. Model device, see `Perm`. -/
def writeStack (t : Nat) : List Borrow → Option (List Borrow)
  | [] => none
  | b :: bs =>
    if b.tag = t then (if b.perm = .unique then some (b :: bs) else none) else writeStack t bs

/-- `let _ = *r;` Model device, see `Perm`. -/
def Cell.read (t : Nat) (p : Cell) : Res Cell :=
  match readStack t p.stack with
  | some s => .ok { p with stack := s }
  | none => .ub

/-- `*r = v;` as far as references are concerned. Model device, see `Perm`. -/
def Cell.write (t : Nat) (p : Cell) : Res Cell :=
  match writeStack t p.stack with
  | some s => .ok { p with stack := s }
  | none => .ub

/-- `&*r`: counts as a read through `r`. Model device, see `Perm`. -/
def Cell.share (t : Nat) (p : Cell) : Res (Nat × Cell) :=
  match readStack t p.stack with
  | some s => .ok (p.next, ⟨⟨p.next, .readOnly⟩ :: s, p.next + 1⟩)
  | none => .ub

/-- `&mut *r`: counts as a write through `r`. Model device, see `Perm`. -/
def Cell.reserve (t : Nat) (p : Cell) : Res (Nat × Cell) :=
  match writeStack t p.stack with
  | some s => .ok (p.next, ⟨⟨p.next, .unique⟩ :: s, p.next + 1⟩)
  | none => .ub

/-- `n` re-borrows, each of the one before: `&self`, then `&[(K, V)]`, `&(K, V)`, `&V`. E.g.
specialized_maps/common_map.rs:73-77. -/
def Cell.shareN : Nat → Nat → Cell → Res (Nat × Cell)
  | 0, t, p => .ok (t, p)
  | n + 1, t, p => do
    let r ← p.share t
    Cell.shareN n r.1 r.2

/-- `n` mutable re-borrows, each of the one before: `&mut self`, then `&mut [(K, V)]`, `&mut (K, V)`,
`&mut V`. E.g. specialized_maps/common_map.rs:109-113. -/
def Cell.reserveN : Nat → Nat → Cell → Res (Nat × Cell)
  | 0, t, p => .ok (t, p)
  | n + 1, t, p => do
    let r ← p.reserve t
    Cell.reserveN n r.1 r.2

/-- The places of all entries. Model device, see `Cell`. -/
abbrev Cells := Nat → Cell

/-- Change one place. Model device, see `Cell`. -/
def Cells.set (b : Cells) (i : Nat) (p : Cell) : Cells := fun j => if j = i then p else b j

/-- What a call re-borrows on its way to its answer: places, each some number of times over (the
slice, a sub-slice, an entry), and how many re-borrows lie between the map and the reference it
returns. Which and how many is left open. E.g. specialized_maps/common_map.rs:73-77. -/
structure Walk where
  visited : List (Nat × Nat)
  depth : Nat

/-- The re-borrows a call through `&self` makes on its way. E.g.
specialized_maps/common_map.rs:73-76. -/
def Cells.look : List (Nat × Nat) → Cells → Res Cells
  | [], b => .ok b
  | (i, n) :: vs, b => do
    let r ← (b i).shareN n 0
    Cells.look vs (b.set i r.2)

/-- The same through `&mut self`. E.g. specialized_maps/common_map.rs:109-112. -/
def Cells.lookMut : List (Nat × Nat) → Cells → Res Cells
  | [], b => .ok b
  | (i, n) :: vs, b => do
    let r ← (b i).reserveN n 0
    Cells.lookMut vs (b.set i r.2)

/-- The reference to the value of entry `i` that a call through `&self` returns. E.g.
`Some(&entry.1)`, specialized_maps/common_map.rs:77. -/
def Cells.handOut (w : Walk) (i : Nat) (b : Cells) : Res (Nat × Cells) := do
  let b ← b.look w.visited
  let r ← (b i).shareN (w.depth + 1) 0
  return (r.1, b.set i r.2)

/-- The mutable reference that `get_mut` or `index_mut` returns. E.g. `Some(&mut entry.1)`,
specialized_maps/common_map.rs:113. -/
def Cells.handOutMut (w : Walk) (i : Nat) (b : Cells) : Res (Nat × Cells) := do
  let b ← b.lookMut w.visited
  let r ← (b i).reserveN (w.depth + 1) 0
  return (r.1, b.set i r.2)

/-- Use the reference tagged `t` to entry `i` in some way. Model device, see `Cell`. -/
def Cells.use (f : Cell → Res Cell) (i : Nat) (b : Cells) : Res Cells := do
  let p ← f (b i)
  return b.set i p

/-- What `get_many_mut` returns: for each key the `&V` of `get`, turned into a `&mut V` by
`transmute`, which makes no new reference. specialized_maps/common_map.rs:139-141,
scanning_map.rs:97, integer_map.rs:105, length_map.rs:125, left_slice_map.rs:162, right_slice_map.rs:165,
integer_range_map.rs:107, facades/frozen_map.rs:507-509. -/
def Cells.handOutMany (w : Walk) : List Nat → Cells → Res (List Nat × Cells)
  | [], b => .ok ([], b)
  | i :: is, b => do
    let r ← b.handOut w i
    let rs ← Cells.handOutMany w is r.2
    return (r.1 :: rs.1, rs.2)

/-- Use several references one after another. Model device, see `Cell`. -/
def Cells.useAll (f : Nat → Cell → Res Cell) : List (Nat × Nat) → Cells → Res Cells
  | [], b => .ok b
  | (i, t) :: rs, b => do
    let b' ← b.use (f t) i
    Cells.useAll f rs b'

/-- Hand out shared references to several values, and read through them. E.g. `iter`,
specialized_maps/common_map.rs:160-162. -/
def Cells.handOutAll (w : Walk) : List Nat → Cells → Res (List (Nat × Nat) × Cells)
  | [], b => .ok ([], b)
  | i :: is, b => do
    let r ← b.handOut w i
    let b' ← r.2.use (Cell.read r.1) i
    let rs ← Cells.handOutAll w is b'
    return ((i, r.1) :: rs.1, rs.2)

end FC
