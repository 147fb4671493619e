import Verif.Model.Sets

/-
Model of traits/len.rs: the types with a built-in `Len`, with their `Eq` from std (a key of a
`LengthMap` needs both).
-/

set_option autoImplicit false

namespace FC
variable [Target]

/-- A type with `Len` and `Eq`. traits/len.rs:13-21 (`Len`). -/
structure LenType where
  Val : Type
  len : Val → Nat
  eq : Val → Val → Bool

/-- traits/len.rs:18-20 (`is_empty`, the default method, which no implementation overrides). -/
def LenType.isEmpty (T : LenType) (v : T.Val) : Bool := decide (T.len v = 0)

/-- traits/len.rs:35-45 (`String`, `str`) and 119-129 (`OsStr`, `OsString`): their bytes. -/
def byteString : LenType := ⟨Bytes, List.length, fun a b => decide (a = b)⟩

/-- A `CStr` or `CString` as stored: bytes other than zero, then a zero. std; the types of
traits/len.rs:47-57. -/
structure CBytes where
  stored : Bytes
  nul : ∃ s : Bytes, stored = s ++ [0] ∧ (0 : UInt8) ∉ s

/-- `CStr::to_bytes` and `CString::as_bytes`: all but the final zero. std, called at traits/len.rs:47-57.
-/
def CBytes.bytes (c : CBytes) : Bytes := c.stored.take (c.stored.length - 1)

/-- traits/len.rs:47-51 (`CStr`); std compares `to_bytes`. -/
def cStr : LenType := ⟨CBytes, fun c => c.bytes.length, fun a b => decide (a.bytes = b.bytes)⟩

/-- traits/len.rs:53-57 (`CString`); std derives `Eq` on the bytes stored. -/
def cString : LenType := ⟨CBytes, fun c => c.bytes.length, fun a b => decide (a.stored = b.stored)⟩

/-- Slice equality of std: same length, then element by element. std; `Eq` of the types of
traits/len.rs:59-63, 107-111. -/
def seqEq {T : Type} (eq : T → T → Bool) : List T → List T → Bool
  | [], [] => true
  | a :: as, b :: bs => eq a b && seqEq eq as bs
  | _, _ => false

/-- traits/len.rs:59-63 (`[T]`), 101-117 (`LinkedList`, `Vec`, `VecDeque`). -/
def sequence (T : Type) (eq : T → T → Bool) : LenType := ⟨List T, List.length, seqEq eq⟩

/-- Elements of a std set: no two equal. std; the types of traits/len.rs:23-27, 89-93. -/
def SetVal (T : Type) (eq : T → T → Bool) : Type :=
  { l : List T // l.Pairwise (fun a b => eq a b = false) }

/-- traits/len.rs:23-27 (`HashSet`) with std's `PartialEq`: equal length, and every element of the
left in the right. -/
def hashSet (T : Type) (eq : T → T → Bool) : LenType :=
  ⟨SetVal T eq, fun s => s.1.length,
    fun a b => decide (a.1.length = b.1.length) && a.1.all (fun x => b.1.any (fun y => eq y x))⟩

/-- traits/len.rs:89-93 (`BTreeSet`) with std's `PartialEq`: the sorted elements, one by one. -/
def bTreeSet (T : Type) (eq : T → T → Bool) : LenType :=
  ⟨SetVal T eq, fun s => s.1.length, fun a b => seqEq eq a.1 b.1⟩

/-- Entries of a std map: no two keys equal. std; the types of traits/len.rs:29-33, 83-87. -/
def MapVal (K V : Type) (eq : K → K → Bool) : Type :=
  { l : List (K × V) // l.Pairwise (fun a b => eq a.1 b.1 = false) }

/-- traits/len.rs:29-33 (`HashMap`) with std's `PartialEq`: equal length, and every entry of the left
has an equal value in the right. -/
def hashMap (K V : Type) (eq : K → K → Bool) (veq : V → V → Bool) : LenType :=
  ⟨MapVal K V eq, fun m => m.1.length,
    fun a b => decide (a.1.length = b.1.length) && a.1.all (fun x =>
      match b.1.find? (fun y => eq x.1 y.1) with
      | none => false
      | some y => veq x.2 y.2)⟩

/-- traits/len.rs:83-87 (`BTreeMap`) with std's `PartialEq`: the sorted entries, one by one. -/
def bTreeMap (K V : Type) (eq : K → K → Bool) (veq : V → V → Bool) : LenType :=
  ⟨MapVal K V eq, fun m => m.1.length, fun a b => seqEq (fun x y => eq x.1 y.1 && veq x.2 y.2) a.1 b.1⟩

/-- A `Box`, `Rc` or `Arc`. std; the types of traits/len.rs:65-81. -/
structure Pointer (T : Type) where
  target : T

/-- traits/len.rs:65-81 (`Box`, `Rc`, `Arc`): `T::len(self)`, the length of what it points to; std's
`PartialEq` compares what they point to. -/
def pointer (T : LenType) : LenType :=
  ⟨Pointer T.Val, fun p => T.len p.target, fun a b => T.eq a.target b.target⟩

end FC
