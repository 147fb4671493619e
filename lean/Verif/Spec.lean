import Verif.Model.FrozenMap
import Verif.Model.FrozenSet
import Mathlib.Data.Finset.Card

/-
The vocabulary in which the properties are stated: plain association lists, lawful key types, and
some concrete key types used to show that hypotheses can be met. Nothing here depends on how the
code works.
-/

set_option autoImplicit false

namespace FC
variable [Target]
variable {K V Q : Type}

/-- What a map built from `payload` should answer for `k`: the value of the pair whose key equals
`k`. -/
def lookup (eq : K → K → Bool) (payload : List (K × V)) (k : K) : Option V :=
  (payload.find? (fun e => eq k e.1)).map (·.2)

/-- Some payload key equals `k`. -/
def Present (eq : K → K → Bool) (payload : List (K × V)) (k : K) : Prop :=
  ∃ e ∈ payload, eq k e.1 = true

/-- Some payload key equal to `k` is paired with `v`. -/
def Associated (eq : K → K → Bool) (payload : List (K × V)) (k : K) (v : V) : Prop :=
  ∃ e ∈ payload, eq k e.1 = true ∧ e.2 = v

/-- The payload keys are pairwise unequal. -/
def DistinctKeys (eq : K → K → Bool) (payload : List (K × V)) : Prop :=
  payload.Pairwise (fun a b => eq a.1 b.1 = false)

/-- `Eq`'s contract. -/
structure LawfulEq (eq : K → K → Bool) : Prop where
  refl : ∀ a, eq a a = true
  symm : ∀ a b, eq a b = true → eq b a = true
  trans : ∀ a b c, eq a b = true → eq b c = true → eq a c = true

/-- The `transmute`s of the facade reinterpret a `u32` as an integer in range and a `String` as its
bytes (of which there are at most `isize::MAX`), and equality of such keys is equality of these. -/
def LawfulKind (eq : K → K → Bool) : Kind K → Prop
  | .u32 toInt ofInt => (∀ k, ofInt (toInt k) = k) ∧ (∀ k, IntTy.u32.InRange (toInt k)) ∧
      ∀ a b, eq a b = decide (toInt a = toInt b)
  | .string toB ofB => (∀ k, ofB (toB k) = k) ∧ (∀ k, (toB k).length < usz / 2) ∧
      ∀ a b, eq a b = decide (toB a = toB b)
  | .other => True

/-- A key type that keeps the contracts of `Eq` and `Hash`. -/
structure LawfulKey (ty : KeyTy K) : Prop where
  eq : LawfulEq ty.eq
  hash : ∀ a b, ty.eq a b = true → ty.enc a = ty.enc b
  kind : LawfulKind ty.eq ty.kind

/-- The value part of a lookup result. -/
def value (o : Option (Ref V)) : Option V := o.map Ref.val

/-- Maps a user can hold: built from `payload`, then changed by any number of writes through
references returned by `get_mut`. -/
inductive Reachable (env : Env) (ty : KeyTy K) (payload : List (K × V)) (bh : Hasher) :
    FrozenMap K V → Prop where
  | new {m : FrozenMap K V} : FrozenMap.new env ty payload bh = .ok m →
      Reachable env ty payload bh m
  | write {m : FrozenMap K V} {k : K} {r : Ref V} (v : V) : Reachable env ty payload bh m →
      m.getMut env ty k = .ok (some r) → Reachable env ty payload bh (m.write r.idx v)

/-- A correct answer to a probe, given which keys it matches: a payload pair with a matching key, or
nothing when no payload key matches. -/
def Exact (matching : K → Bool) (payload : List (K × V)) : Option (K × Ref V) → Prop
  | some (k, r) => (k, r.val) ∈ payload ∧ matching k = true
  | none => ∀ e ∈ payload, matching e.1 = false

/-- All lookup methods return for one probe, agree with each other and are correct. -/
def AnswersProbe (matching : K → Bool) (payload : List (K × V))
    (getKeyValue : Res (Option (K × Ref V))) (get getMut : Res (Option (Ref V)))
    (containsKey : Res Bool) : Prop :=
  ∃ o, getKeyValue = .ok o ∧ get = .ok (o.map (·.2)) ∧ getMut = .ok (o.map (·.2)) ∧
    containsKey = .ok o.isSome ∧ Exact matching payload o

/-- Two lookups give the same answer: both find nothing, or both find a value and the values are
equal under `V`'s `==`. -/
def SameAnswer (veq : V → V → Bool) : Option V → Option V → Prop
  | none, none => True
  | some v, some w => veq v w = true
  | _, _ => False

/-! ### Iterators -/

/-- The results of the first `n` calls of `next`, and the iterator left after them. -/
def calls {σ α : Type} (next : σ → Option α × σ) : Nat → σ → List (Option α) × σ
  | 0, s => ([], s)
  | n + 1, s => ((next s).1 :: (calls next n (next s).2).1, (calls next n (next s).2).2)

/-- The results of the first `n` calls of `next` on an iterator over `es`: its members in order,
then `None` for ever. -/
def firstCalls {α : Type} (es : List α) (n : Nat) : List (Option α) := (List.range n).map (es[·]?)

/-- The same for a `next` that may fail. -/
def rcalls {σ α : Type} (next : σ → Res (Option α × σ)) : Nat → σ → Res (List (Option α) × σ)
  | 0, s => .ok ([], s)
  | n + 1, s => do
    let r ← next s
    let rs ← rcalls next n r.2
    return (r.1 :: rs.1, rs.2)

/-! ### Sets -/

/-- Some member of `xs` equals `x`. -/
def Has {T : Type} (eq : T → T → Bool) (xs : List T) (x : T) : Prop := ∃ y ∈ xs, eq x y = true

/-- The members of `xs` are pairwise unequal. -/
def Distinct {T : Type} (eq : T → T → Bool) (xs : List T) : Prop :=
  xs.Pairwise (fun a b => eq a b = false)

/-- A set implementation that keeps its promises: `contains` answers for what `iter` yields, `len`
counts it, and nothing is yielded twice. -/
structure Consistent {T : Type} (eq : T → T → Bool) (s : SetI T) : Prop where
  contains : ∀ x, ∃ b, s.contains x = .ok b ∧ (b = true ↔ Has eq s.iter x)
  len : s.len = s.iter.length
  distinct : Distinct eq s.iter

/-! ### String keys -/

/-- The `l` bytes of `s` from position `i`. -/
def leftPart (i l : Nat) (s : Bytes) : Bytes := (s.drop i).take l

/-- The `l` bytes of `s` starting `i + 1` bytes before its end. -/
def rightPart (i l : Nat) (s : Bytes) : Bytes := (s.drop (s.length - i - 1)).take l

/-- How many members of the list repeat an earlier one. -/
def repeats (xs : List Nat) : Nat := xs.length - xs.toFinset.card

/-- Left sub-slices of length `l` at `i` are acceptable: at most one key in twenty repeats. -/
def LeftUnique (bh : Hasher) (keys : List Bytes) (i l : Nat) : Prop :=
  repeats (keys.map (fun k => bh.hashOneBytes (leftPart i l k))) ≤ keys.length / 20

/-- Right sub-slices of length `l` at `i` are acceptable. -/
def RightUnique (bh : Hasher) (keys : List Bytes) (i l : Nat) : Prop :=
  repeats (keys.map (fun k => bh.hashOneBytes (rightPart i l k))) ≤ keys.length / 20

instance (bh : Hasher) (keys : List Bytes) (i l : Nat) : Decidable (LeftUnique bh keys i l) := by
  unfold LeftUnique; infer_instance
instance (bh : Hasher) (keys : List Bytes) (i l : Nat) : Decidable (RightUnique bh keys i l) := by
  unfold RightUnique; infer_instance

/-- At most 255 keys, and no length shared by more than three of them. -/
def LengthsSpread (keys : List Bytes) : Prop :=
  keys.length ≤ 255 ∧ ∀ L, (keys.map List.length).count L ≤ 3

/-- All keys have one length. -/
def SameLength (keys : List Bytes) : Prop := ∀ a ∈ keys, ∀ b ∈ keys, a.length = b.length

/-- Every key has bytes `i .. i + l`, and these bytes tell the keys apart well enough. -/
def LeftOKAt (bh : Hasher) (keys : List Bytes) (i l : Nat) : Prop :=
  (∀ k ∈ keys, i + l ≤ k.length) ∧ LeftUnique bh keys i l

/-- The same for `l` bytes starting `i + 1` bytes before the end. -/
def RightOKAt (bh : Hasher) (keys : List Bytes) (i l : Nat) : Prop :=
  (∀ k ∈ keys, i + l ≤ k.length) ∧ RightUnique bh keys i l

/-! ### Concrete key types -/

/-- `u32`. -/
def u32Ty : KeyTy UInt32 where
  eq a b := decide (a = b)
  enc k := [.writeInt 32 k.toNat]
  kind := .u32 (fun k => (k.toNat : Int)) (fun i => UInt32.ofNat i.toNat)

/-- `String` contents: byte strings of at most `isize::MAX` bytes (UTF-8 validity plays no role). -/
abbrev RString := { b : Bytes // b.length < usz / 2 }

/-- `String`. -/
def stringTy : KeyTy RString where
  eq a b := decide (a = b)
  enc s := [.writeStr s.1]
  kind := .string (fun s => s.1)
    (fun b => if h : b.length < usz / 2 then ⟨b, h⟩ else ⟨[], by have := usz_ge; simp; omega⟩)

/-- A type that is neither `u32` nor `String`; here `i64`-like integers. -/
def otherTy : KeyTy Int where
  eq a b := decide (a = b)
  enc k := [.writeInt 64 k]
  kind := .other

omit [Target] in
theorem lawfulEq_decide {α : Type} [DecidableEq α] : LawfulEq (fun a b : α => decide (a = b)) :=
  ⟨by simp, by simp only [decide_eq_true_eq]; intro a b h; exact h.symm, by
    simp only [decide_eq_true_eq]; intro a b c h1 h2; exact h1.trans h2⟩

theorem u32Ty_lawful : LawfulKey u32Ty where
  eq := lawfulEq_decide
  hash a b h := by
    have : a = b := of_decide_eq_true h
    rw [this]
  kind := by
    refine ⟨?_, ?_, ?_⟩
    · intro k; simp
    · intro k
      have := k.toNat_lt
      refine ⟨?_, ?_⟩
      · simp [IntTy.lo, IntTy.u32]
      · simp only [IntTy.hi, IntTy.u32]; simp; omega
    · intro a b
      simp only [u32Ty, decide_eq_decide]
      constructor
      · rintro rfl; rfl
      · intro h
        have h' : a.toNat = b.toNat := by exact_mod_cast h
        exact UInt32.toNat_inj.1 h'

theorem stringTy_lawful : LawfulKey stringTy where
  eq := lawfulEq_decide
  hash a b h := by
    have : a = b := of_decide_eq_true h
    rw [this]
  kind := by
    refine ⟨?_, ?_, ?_⟩
    · rintro ⟨k, hk⟩; exact dif_pos hk
    · intro k; exact k.2
    · intro a b
      simp only [stringTy, decide_eq_decide]
      exact Subtype.ext_iff

theorem otherTy_lawful : LawfulKey otherTy where
  eq := lawfulEq_decide
  hash a b h := by
    have : a = b := of_decide_eq_true h
    rw [this]
  kind := trivial

/-- A hasher for examples: sums the numbers it is fed. -/
def demoHasher : Hasher := fun cs => cs.foldl (fun acc c => match c with
  | .write bs => bs.foldl (fun a b => 31 * a + b.toNat) acc
  | .writeStr bs => bs.foldl (fun a b => 31 * a + b.toNat) acc
  | .writeLengthPrefix n => acc + n
  | .writeInt _ v => acc + asU64 v) 7

/-- Both overflow-check modes with insertion sort. -/
def checkedEnv : Env := ⟨true, insertionUnstable⟩
def releaseEnv : Env := ⟨false, insertionUnstable⟩

end FC
