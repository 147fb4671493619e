import Verif.Spec
import Verif.Spec.SetAlgebra

/-
Sets that may repeat values.
-/

set_option autoImplicit false

namespace FC

/-- A set whose interface agrees with its own contents, which may repeat values: `contains` answers
for what `iter` yields, and `len` counts it. -/
structure Answers {T : Type} (eq : T → T → Bool) (s : SetI T) : Prop where
  contains : ∀ x, ∃ b, s.contains x = .ok b ∧ (b = true ↔ Has eq s.iter x)
  len : s.len = s.iter.length

/-- A set that shows the values it was built from, as often as they were given: `contains` answers for
them, `len` counts them and iteration visits each of them. -/
structure Shows {T : Type} (eq : T → T → Bool) (s : SetI T) (p : List T) : Prop where
  contains : ∀ x, ∃ b, s.contains x = .ok b ∧ (b = true ↔ Has eq p x)
  len : s.len = p.length
  iter : s.iter.Perm p

/-- How many members of `l` equal `x`. -/
def times {T : Type} (eq : T → T → Bool) (l : List T) (x : T) : Nat := l.countP (eq x)

/-- What is asked of the repeats among the values of a `FrozenSet`: nothing for general and string
values. `u32` values must be distinct, fewer than four, or not span exactly their number. -/
def SetRepeatsFine {T : Type} (ty : KeyTy T) (p : List T) : Prop :=
  Distinct ty.eq p ∨ p.length < 4 ∨ ∀ f g, ty.kind = .u32 f g →
    ¬ ∃ a ∈ p, ∃ b ∈ p, (∀ x ∈ p, f a ≤ f x ∧ f x ≤ f b) ∧ f b - f a = (p.length : Int) - 1

variable [Target]

/-- `BagOf T eq s p`: `s` is (the interface of) a set of one of the crate's types, or a std `HashSet`
or `BTreeSet`, over elements of type `T` compared with `eq`, built from the values `p`, which may repeat
values unless the set is an integer range. A std set holds each value once, whatever it was collected
from. `cap` is `S::MAX`. -/
inductive BagOf : (T : Type) → (T → T → Bool) → SetI T → List T → Prop where
  | frozen {T : Type} (env env₁ : Env) (ty : KeyTy T) (bh : Hasher) (p : List T) (s : FrozenSet T) :
      LawfulKey ty → p.length < 2 ^ 32 → SetRepeatsFine ty p →
      FrozenSet.new env₁ ty p bh = .ok s → BagOf T ty.eq (s.toSetI env ty) p
  | scanning {T : Type} (eq : T → T → Bool) (enc : T → List HCall) (p : List T) :
      BagOf T eq ((ScanningSet.fromVec p).toSetI ⟨id, eq, enc⟩) p
  | common {T : Type} (env : Env) (S : IdxTy) (cap : Nat) (eq : T → T → Bool)
      (enc : T → List HCall) (bh : Hasher) (p : List T) (s : CommonSet T) :
      S.capacity = some cap → p.length ≤ cap → (∀ a b, eq a b = true → enc a = enc b) →
      CommonSet.fromVecWithHasher env S enc p bh = .ok s → BagOf T eq (s.toSetI ⟨id, eq, enc⟩) p
  | integer (env : Env) (S : IdxTy) (cap : Nat) (p : List Int) (s : IntegerSet) :
      S.capacity = some cap → p.length ≤ cap → IntegerSet.fromVec env S p = .ok s →
      BagOf Int (fun a b => decide (a = b)) s.toSetI p
  | length {T : Type} (env : Env) (S : IdxTy) (cap : Nat) (eq : T → T → Bool) (lenT : T → Nat)
      (p : List T) (s : LengthSet T) :
      S.capacity = some cap → p.length ≤ cap → (∀ a b, eq a b = true → lenT a = lenT b) →
      LengthSet.fromVec env S lenT p = .ok s → BagOf T eq (s.toSetI eq lenT) p
  | leftSlice (env : Env) (S : IdxTy) (cap : Nat) (a b : Nat) (bh : Hasher) (p : List Bytes)
      (s : LeftSliceSet) :
      S.capacity = some cap → p.length ≤ cap → a ≤ b → (∀ k ∈ p, b ≤ k.length) →
      LeftSliceSet.fromVecWithHasher env S p a b bh = .ok s →
      BagOf Bytes (fun a b => decide (a = b)) s.toSetI p
  | rightSlice (env : Env) (S : IdxTy) (cap : Nat) (oc : Bool) (a b : Nat) (bh : Hasher)
      (p : List Bytes) (s : RightSliceSet) :
      S.capacity = some cap → p.length ≤ cap → b ≤ a → (∀ k ∈ p, a ≤ k.length) →
      RightSliceSet.fromVecWithHasher env S p a b bh = .ok s →
      BagOf Bytes (fun a b => decide (a = b)) (s.toSetI oc) p
  | integerRange (oc oc' : Bool) (t : IntTy) (p : List Int) (s : IntegerRangeSet) :
      0 < t.bits → p ≠ [] → (∀ k ∈ p, t.InRange k) → p.Nodup →
      IntegerRangeSet.fromVec oc t p = .ok s →
      BagOf Int (fun a b => decide (a = b)) (s.toSetI oc' t) p
  | std {T : Type} (eq : T → T → Bool) (s : StdSet T) :
      Distinct eq s.items → BagOf T eq (s.toSetI eq) s.items

/-- `MeansBag eq e P`: every set in `e` was built by the crate from values that may repeat, or is a std
set, every order is one, and the values `e` denotes are those for which `P` holds. -/
inductive SetExpr.MeansBag {T : Type} (eq : T → T → Bool) : SetExpr T → (T → Prop) → Prop where
  | leaf {s : SetI T} {p : List T} : BagOf T eq s p → MeansBag eq (.leaf s) (Has eq p)
  | op {o : SetOperator} {order : List T → List T} {a : SetI T} {p : List T} {rest : SetExpr T}
      {Q : T → Prop} : (∀ l, (order l).Perm l) → BagOf T eq a p → MeansBag eq rest Q →
      MeansBag eq (.op o order a rest) (fun x => o.holds (Has eq p x) (Q x))

end FC
