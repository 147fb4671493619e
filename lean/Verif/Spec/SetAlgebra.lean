import Verif.Spec
import Verif.Model.FrozenSet

/-
Vocabulary of C54: the sets a user can build, and expressions over them.
-/

set_option autoImplicit false

namespace FC
variable [Target]

/-- `SetOf T eq s p`: `s` is (the interface of) a set of one of the crate's types, or a std
`HashSet` or `BTreeSet`, over elements of type `T` compared with `eq`, built from the values `p`;
`cap` is `S::MAX`. A std set holds each value once, in whatever order it iterates. -/
inductive SetOf : (T : Type) → (T → T → Bool) → SetI T → List T → Prop where
  | frozen {T : Type} (env env₁ : Env) (ty : KeyTy T) (bh : Hasher) (p : List T) (s : FrozenSet T) :
      LawfulKey ty → p.length < 2 ^ 32 → Distinct ty.eq p → FrozenSet.new env₁ ty p bh = .ok s →
      SetOf T ty.eq (s.toSetI env ty) p
  | scanning {T : Type} (eq : T → T → Bool) (enc : T → List HCall) (p : List T) :
      Distinct eq p → SetOf T eq ((ScanningSet.fromVec p).toSetI ⟨id, eq, enc⟩) p
  | common {T : Type} (env : Env) (S : IdxTy) (cap : Nat) (eq : T → T → Bool)
      (enc : T → List HCall) (bh : Hasher) (p : List T) (s : CommonSet T) :
      S.capacity = some cap → p.length ≤ cap →
      (∀ a b, eq a b = true → enc a = enc b) → Distinct eq p →
      CommonSet.fromVecWithHasher env S enc p bh = .ok s → SetOf T eq (s.toSetI ⟨id, eq, enc⟩) p
  | integer (env : Env) (S : IdxTy) (cap : Nat) (p : List Int) (s : IntegerSet) :
      S.capacity = some cap → p.length ≤ cap → p.Nodup → IntegerSet.fromVec env S p = .ok s →
      SetOf Int (fun a b => decide (a = b)) s.toSetI p
  | length {T : Type} (env : Env) (S : IdxTy) (cap : Nat) (eq : T → T → Bool) (lenT : T → Nat)
      (p : List T) (s : LengthSet T) :
      S.capacity = some cap → p.length ≤ cap →
      (∀ a b, eq a b = true → lenT a = lenT b) → Distinct eq p →
      LengthSet.fromVec env S lenT p = .ok s → SetOf T eq (s.toSetI eq lenT) p
  | leftSlice (env : Env) (S : IdxTy) (cap : Nat) (a b : Nat) (bh : Hasher) (p : List Bytes)
      (s : LeftSliceSet) :
      S.capacity = some cap → p.length ≤ cap → a ≤ b → (∀ k ∈ p, b ≤ k.length) → p.Nodup →
      LeftSliceSet.fromVecWithHasher env S p a b bh = .ok s →
      SetOf Bytes (fun a b => decide (a = b)) s.toSetI p
  | rightSlice (env : Env) (S : IdxTy) (cap : Nat) (oc : Bool) (a b : Nat) (bh : Hasher)
      (p : List Bytes) (s : RightSliceSet) :
      S.capacity = some cap → p.length ≤ cap → b ≤ a → (∀ k ∈ p, a ≤ k.length) → p.Nodup →
      RightSliceSet.fromVecWithHasher env S p a b bh = .ok s →
      SetOf Bytes (fun a b => decide (a = b)) (s.toSetI oc) p
  | integerRange (oc oc' : Bool) (t : IntTy) (p : List Int) (s : IntegerRangeSet) :
      0 < t.bits → p ≠ [] → (∀ k ∈ p, t.InRange k) → p.Nodup →
      IntegerRangeSet.fromVec oc t p = .ok s →
      SetOf Int (fun a b => decide (a = b)) (s.toSetI oc' t) p
  | std {T : Type} (eq : T → T → Bool) (p : List T) (s : StdSet T) :
      Distinct eq s.items → (∀ x, Has eq s.items x ↔ Has eq p x) → SetOf T eq (s.toSetI eq) p

/-- The four operators. -/
inductive SetOperator where
  | or | and | xor | sub

/-- Their meaning. -/
def SetOperator.holds : SetOperator → Prop → Prop → Prop
  | .or, p, q => p ∨ q
  | .and, p, q => p ∧ q
  | .xor, p, q => (p ∧ ¬ q) ∨ (q ∧ ¬ p)
  | .sub, p, q => p ∧ ¬ q

/-- What the code runs for `&a op &b`. -/
def SetOperator.apply {T : Type} (eq : T → T → Bool) : SetOperator → SetI T → SetI T → Res (StdSet T)
  | .or, a, b => a.bitOr eq b
  | .and, a, b => a.bitAnd eq b
  | .xor, a, b => a.bitXor eq b
  | .sub, a, b => a.sub eq b

/-- Expressions `a op (b op (c ...))`. The result of an operator is a std `HashSet`, which can be the
right operand of the next one; `order` is the order it then iterates in. -/
inductive SetExpr (T : Type) where
  | leaf (s : SetI T)
  | op (o : SetOperator) (order : List T → List T) (a : SetI T) (rest : SetExpr T)

/-- Evaluation. -/
def SetExpr.eval {T : Type} (eq : T → T → Bool) : SetExpr T → Res (SetI T)
  | .leaf s => .ok s
  | .op o order a rest => do
    let b ← rest.eval eq
    let r ← o.apply eq a b
    return (StdSet.mk (order r.items)).toSetI eq

/-- `Means eq e P`: every set in `e` was built by the crate or is a std set, every order
is one, and the values `e` denotes are those for which `P` holds. -/
inductive SetExpr.Means {T : Type} (eq : T → T → Bool) : SetExpr T → (T → Prop) → Prop where
  | leaf {s : SetI T} {p : List T} : SetOf T eq s p → Means eq (.leaf s) (Has eq p)
  | op {o : SetOperator} {order : List T → List T} {a : SetI T} {p : List T} {rest : SetExpr T}
      {Q : T → Prop} : (∀ l, (order l).Perm l) → SetOf T eq a p → Means eq rest Q →
      Means eq (.op o order a rest) (fun x => o.holds (Has eq p x) (Q x))

end FC
