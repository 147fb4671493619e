import Verif.Spec.History
import Verif.Spec.SetAlgebra

/-
Maps of different types made from the same entries (C100).
-/

set_option autoImplicit false

namespace FC
variable {V : Type}

/-- `MapFrom t eq borrow p A m`: on the machine `t`, `m` is a map of the type with interface `A` that was
built from the entries `p` by that type's constructor. Keys are probed with their own type or a borrowed
form, compared with `eq`. Left out, as in C49: empty range maps (they panic on some probes, C25) and
empty slice maps over ranges that make them panic. -/
inductive MapFrom (t : Target) : {K Q M : Type} → (Q → Q → Bool) → (K → Q) → List (K × V) →
    MapApi M K V Q → M → Prop where
  /-- specialized_maps/scanning_map.rs -/
  | scanning {K Q : Type} (P : Probe K Q) (p : List (K × V)) :
      MapFrom t P.eq P.borrow p (scanningApi P) (ScanningMap.fromVec p)
  /-- specialized_maps/common_map.rs; keys equal to a probe hash like it. -/
  | common {K Q : Type} (env : Env) (S : IdxTy) (P : Probe K Q) (enc : K → List HCall)
      (p : List (K × V)) (bh : Hasher) (m : CommonMap K V) :
      (∀ k q, P.eq q (P.borrow k) = true → P.enc q = enc k) →
      CommonMap.fromVecWithHasher env S enc p bh = .ok m →
      MapFrom t P.eq P.borrow p (commonApi P) m
  /-- specialized_maps/integer_map.rs -/
  | integer (env : Env) (S : IdxTy) (p : List (Int × V)) (m : IntegerMap V) :
      IntegerMap.fromVec env S p = .ok m →
      MapFrom t (fun a b => decide (a = b)) id p integerApi m
  /-- specialized_maps/integer_range_map.rs -/
  | range (oc oc' : Bool) (it : IntTy) (p : List (Int × V)) (m : IntegerRangeMap V) :
      0 < it.bits → p ≠ [] → (∀ e ∈ p, it.InRange e.1) → IntegerRangeMap.fromVec oc it p = .ok m →
      MapFrom t (fun a b => decide (a = b)) id p (rangeApi oc' it) m
  /-- specialized_maps/length_map.rs; keys equal to a probe are as long. -/
  | length {K Q : Type} (env : Env) (S : IdxTy) (borrow : K → Q) (eq : Q → Q → Bool) (lenK : K → Nat)
      (lenQ : Q → Nat) (p : List (K × V)) (m : LengthMap K V) :
      (∀ k q, eq q (borrow k) = true → lenQ q = lenK k) → LengthMap.fromVec env S lenK p = .ok m →
      MapFrom t eq borrow p (lengthApi borrow eq lenQ) m
  /-- specialized_maps/left_slice_map.rs -/
  | left (env : Env) (S : IdxTy) (p : List (Bytes × V)) (a b : Nat) (bh : Hasher) (m : LeftSliceMap V) :
      (p = [] → a ≤ b) → LeftSliceMap.fromVecWithHasher env S p a b bh = .ok m →
      MapFrom t (fun a b => decide (a = b)) id p leftApi m
  /-- specialized_maps/right_slice_map.rs -/
  | right (env : Env) (oc : Bool) (S : IdxTy) (p : List (Bytes × V)) (a b : Nat) (bh : Hasher)
      (m : RightSliceMap V) :
      (p = [] → b ≤ a) → a < usz → b < usz → RightSliceMap.fromVecWithHasher env S p a b bh = .ok m →
      MapFrom t (fun a b => decide (a = b)) id p (rightApi oc) m
  /-- facades/frozen_map.rs -/
  | frozen {K : Type} (env env' : Env) (ty : KeyTy K) (p : List (K × V)) (bh : Hasher)
      (m : FrozenMap K V) : LawfulKey ty → FrozenMap.new env ty p bh = .ok m →
      MapFrom t ty.eq id p (frozenApi env' ty) m

/-- Nobody can tell the maps apart: every history panics on both or gives agreeing observations on both
(equal, except for the order of listings). There is no undefined behaviour. -/
def Interchangeable {K Q M N : Type} (A : MapApi M K V Q) (B : MapApi N K V Q) (m : M) (n : N) : Prop :=
  ∀ ops : List (MapOp V Q), (A.run m ops = .panic ∧ B.run n ops = .panic) ∨
    ∃ outs outs' m' n', A.run m ops = .ok (outs, m') ∧ B.run n ops = .ok (outs', n') ∧
      List.Forall₂ Out.Agree outs outs'

/-- One question to each of two sets, answered alike. -/
def SameAnswers {α : Type} (x y : Res α) : Prop := ∃ r, x = .ok r ∧ y = .ok r

/-- Nobody can tell the sets apart by asking them or by comparing them with the set `b`. -/
structure SetsInterchangeable {T : Type} (a a' b : SetI T) : Prop where
  contains : ∀ x, SameAnswers (a.contains x) (a'.contains x)
  len : a.len = a'.len
  left : SameAnswers (a.isSubset b) (a'.isSubset b) ∧ SameAnswers (a.isSuperset b) (a'.isSuperset b) ∧
    SameAnswers (a.isDisjoint b) (a'.isDisjoint b) ∧ SameAnswers (a.eq b) (a'.eq b)
  right : SameAnswers (b.isSubset a) (b.isSubset a') ∧ SameAnswers (b.isSuperset a) (b.isSuperset a') ∧
    SameAnswers (b.isDisjoint a) (b.isDisjoint a') ∧ SameAnswers (b.eq a) (b.eq a')

/-- As many elements, and the same ones up to `==`. -/
def SameElements {T : Type} (eq : T → T → Bool) (l l' : List T) : Prop :=
  l.length = l'.length ∧ ∀ x, Has eq l x ↔ Has eq l' x

/-- Calling `next` again and again on `a.union(&b)` (or another of the four iterators) gives the elements
`l`, then `None` for ever. -/
def IteratorShows {T : Type} (next : BinIter T → Res (Option T × BinIter T)) (a b : SetI T) (l : List T) : Prop :=
  ∀ n, ∃ st, rcalls next n (BinIter.new a b) = .ok (firstCalls l n, st)

/-- Nobody can tell `a`, `b` from `a'`, `b'` by listing or combining them. -/
structure CombineAlike {T : Type} (eq : T → T → Bool) (a b a' b' : SetI T) : Prop where
  listed : SameElements eq a.iter a'.iter
  operators : ∀ o : SetOperator, ∃ s s', o.apply eq a b = .ok s ∧ o.apply eq a' b' = .ok s' ∧
    SameElements eq s.items s'.items
  union : ∃ l l', IteratorShows BinIter.unionNext a b l ∧ IteratorShows BinIter.unionNext a' b' l' ∧ SameElements eq l l'
  intersection : ∃ l l', IteratorShows BinIter.intersectionNext a b l ∧ IteratorShows BinIter.intersectionNext a' b' l' ∧
    SameElements eq l l'
  difference : ∃ l l', IteratorShows BinIter.differenceNext a b l ∧ IteratorShows BinIter.differenceNext a' b' l' ∧
    SameElements eq l l'
  symmetricDifference : ∃ l l', IteratorShows BinIter.symDiffNext a b l ∧ IteratorShows BinIter.symDiffNext a' b' l' ∧
    SameElements eq l l'

end FC
