import Verif.Spec.History
import Verif.Model.Cost

/-
What using a map leaves as it was: everything but the values.
-/

set_option autoImplicit false

namespace FC
variable {M K V Q : Type}

/-- What a counted lookup shows apart from the value: the stored key it found, where that entry lies,
and how many comparisons were made. -/
def searchTrace (r : Res (Option (K × Ref V) × Nat)) : Res (Option (K × Nat) × Nat) :=
  r.map (fun x => (x.1.map (fun e => (e.1, e.2.idx)), x.2))

variable [Target]

/-- Two states of a map differ in nothing but the values stored. `find` is the lookup that counts its
comparisons. -/
structure Unmoved (A : MapApi M K V Q) (find : M → Q → Res (Option (K × Ref V) × Nat))
    (m m' : M) : Prop where
  /-- A probe finds the same key in the same place, after as many comparisons. -/
  search : ∀ q, searchTrace (find m' q) = searchTrace (find m q)
  /-- `get`, `get_mut`, indexing and `get_many_mut` give references to the same places, and panic for
  the same probes. -/
  get : ∀ q, (A.get m' q).map (Option.map Ref.idx) = (A.get m q).map (Option.map Ref.idx)
  getMut : ∀ q, (A.getMut m' q).map (Option.map Ref.idx) = (A.getMut m q).map (Option.map Ref.idx)
  index : ∀ q, (A.index m' q).map Ref.idx = (A.index m q).map Ref.idx
  indexMut : ∀ q, (A.indexMut m' q).map Ref.idx = (A.indexMut m q).map Ref.idx
  getManyMut : ∀ qs, (A.getManyMut m' qs).map (Option.map (List.map Ref.idx))
    = (A.getManyMut m qs).map (Option.map (List.map Ref.idx))
  containsKey : ∀ q, A.containsKey m' q = A.containsKey m q
  /-- The keys are iterated in the same order. -/
  keys : (A.keys m').fold (fun l k => l ++ [k]) [] = (A.keys m).fold (fun l k => l ++ [k]) []
  len : A.len m' = A.len m

/-- Whatever is done with a map, whatever its contents, only values change. -/
def OnlyValuesChange (A : MapApi M K V Q) (find : M → Q → Res (Option (K × Ref V) × Nat)) : Prop :=
  ∀ (m : M) (ops : List (MapOp V Q)) (outs : List (Out K V)) (m' : M),
    A.run m ops = .ok (outs, m') → Unmoved A find m m'

end FC
