import Verif.Spec
import Verif.Model.Cost

/-
What it costs to look up all keys of a map, or all elements of a set.
-/

set_option autoImplicit false

namespace FC
variable {K V : Type}

/-- How many pairs of hash codes share a slot in a table of `size` slots. -/
def sharing (size : Nat) : List Nat → Nat
  | [] => 0
  | c :: cs => (cs.filter (fun d => d % size = c % size)).length + sharing size cs

/-- Looking up the key of each entry finds that entry, and takes `total` comparisons with stored keys
altogether. -/
def FindsAll (lookup : K → Res (Option (K × Ref V) × Nat)) (payload : List (K × V)) (total : Nat) :
    Prop :=
  ∃ counts : List Nat, counts.sum = total ∧
    List.Forall₂ (fun e n => ∃ i, lookup e.1 = .ok (some (e.1, ⟨i, e.2⟩), n)) payload counts

/-- Looking up each element of a set finds it, and takes `total` comparisons with elements
altogether. -/
def SetFindsAll {T : Type} (lookup : T → Res (Option T × Nat)) (payload : List T) (total : Nat) :
    Prop :=
  ∃ counts : List Nat, counts.sum = total ∧
    List.Forall₂ (fun x n => lookup x = .ok (some x, n)) payload counts

variable [Target]

/-- The code by which a `FrozenMap` or `FrozenSet` with four entries or more files its keys. `u32` keys that are
judged contiguous are not filed by any code; other `u32` keys by their value; strings by their length,
by the hash of the part that tells them apart (strings too short for that part by `0`), or by the hash
of the whole string, as judged by the analysis; keys of other types by their hash. -/
def filedBy (oc : Bool) (ty : KeyTy K) (bh : Hasher) (keys : List K) : Option (K → Nat) :=
  match ty.kind with
  | .u32 toInt _ =>
    if analyzeIntKeys IntTy.u32 oc (keys.map toInt) = .ok .range then none
    else some (fun k => asU64 (toInt k))
  | .string toB _ =>
    match analyzeSliceKeys oc bh (keys.map toB) with
    | .ok (.left i l) => some (fun k => if i + l ≤ (toB k).length
        then bh [.write (((toB k).drop i).take l)] else 0)
    | .ok .length =>
      if keys.length ≤ 255 then some (fun k => (toB k).length) else some (fun k => bh (ty.enc k))
    | _ => some (fun k => bh (ty.enc k))
  | .other => some (fun k => bh (ty.enc k))

end FC
