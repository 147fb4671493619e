import Verif.Spec.Catch
import Verif.Spec.StringCode

/-
Keys whose code is right whenever it answers, but may panic instead of answering; and what a plain
dictionary shows to a caller that catches those panics.
-/

set_option autoImplicit false

namespace FC
variable [Target]
variable {σ K V Q : Type}

/-- Whenever the key type's code answers, it answers as `code` (hash of a key), `probe` (hash of a probe)
and `eq` say, of which `eq` is an equivalence that the hashes respect. It has state, and at any call it
may panic, if `p`. Nothing is asked of the hash codes of the first pass, which picks the table size. -/
structure UserCode.Honest (p : Prop) (u : UserCode σ K Q) (code : K → Nat) (probe : Q → Nat)
    (eq : Q → Q → Bool) (borrow : K → Q) : Prop where
  sizeCode : ∀ k, Behaves False p (u.sizeCode k) (fun _ => True)
  slotCode : ∀ k, Behaves False p (u.slotCode k) (fun c => c = code k)
  probeCode : ∀ q, Behaves False p (u.probeCode q) (fun c => c = probe q)
  isMatch : ∀ q k, Behaves False p (u.isMatch q k) (fun b => b = eq q (borrow k))
  isSame : ∀ a b, Behaves False p (u.isSame a b) (fun r => r = eq a b)
  lawful : LawfulEq eq
  hash : ∀ q k, eq q (borrow k) = true → probe q = code k

/-- A hasher that hashes a string as `hk` says and a part of a string as `hw` says, whenever it answers. It
may panic at any call, if `p`. Nothing is asked of the codes with which the crate compares parts of the keys
before it builds the map. -/
structure HasherCode.Honest (p : Prop) (h : HasherCode σ) (hk hw : Bytes → Nat) : Prop where
  hashKey : ∀ k, Behaves False p (h.hashKey k) (fun c => c = hk k)
  hashSub : ∀ k, Behaves False p (h.hashSub k) (fun _ => True)
  writeSub : ∀ k, Behaves False p (h.writeSub k) (fun c => c = hw k)

namespace Dict

/-- The dictionary after the first `n` writes of one operation. -/
def afterWrites (eq : Q → Q → Bool) (borrow : K → Q) (d : List (K × V)) (n : Nat) :
    MapOp V Q → List (K × V)
  | .getMut q v => if n = 0 then d else assign eq borrow d q v
  | .indexMut q v => if n = 0 then d else assign eq borrow d q v
  | .getManyMut qvs =>
    if (qvs.map (·.1)).Pairwise (fun a b => eq a b = false) ∧
        ∀ qv ∈ qvs, (find eq borrow d qv.1).isSome = true then
      (qvs.take n).foldl (fun d qv => assign eq borrow d qv.1 qv.2) d
    else d
  | _ => d

/-- What one operation on the dictionary shows and does if a panic in it is caught. `p` says whether the
key type's code may panic.
* It returned: as without catching.
* The key type's code panicked: nothing has changed.
* Indexing with an absent key panicked: nothing has changed.
* The caller's own code panicked after `n` writes: these stay. -/
inductive Caught (eq : Q → Q → Bool) (borrow : K → Q) (p : Prop) (d : List (K × V)) :
    Attempt V Q → Option (Out K V) → List (K × V) → Prop
  | returned {op : MapOp V Q} {out : Out K V} {d' : List (K × V)} :
      step eq borrow d op = .ok (out, d') → Caught eq borrow p d ⟨op, none⟩ (some out) d'
  | keyCode {x : Attempt V Q} : p → Caught eq borrow p d x none d
  | absent {op : MapOp V Q} {stop : Option Nat} : step eq borrow d op = .panic →
      Caught eq borrow p d ⟨op, stop⟩ none d
  | stopped {op : MapOp V Q} {n : Nat} {r : Out K V × List (K × V)} : step eq borrow d op = .ok r →
      Caught eq borrow p d ⟨op, some n⟩ none (afterWrites eq borrow d n op)

/-- A whole history, and the pairs at its end. -/
inductive CaughtRun (eq : Q → Q → Bool) (borrow : K → Q) (p : Prop) :
    List (K × V) → List (Attempt V Q) → List (Option (Out K V)) → List (K × V) → Prop
  | nil (d : List (K × V)) : CaughtRun eq borrow p d [] [] d
  | cons {d d' d'' : List (K × V)} {x : Attempt V Q} {xs : List (Attempt V Q)} {o : Option (Out K V)}
      {os : List (Option (Out K V))} : Caught eq borrow p d x o d' → CaughtRun eq borrow p d' xs os d'' →
      CaughtRun eq borrow p d (x :: xs) (o :: os) d''

end Dict

end FC
