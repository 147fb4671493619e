import Verif.Model.Catch

/-
What a caller that catches panics may see.
-/

set_option autoImplicit false

namespace FC
variable {K V Q : Type}

namespace Loose

/-- What one operation may show and do if a panic in it is caught. `p` says whether the key type's code
may panic.
* It returned: as in `Step`.
* It panicked with nothing written: in the key type's code, in an indexing, or in the caller's own code.
* The caller's own code panicked after some writes through the references it had been handed: these
writes stay, and nothing else changes. -/
inductive Caught (R : Q → K → Prop) (p : Prop) (d : List (K × V)) :
    Attempt V Q → Option (Out K V) → List (K × V) → Prop
  | returned {op : MapOp V Q} {out : Out K V} {d' : List (K × V)} : Step R d op out d' →
      Caught R p d ⟨op, none⟩ (some out) d'
  | nothing {x : Attempt V Q} : p ∨ x.op.isIndex ∨ x.stop.isSome → Caught R p d x none d
  | getMut (q : Q) (v : V) (n i : Nat) (e : K × V) : d[i]? = some e → R q e.1 → 0 < n →
      Caught R p d ⟨.getMut q v, some n⟩ none (assign d i v)
  | indexMut (q : Q) (v : V) (n i : Nat) (e : K × V) : d[i]? = some e → R q e.1 → 0 < n →
      Caught R p d ⟨.indexMut q v, some n⟩ none (assign d i v)
  | many (qvs : List (Q × V)) (n : Nat) (is : List Nat) (es : List (K × V)) : is.Nodup →
      List.Forall₂ (fun i e => d[i]? = some e) is es →
      List.Forall₂ (fun qv e => R qv.1 e.1) qvs es →
      Caught R p d ⟨.getManyMut qvs, some n⟩ none
        (((is.zip (qvs.map (·.2))).take n).foldl (fun d iv => assign d iv.1 iv.2) d)

/-- What a whole history may show, and the pairs at its end. -/
inductive CaughtRun (R : Q → K → Prop) (p : Prop) :
    List (K × V) → List (Attempt V Q) → List (Option (Out K V)) → List (K × V) → Prop
  | nil (d : List (K × V)) : CaughtRun R p d [] [] d
  | cons {d d' d'' : List (K × V)} {x : Attempt V Q} {xs : List (Attempt V Q)} {o : Option (Out K V)}
      {os : List (Option (Out K V))} : Caught R p d x o d' → CaughtRun R p d' xs os d'' →
      CaughtRun R p d (x :: xs) (o :: os) d''

end Loose

end FC
