import Verif.Model.Debug

/-
Several iterators in use at once: cloning iterators, advancing them in any order, asking them how
much is left, using them up.
-/

set_option autoImplicit false

namespace FC
variable [Target]
variable {I X K V T : Type}

/-- What can be asked of an iterator besides its next item. -/
inductive Ask where
  /-- `it.len()` -/
  | len
  /-- `it.size_hint()` -/
  | sizeHint
  /-- `it.count()`, which uses the iterator up -/
  | count
  /-- `it.fold(…)`, a `for` loop, `collect`: every item left, which uses the iterator up -/
  | rest
deriving DecidableEq

/-- After these the iterator is gone. -/
def Ask.consumes : Ask → Bool
  | .len | .sizeHint => false
  | .count | .rest => true

/-- What an iterator says. -/
inductive Said (X : Type) where
  /-- the result of `next` -/
  | item (x : Option X)
  | number (n : Nat)
  | bounds (lower : Nat) (upper : Option Nat)
  | items (xs : List X)
  /-- nothing: the step does not exist for this type, or names an iterator the user does not have -/
  | nothing
deriving DecidableEq

/-- One step of a user who holds several iterators, numbered in the order they got them. -/
inductive PoolOp where
  /-- call `next` on iterator `i` -/
  | next (i : Nat)
  /-- get a further iterator by cloning iterator `i` -/
  | clone (i : Nat)
  /-- ask iterator `i` -/
  | ask (i : Nat) (q : Ask)

/-- What an iterator type offers. -/
structure IterApi (I X : Type) where
  next : I → Res (Option X × I)
  clone : I → I
  ask : Ask → I → Res (Said X)

/-- One step on a row of iterators; `none` stands for one that has been used up. -/
def IterApi.poolStep (A : IterApi I X) (p : List (Option I)) :
    PoolOp → Res (Said X × List (Option I))
  | .next i =>
    match p[i]? with
    | some (some it) => do
      let r ← A.next it
      return (.item r.1, p.set i (some r.2))
    | _ => .ok (.nothing, p)
  | .clone i =>
    match p[i]? with
    | some (some it) => .ok (.nothing, p ++ [some (A.clone it)])
    | _ => .ok (.nothing, p)
  | .ask i q =>
    match p[i]? with
    | some (some it) => do
      let a ← A.ask q it
      return (a, if q.consumes then p.set i none else p)
    | _ => .ok (.nothing, p)

/-- A whole history of steps: what was said. -/
def IterApi.poolRun (A : IterApi I X) (p : List (Option I)) : List PoolOp → Res (List (Said X))
  | [] => .ok []
  | op :: ops => do
    let r ← A.poolStep p op
    let rs ← A.poolRun r.2 ops
    return r.1 :: rs

/-- The reference: an iterator is the list of the items it has left. `ct` is how an item is copied
when the iterator is cloned. -/
def listIter (ct : X → X) : IterApi (List X) X where
  next l := .ok (l.head?, l.tail)
  clone l := l.map ct
  ask
    | .len, l => .ok (.number l.length)
    | .sizeHint, l => .ok (.bounds l.length (some l.length))
    | .count, l => .ok (.number l.length)
    | .rest, l => .ok (.items l)

/-- Only questions in `offered` are asked. -/
def PoolOp.Within (offered : Ask → Prop) : PoolOp → Prop
  | .ask _ q => offered q
  | _ => True

/-- Start with the iterator `it`. Whatever is then done with it and its clones, in any order, they
say what they would say if each was the list of the items it has left, starting with `l`. So `next`
gives the items of `l` one by one and `None` for ever after, a clone has exactly the items its
original had left when it was cloned, and what is done to one is not seen in the other. -/
def ActsAsList (A : IterApi I X) (ct : X → X) (offered : Ask → Prop) (it : I) (l : List X) : Prop :=
  ∀ ops : List PoolOp, (∀ op ∈ ops, op.Within offered) →
    A.poolRun [some it] ops = (listIter ct).poolRun [some l] ops

/-! ### The iterators of the library -/

/-- `specialized_maps::Iter`. -/
def mapIterApi (oc : Bool) : IterApi (MapIter K V) (K × V) where
  next it := .ok it.next
  clone := MapIter.clone
  ask
    | .len, it => (it.len oc).map .number
    | .sizeHint, it => (it.sizeHint oc).map fun h => .bounds h.1 h.2
    | .count, it => (it.count oc).map .number
    | .rest, it => .ok (.items (it.fold (fun acc e => acc ++ [e]) []))

/-- `specialized_maps::Keys`. -/
def mapKeysApi (oc : Bool) : IterApi (MapKeys K V) K where
  next it := .ok it.next
  clone := MapKeys.clone
  ask
    | .len, it => (it.len oc).map .number
    | .sizeHint, it => (it.sizeHint oc).map fun h => .bounds h.1 h.2
    | .count, it => (it.count oc).map .number
    | .rest, it => .ok (.items (it.fold (fun acc e => acc ++ [e]) []))

/-- `specialized_maps::Values`. -/
def mapValuesApi (oc : Bool) : IterApi (MapValues K V) V where
  next it := .ok it.next
  clone := MapValues.clone
  ask
    | .len, it => (it.len oc).map .number
    | .sizeHint, it => (it.sizeHint oc).map fun h => .bounds h.1 h.2
    | .count, it => (it.count oc).map .number
    | .rest, it => .ok (.items (it.fold (fun acc e => acc ++ [e]) []))

omit [Target] in
theorem SetIter.next_dec (it : SetIter T) (x : T) (it' : SetIter T)
    (h : Res.ok it.next = .ok (some x, it')) :
    it'.entries.length - it'.index < it.entries.length - it.index := by
  unfold SetIter.next at h
  split at h <;> simp at h
  rename_i e he
  obtain ⟨_, rfl⟩ := h
  have := (List.getElem?_eq_some_iff.1 he).1
  simp only
  omega

omit [Target] in
theorem SetIntoIter.next_dec (it : SetIntoIter T) (x : T) (it' : SetIntoIter T)
    (h : Res.ok it.next = .ok (some x, it')) : it'.rest.length < it.rest.length := by
  unfold SetIntoIter.next at h
  split at h <;> simp at h
  rename_i e es he
  obtain ⟨_, rfl⟩ := h
  rw [he]
  simp

/-- `specialized_sets::Iter`; a loop over it calls `next` until `None`. -/
def setIterApi (oc : Bool) : IterApi (SetIter T) T where
  next it := .ok it.next
  clone := SetIter.clone
  ask
    | .len, it => (it.len oc).map .number
    | .sizeHint, it => (it.sizeHint oc).map fun h => .bounds h.1 h.2
    | .count, it => (it.count oc).map .number
    | .rest, it => (drain (fun it => .ok it.next) (fun it => it.entries.length - it.index)
        SetIter.next_dec it).map .items

/-- `specialized_sets::IntoIter`; a loop over it calls `next` until `None`. -/
def setIntoIterApi (ct : T → T) : IterApi (SetIntoIter T) T where
  next it := .ok it.next
  clone := SetIntoIter.clone ct
  ask
    | .len, it => .ok (.number it.len)
    | .sizeHint, it => .ok (.bounds it.sizeHint.1 it.sizeHint.2)
    | .count, it => .ok (.number it.count)
    | .rest, it => (drain (fun it => .ok it.next) (fun it => it.rest.length)
        SetIntoIter.next_dec it).map .items

/-- The set-operation iterators, given `next`, a loop over it and `size_hint`. They have no `len`;
`count` is the default one, a loop. -/
def binIterApi (next : BinIter T → Res (Option T × BinIter T)) (all : BinIter T → Res (List T))
    (hint : BinIter T → Nat × Option Nat) : IterApi (BinIter T) T where
  next := next
  clone := BinIter.clone
  ask
    | .len, _ => .ok .nothing
    | .sizeHint, it => .ok (.bounds (hint it).1 (hint it).2)
    | .count, it => (all it).map fun l => .number l.length
    | .rest, it => (all it).map .items

/-- `specialized_sets::Union`. -/
def unionApi : IterApi (BinIter T) T :=
  binIterApi BinIter.unionNext BinIter.unionAll BinIter.unionSizeHint

/-- `specialized_sets::SymmetricDifference`. -/
def symDiffApi : IterApi (BinIter T) T :=
  binIterApi BinIter.symDiffNext BinIter.symDiffAll BinIter.symDiffSizeHint

/-- `specialized_sets::Difference`. -/
def differenceApi : IterApi (BinIter T) T :=
  binIterApi BinIter.differenceNext BinIter.differenceAll BinIter.differenceSizeHint

/-- `specialized_sets::Intersection`. -/
def intersectionApi : IterApi (BinIter T) T :=
  binIterApi BinIter.intersectionNext BinIter.intersectionAll BinIter.intersectionSizeHint

end FC
