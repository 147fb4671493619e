import Verif.Spec
import Verif.Model.Provided

/-
What `find`, `position`, `any`, `all`, `nth`, `try_fold`, `fold`, `last`, `count` and `collect` mean
for an iterator that has the items of a list left.
-/

set_option autoImplicit false

namespace FC
variable {I X B C : Type}

/-- The iterator has the items `l` left: calls of `next` give them in order, then `None` for ever. -/
def HasLeft (next : I → Res (Option X × I)) (it : I) (l : List X) : Prop :=
  ∀ n, ∃ st, rcalls next n it = .ok (firstCalls l n, st)

/-- Running a closure over a list until it says stop: what it answered last, and what is left of the
list. A panic of the closure ends everything. -/
def listTryFold (f : B → X → Res (Flow B C)) : B → List X → Res (Flow B C × List X)
  | b, [] => .ok (.go b, [])
  | b, x :: xs =>
    match f b x with
    | .ok (.go b') => listTryFold f b' xs
    | .ok (.stop c) => .ok (.stop c, xs)
    | .panic => .panic
    | .ub => .ub

/-- The same for a closure that never says stop. -/
def listFold (f : B → X → Res B) : B → List X → Res B
  | b, [] => .ok b
  | b, x :: xs =>
    match f b x with
    | .ok b' => listFold f b' xs
    | .panic => .panic
    | .ub => .ub

/-- A closure that only looks at the item. -/
def quiet (p : X → Bool) : Unit → X → Res (Bool × Unit) := fun _ x => .ok (p x, ())

/-- The methods that may stop before the end, and leave an iterator that can be used further. The
number of rounds only has to exceed the number of items. -/
structure StopsAsList (next : I → Res (Option X × I)) (it : I) (l : List X) : Prop where
  /-- `try_fold`: the closure is run on the items in order, on no item after the one where it said
  stop or panicked, and the items after that one are left. -/
  tryFold : ∀ {B C : Type} (f : B → X → Res (Flow B C)) (b : B) (n : Nat), l.length < n →
    match listTryFold f b l with
    | .ok (w, rest) => ∃ it', tryFold next f n b it = some (.ok (w, it')) ∧ HasLeft next it' rest
    | .panic => FC.tryFold next f n b it = some .panic
    | .ub => FC.tryFold next f n b it = some .ub
  /-- `find`: the first item that fits; what comes after it is left. -/
  find : ∀ (p : X → Bool) (n : Nat), l.length < n → ∃ it',
    iterFind next (quiet p) n () it = some (.ok (l.find? p, (), it')) ∧
      HasLeft next it' (l.dropWhile fun x => !p x).tail
  /-- `position`: how many items come before the first that fits. -/
  position : ∀ (p : X → Bool) (n : Nat), l.length < n → ∃ it',
    iterPosition next (quiet p) n () it = some (.ok (l.findIdx? p, (), it')) ∧
      HasLeft next it' (l.dropWhile fun x => !p x).tail
  /-- `any`: some item fits; what comes after the first such is left. -/
  any : ∀ (p : X → Bool) (n : Nat), l.length < n → ∃ it',
    iterAny next (quiet p) n () it = some (.ok (l.any p, (), it')) ∧
      HasLeft next it' (l.dropWhile fun x => !p x).tail
  /-- `all`: every item fits; what comes after the first that does not is left. -/
  all : ∀ (p : X → Bool) (n : Nat), l.length < n → ∃ it',
    iterAll next (quiet p) n () it = some (.ok (l.all p, (), it')) ∧
      HasLeft next it' (l.dropWhile p).tail
  /-- `nth(k)`: item number `k`, counted from 0; what comes after it is left. -/
  nth : ∀ k : Nat, ∃ it', iterNth next k it = .ok (l[k]?, it') ∧ HasLeft next it' (l.drop (k + 1))

/-- The methods that use the iterator up, for an iterator that overrides none of them. -/
structure LoopsAsList (next : I → Res (Option X × I)) (it : I) (l : List X) : Prop where
  /-- `fold`, `for_each`, a `for` loop: the closure is run on every item in order, up to a panic. -/
  fold : ∀ {B : Type} (f : B → X → Res B) (b : B) (n : Nat), l.length < n →
    iterFold next f n b it = some (listFold f b l)
  /-- `last` -/
  last : ∀ n, l.length < n → iterLast (iterFold next) n it = some (.ok l.getLast?)
  /-- `collect` -/
  collect : ∀ n, l.length < n → iterCollect next n it = some (.ok l)

end FC
