import Verif.Model.Iter

/-
The methods of `Iterator` that std provides on top of `next`, as the iterators of the library
inherit them. Closures may keep state, panic or worse. A loop is given a number of rounds, and
`none` stands for a loop that has not ended within them; the theorems say how many rounds are
enough.
-/

set_option autoImplicit false

namespace FC
variable {I X B C S : Type}

/-- What a closure given to `try_fold` answers: go on, or stop here (std's `ControlFlow`). Model
device for the methods below. -/
inductive Flow (B C : Type) where
  | go (b : B)
  | stop (c : C)
deriving DecidableEq

/-- std's `Iterator::try_fold`, `while let Some(x) = self.next() { accum = f(accum, x)?; }`, which no
iterator of the library overrides: specialized_maps/iterators.rs:26-49, 91-113, 155-177,
specialized_sets/iterators.rs:19-42, 84-102, 149-187, 254-285, 350-369, 435-463. -/
def tryFold (next : I → Res (Option X × I)) (f : B → X → Res (Flow B C)) :
    Nat → B → I → Option (Res (Flow B C × I))
  | 0, _, _ => none
  | n + 1, b, it =>
    match next it with
    | .panic => some .panic
    | .ub => some .ub
    | .ok (none, it') => some (.ok (.go b, it'))
    | .ok (some x, it') =>
      match f b x with
      | .panic => some .panic
      | .ub => some .ub
      | .ok (.go b') => tryFold next f n b' it'
      | .ok (.stop c) => some (.ok (.stop c, it'))

/-- std's `Iterator::find`, through `try_fold`; inherited by the same iterators
(e.g. specialized_sets/iterators.rs:149-187). The closure's state is `S`. -/
def iterFind (next : I → Res (Option X × I)) (p : S → X → Res (Bool × S)) (n : Nat) (s : S) (it : I) :
    Option (Res (Option X × S × I)) :=
  (tryFold next (fun s x => (p s x).map fun r => if r.1 then Flow.stop (x, r.2) else .go r.2) n s
    it).map fun r => r.map fun
      | (.go s, it) => (none, s, it)
      | (.stop (x, s), it) => (some x, s, it)

/-- std's `Iterator::position`, through `try_fold` with a counter; inherited by the same iterators
(e.g. specialized_maps/iterators.rs:26-49). Simplified: the counter is a natural number, an iterator
never having more items than fit in memory. -/
def iterPosition (next : I → Res (Option X × I)) (p : S → X → Res (Bool × S)) (n : Nat) (s : S)
    (it : I) : Option (Res (Option Nat × S × I)) :=
  (tryFold next (fun (a : Nat × S) x =>
    (p a.2 x).map fun r => if r.1 then Flow.stop (a.1, r.2) else .go (a.1 + 1, r.2)) n (0, s) it).map
      fun r => r.map fun
        | (.go a, it) => (none, a.2, it)
        | (.stop (i, s), it) => (some i, s, it)

/-- std's `Iterator::any`, through `try_fold`; inherited by the same iterators
(e.g. specialized_sets/iterators.rs:435-463). -/
def iterAny (next : I → Res (Option X × I)) (p : S → X → Res (Bool × S)) (n : Nat) (s : S) (it : I) :
    Option (Res (Bool × S × I)) :=
  (tryFold next (fun s x => (p s x).map fun r => if r.1 then Flow.stop r.2 else .go r.2) n s it).map
    fun r => r.map fun
      | (.go s, it) => (false, s, it)
      | (.stop s, it) => (true, s, it)

/-- std's `Iterator::all`, through `try_fold`; inherited by the same iterators
(e.g. specialized_sets/iterators.rs:350-369). -/
def iterAll (next : I → Res (Option X × I)) (p : S → X → Res (Bool × S)) (n : Nat) (s : S) (it : I) :
    Option (Res (Bool × S × I)) :=
  (tryFold next (fun s x => (p s x).map fun r => if r.1 then Flow.go r.2 else .stop r.2) n s it).map
    fun r => r.map fun
      | (.go s, it) => (true, s, it)
      | (.stop s, it) => (false, s, it)

/-- std's `Iterator::nth`: `self.advance_by(n).ok()?; self.next()`, where `advance_by` gives up at
the first `None`; inherited by the same iterators (e.g. specialized_maps/iterators.rs:91-113). -/
def iterNth (next : I → Res (Option X × I)) : Nat → I → Res (Option X × I)
  | 0, it => next it
  | k + 1, it =>
    match next it with
    | .panic => .panic
    | .ub => .ub
    | .ok (none, it') => .ok (none, it')
    | .ok (some _, it') => iterNth next k it'

/-- std's `Iterator::fold`, `while let Some(x) = self.next() { accum = f(accum, x); }`. Inherited by
`Iter` of maps (specialized_maps/iterators.rs:26-49) and by every set iterator
(specialized_sets/iterators.rs:19-42, 84-102, 149-187, 254-285, 350-369, 435-463). `for_each` and a
`for` loop are folds too. -/
def iterFold (next : I → Res (Option X × I)) (f : B → X → Res B) :
    Nat → B → I → Option (Res B)
  | 0, _, _ => none
  | n + 1, b, it =>
    match next it with
    | .panic => some .panic
    | .ub => some .ub
    | .ok (none, _) => some (.ok b)
    | .ok (some x, it') =>
      match f b x with
      | .panic => some .panic
      | .ub => some .ub
      | .ok b' => iterFold next f n b' it'

/-- `Keys::fold`, specialized_maps/iterators.rs:106-112, which hands the loop to the inner `Iter`. -/
def keysFold {K V : Type} (f : B → K → Res B) (n : Nat) (b : B) (it : MapKeys K V) : Option (Res B) :=
  iterFold (fun i : MapIter K V => .ok i.next) (fun acc e => f acc e.1) n b it.inner

/-- `Values::fold`, specialized_maps/iterators.rs:170-176. -/
def valuesFold {K V : Type} (f : B → V → Res B) (n : Nat) (b : B) (it : MapValues K V) :
    Option (Res B) :=
  iterFold (fun i : MapIter K V => .ok i.next) (fun acc e => f acc e.2) n b it.inner

/-- std's `Iterator::last`, a fold that keeps the newest item; `fold` is the iterator's own
(`Keys` and `Values` override it, specialized_maps/iterators.rs:106-112, 170-176). -/
def iterLast (fold : (Option X → X → Res (Option X)) → Nat → Option X → I → Option (Res (Option X)))
    (n : Nat) (it : I) : Option (Res (Option X)) :=
  fold (fun _ x => .ok (some x)) n none it

/-- std's default `Iterator::count`, a fold that counts; the set operations inherit it
(specialized_sets/iterators.rs:149-187, 254-285, 350-369, 435-463 do not override it). Simplified:
the counter is a natural number. -/
def iterCount (next : I → Res (Option X × I)) (n : Nat) (it : I) : Option (Res Nat) :=
  iterFold next (fun c _ => .ok (c + 1)) n 0 it

/-- std's `Iterator::collect` into a vector: every item pushed in the order it comes; inherited by all
(e.g. specialized_sets/iterators.rs:19-42). Simplified: capacities are left out. -/
def iterCollect (next : I → Res (Option X × I)) (n : Nat) (it : I) : Option (Res (List X)) :=
  iterFold next (fun acc x => .ok (acc ++ [x])) n [] it

end FC
