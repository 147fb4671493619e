import Verif.Model.Clone
import Verif.Spec.Clone
import Verif.Spec.SetAlgebra
import Verif.Spec.StringVerdict

/-
Programs that hold any number of `FrozenMap`s and `FrozenSet`s, and the plain lists they are compared
with (C98).
-/

set_option autoImplicit false

namespace FC
variable {K V : Type}

/-- Questions about two sets. -/
inductive SetQuestion where
  | isSubset | isSuperset | isDisjoint | equal

/-- One action of a program. Maps and sets are numbered in the order the program got them. The hasher
of a new map or set is the one `new` creates. -/
inductive Cmd (K V : Type) where
  /-- `FrozenMap::new(payload)` -/
  | newMap (payload : List (K × V)) (bh : Hasher)
  /-- an operation on map `i` -/
  | onMap (i : Nat) (op : MapOp V K)
  | cloneMap (i : Nat)
  /-- map `i` `==` map `j` -/
  | sameMaps (i j : Nat)
  /-- `FrozenSet::new(payload)` -/
  | newSet (payload : List K) (bh : Hasher)
  | contains (i : Nat) (x : K)
  /-- `get` on set `i` -/
  | getIn (i : Nat) (x : K)
  | setLen (i : Nat)
  /-- `iter().collect()` on set `i` -/
  | listSet (i : Nat)
  | cloneSet (i : Nat)
  | ask (q : SetQuestion) (i j : Nat)
  /-- `&a op &b` for sets `i` and `j`, and the resulting `HashSet` listed -/
  | combine (o : SetOperator) (i j : Nat)
  /-- `union`, `intersection`, `symmetric_difference` or `difference` of sets `i` and `j`, iterated to
  the end -/
  | visit (o : SetOperator) (i j : Nat)

/-- What an action shows. -/
inductive Reply (K V : Type) where
  | done
  | noSuch
  | saw (o : Out K V)
  | bool (b : Bool)
  | number (n : Nat)
  | element (o : Option K)
  | elements (l : List K)
  deriving DecidableEq

/-! ### The implementation -/

/-- The maps and sets a program holds. -/
structure Shelf (K V : Type) where
  maps : List (FrozenMap K V)
  sets : List (FrozenSet K)

/-- What surrounds the program: the build, the key type, the `Clone` of keys and of values, the
`PartialEq` of values, and the order in which a `HashSet` lists its elements. -/
structure Surround (K V : Type) where
  env : Env
  ty : KeyTy K
  ck : K → K
  cv : V → V
  veq : V → V → Bool
  order : List K → List K

variable [Target]

/-- What the code runs for a question: specialized_sets/set_ops.rs:3-40 and facades/frozen_set.rs:504-516. -/
def SetQuestion.apply (u : Surround K V) : SetQuestion → FrozenSet K → FrozenSet K → Res Bool
  | .isSubset, a, b => (a.toSetI u.env u.ty).isSubset (b.toSetI u.env u.ty)
  | .isSuperset, a, b => (a.toSetI u.env u.ty).isSuperset (b.toSetI u.env u.ty)
  | .isDisjoint, a, b => (a.toSetI u.env u.ty).isDisjoint (b.toSetI u.env u.ty)
  | .equal, a, b => a.eq u.env u.ty b

/-- What the iterator that belongs to an operator yields: specialized_sets/set.rs:54-59, 80-85,
109-114, 144-149 and specialized_sets/iterators.rs:156-182, 261-280, 357-364, 442-458. -/
def SetOperator.iterate {T : Type} : SetOperator → SetI T → SetI T → Res (List T)
  | .or, a, b => (BinIter.new a b).unionAll
  | .and, a, b => (BinIter.new a b).intersectionAll
  | .xor, a, b => (BinIter.new a b).symDiffAll
  | .sub, a, b => (BinIter.new a b).differenceAll

/-- Perform one action: each arm calls the model of the facade's function (Model/FrozenMap.lean, FrozenSet.lean,
Clone.lean), facades/frozen_map.rs and facades/frozen_set.rs. A program that names a map or set it
does not have is told so; in Rust it does not compile. -/
def Shelf.perform (u : Surround K V) (h : Shelf K V) : Cmd K V → Res (Reply K V × Shelf K V)
  | .newMap p bh => do
    let m ← FrozenMap.new u.env u.ty p bh
    return (.done, { h with maps := h.maps ++ [m] })
  | .onMap i op =>
    match h.maps[i]? with
    | none => .ok (.noSuch, h)
    | some m => do
      let r ← (frozenApi u.env u.ty).step m op
      return (.saw r.1, { h with maps := h.maps.set i r.2 })
  | .cloneMap i =>
    match h.maps[i]? with
    | none => .ok (.noSuch, h)
    | some m => .ok (.done, { h with maps := h.maps ++ [m.clone u.ck u.cv] })
  | .sameMaps i j =>
    match h.maps[i]?, h.maps[j]? with
    | some m, some m' => do
      let b ← (frozenApi u.env u.ty).partialEq u.veq m m'
      return (.bool b, h)
    | _, _ => .ok (.noSuch, h)
  | .newSet p bh => do
    let s ← FrozenSet.new u.env u.ty p bh
    return (.done, { h with sets := h.sets ++ [s] })
  | .contains i x =>
    match h.sets[i]? with
    | none => .ok (.noSuch, h)
    | some s => do
      let b ← s.contains u.env u.ty x
      return (.bool b, h)
  | .getIn i x =>
    match h.sets[i]? with
    | none => .ok (.noSuch, h)
    | some s => do
      let o ← s.get u.env u.ty x
      return (.element o, h)
  | .setLen i =>
    match h.sets[i]? with
    | none => .ok (.noSuch, h)
    | some s => .ok (.number s.len, h)
  | .listSet i =>
    match h.sets[i]? with
    | none => .ok (.noSuch, h)
    | some s => .ok (.elements (s.iter u.ty).items, h)
  | .cloneSet i =>
    match h.sets[i]? with
    | none => .ok (.noSuch, h)
    | some s => .ok (.done, { h with sets := h.sets ++ [s.clone u.ck] })
  | .ask q i j =>
    match h.sets[i]?, h.sets[j]? with
    | some s, some s' => do
      let b ← q.apply u s s'
      return (.bool b, h)
    | _, _ => .ok (.noSuch, h)
  | .combine o i j =>
    match h.sets[i]?, h.sets[j]? with
    | some s, some s' => do
      let r ← o.apply u.ty.eq (s.toSetI u.env u.ty) (s'.toSetI u.env u.ty)
      return (.elements (u.order r.items), h)
    | _, _ => .ok (.noSuch, h)
  | .visit o i j =>
    match h.sets[i]?, h.sets[j]? with
    | some s, some s' => do
      let l ← o.iterate (s.toSetI u.env u.ty) (s'.toSetI u.env u.ty)
      return (.elements l, h)
    | _, _ => .ok (.noSuch, h)

/-- `n` actions of a program that decides each by all the replies so far. -/
def Shelf.run (u : Surround K V) (prog : List (Reply K V) → Cmd K V) :
    Nat → List (Reply K V) → Shelf K V → Res (List (Reply K V) × Shelf K V)
  | 0, seen, h => .ok (seen, h)
  | n + 1, seen, h => do
    let r ← h.perform u (prog seen)
    Shelf.run u prog n (seen ++ [r.1]) r.2

/-- The same for a program that wraps every action in `catch_unwind`; a caught panic shows `none`. The maps
are then as before: `Index` takes `&self`, and `IndexMut` panics before it returns the reference to write
through, facades/frozen_map.rs:711-731 (C92). -/
def Shelf.runCaught (u : Surround K V) (prog : List (Option (Reply K V)) → Cmd K V) :
    Nat → List (Option (Reply K V)) → Shelf K V → Res (List (Option (Reply K V)) × Shelf K V)
  | 0, seen, h => .ok (seen, h)
  | n + 1, seen, h =>
    match h.perform u (prog seen) with
    | .ok r => Shelf.runCaught u prog n (seen ++ [some r.1]) r.2
    | .panic => Shelf.runCaught u prog n (seen ++ [none]) h
    | .ub => .ub

/-! ### The reference: lists -/

/-- One list of pairs for each map, one list of elements for each set. -/
structure PlainLists (K V : Type) where
  maps : List (List (K × V))
  sets : List (List K)

/-- What the questions mean. -/
def SetQuestion.holds (eq : K → K → Bool) : SetQuestion → List K → List K → Prop
  | .isSubset, a, b => ∀ x, Has eq a x → Has eq b x
  | .isSuperset, a, b => ∀ x, Has eq b x → Has eq a x
  | .isDisjoint, a, b => ∀ x, ¬ (Has eq a x ∧ Has eq b x)
  | .equal, a, b => ∀ x, Has eq a x ↔ Has eq b x

/-- `Does eq ck cv veq w c r w'`: on plain lists `w` the action `c` can show `r` and leave `w'`. Only
the order of listings is open. -/
inductive PlainLists.Does (eq : K → K → Bool) (ck : K → K) (cv : V → V) (veq : V → V → Bool)
    (w : PlainLists K V) :
    Cmd K V → Reply K V → PlainLists K V → Prop where
  | newMap (p : List (K × V)) (bh : Hasher) :
      Does eq ck cv veq w (.newMap p bh) .done { w with maps := w.maps ++ [p] }
  | onMap (i : Nat) (op : MapOp V K) (d d' : List (K × V)) (o o' : Out K V) : w.maps[i]? = some d →
      Dict.step eq id d op = .ok (o, d') → o.Agree o' →
      Does eq ck cv veq w (.onMap i op) (.saw o') { w with maps := w.maps.set i d' }
  | cloneMap (i : Nat) (d : List (K × V)) : w.maps[i]? = some d →
      Does eq ck cv veq w (.cloneMap i) .done
        { w with maps := w.maps ++ [d.map fun e => (ck e.1, cv e.2)] }
  | sameMaps (i j : Nat) (d d' : List (K × V)) (b : Bool) : w.maps[i]? = some d → w.maps[j]? = some d' →
      (b = true ↔ ∀ k, SameAnswer veq (lookup eq d k) (lookup eq d' k)) →
      Does eq ck cv veq w (.sameMaps i j) (.bool b) w
  | newSet (p : List K) (bh : Hasher) :
      Does eq ck cv veq w (.newSet p bh) .done { w with sets := w.sets ++ [p] }
  | contains (i : Nat) (x : K) (l : List K) (b : Bool) : w.sets[i]? = some l →
      (b = true ↔ Has eq l x) → Does eq ck cv veq w (.contains i x) (.bool b) w
  | getIn (i : Nat) (x : K) (l : List K) : w.sets[i]? = some l →
      Does eq ck cv veq w (.getIn i x) (.element (l.find? fun y => eq x y)) w
  | setLen (i : Nat) (l : List K) : w.sets[i]? = some l →
      Does eq ck cv veq w (.setLen i) (.number l.length) w
  | listSet (i : Nat) (l l' : List K) : w.sets[i]? = some l → l'.Perm l →
      Does eq ck cv veq w (.listSet i) (.elements l') w
  | cloneSet (i : Nat) (l : List K) : w.sets[i]? = some l →
      Does eq ck cv veq w (.cloneSet i) .done { w with sets := w.sets ++ [l.map ck] }
  | ask (q : SetQuestion) (i j : Nat) (l l' : List K) (b : Bool) : w.sets[i]? = some l →
      w.sets[j]? = some l' → (b = true ↔ q.holds eq l l') →
      Does eq ck cv veq w (.ask q i j) (.bool b) w
  | combine (o : SetOperator) (i j : Nat) (l l' r : List K) : w.sets[i]? = some l →
      w.sets[j]? = some l' → Distinct eq r → (∀ x, Has eq r x ↔ o.holds (Has eq l x) (Has eq l' x)) →
      Does eq ck cv veq w (.combine o i j) (.elements r) w
  | visit (o : SetOperator) (i j : Nat) (l l' r : List K) : w.sets[i]? = some l →
      w.sets[j]? = some l' → Distinct eq r → (∀ x, Has eq r x ↔ o.holds (Has eq l x) (Has eq l' x)) →
      (∀ x ∈ r, x ∈ l ∨ x ∈ l') → Does eq ck cv veq w (.visit o i j) (.elements r) w
  | noMap (i : Nat) (c : Cmd K V) : w.maps[i]? = none →
      ((∃ op, c = .onMap i op) ∨ c = .cloneMap i ∨ ∃ j, c = .sameMaps i j ∨ c = .sameMaps j i) →
      Does eq ck cv veq w c .noSuch w
  | noSet (i : Nat) (c : Cmd K V) : w.sets[i]? = none →
      ((∃ x, c = .contains i x ∨ c = .getIn i x) ∨ c = .setLen i ∨ c = .listSet i ∨ c = .cloneSet i ∨
        (∃ q j, c = .ask q i j ∨ c = .ask q j i) ∨ (∃ o j, c = .combine o i j ∨ c = .combine o j i) ∨
        ∃ o j, c = .visit o i j ∨ c = .visit o j i) →
      Does eq ck cv veq w c .noSuch w

/-- The action panics on plain lists: it indexes a map with an absent key. -/
def PlainLists.Panics (eq : K → K → Bool) (w : PlainLists K V) (c : Cmd K V) : Prop :=
  ∃ i d q, w.maps[i]? = some d ∧ ¬ Present eq d q ∧
    (c = .onMap i (.index q) ∨ ∃ v, c = .onMap i (.indexMut q v))

/-- `n` actions of the program on plain lists can show `seen'`. -/
inductive PlainLists.Runs (eq : K → K → Bool) (ck : K → K) (cv : V → V) (veq : V → V → Bool)
    (prog : List (Reply K V) → Cmd K V) :
    Nat → List (Reply K V) → PlainLists K V → List (Reply K V) → PlainLists K V → Prop where
  | stop (seen : List (Reply K V)) (w : PlainLists K V) : Runs eq ck cv veq prog 0 seen w seen w
  | act {n : Nat} {seen seen' : List (Reply K V)} {w w' w'' : PlainLists K V} {r : Reply K V} :
      w.Does eq ck cv veq (prog seen) r w' → Runs eq ck cv veq prog n (seen ++ [r]) w' seen' w'' →
      Runs eq ck cv veq prog (n + 1) seen w seen' w''

/-- The same with every panic caught: where plain lists panic, and only there, the program sees a panic,
and nothing has changed. -/
inductive PlainLists.RunsCaught (eq : K → K → Bool) (ck : K → K) (cv : V → V) (veq : V → V → Bool)
    (prog : List (Option (Reply K V)) → Cmd K V) :
    Nat → List (Option (Reply K V)) → PlainLists K V → List (Option (Reply K V)) → PlainLists K V → Prop where
  | stop (seen : List (Option (Reply K V))) (w : PlainLists K V) :
      RunsCaught eq ck cv veq prog 0 seen w seen w
  | act {n : Nat} {seen seen' : List (Option (Reply K V))} {w w' w'' : PlainLists K V} {r : Reply K V} :
      w.Does eq ck cv veq (prog seen) r w' →
      RunsCaught eq ck cv veq prog n (seen ++ [some r]) w' seen' w'' →
      RunsCaught eq ck cv veq prog (n + 1) seen w seen' w''
  | caught {n : Nat} {seen seen' : List (Option (Reply K V))} {w w'' : PlainLists K V} :
      w.Panics eq (prog seen) → RunsCaught eq ck cv veq prog n (seen ++ [none]) w seen' w'' →
      RunsCaught eq ck cv veq prog (n + 1) seen w seen' w''

/-- The payload of a new map or set has distinct keys, is not too large, and if it is of strings it is
one for which construction succeeds (C03). -/
def Cmd.Fine (ty : KeyTy K) : Cmd K V → Prop
  | .newMap p bh => DistinctKeys ty.eq p ∧ p.length < 2 ^ 31 ∧
      ∀ f g, ty.kind = .string f g → Constructible bh (p.map fun e => f e.1)
  | .newSet p bh => Distinct ty.eq p ∧ p.length < 2 ^ 31 ∧
      ∀ f g, ty.kind = .string f g → Constructible bh (p.map f)
  | _ => True

/-- Whatever the program sees it can see on plain lists too; it panics only where plain lists panic;
there is no undefined behaviour. -/
def ActsAsPlain (u : Surround K V) (prog : List (Reply K V) → Cmd K V) (n : Nat) : Prop :=
  match Shelf.run u prog n [] ⟨[], []⟩ with
  | .ok (seen, _) => ∃ w, PlainLists.Runs u.ty.eq u.ck u.cv u.veq prog n [] ⟨[], []⟩ seen w
  | .panic => ∃ k seen w, k < n ∧ PlainLists.Runs u.ty.eq u.ck u.cv u.veq prog k [] ⟨[], []⟩ seen w ∧
      w.Panics u.ty.eq (prog seen)
  | .ub => False

end FC
