import Verif.Model.Iter
import Verif.Model.FrozenMap
import Verif.Spec.History

/-
Several threads reading one map at the same time. Each lookup is cut into steps, a comparison with one
stored entry at a time, each iteration into calls of `next`, and the steps of different threads are
interleaved in any way. A map is handed to other threads as `&map`, so that only `&self` methods can be
called; those write nothing (`get`, `get_key_value`, `contains_key`, `index`, `len`, `iter`).
-/

set_option autoImplicit false

namespace FC
variable [Target]

/-- A lookup cut into steps. `begin` hashes the probe and finds the entries to look at, `step` looks at
one of them. Model device for specialized_maps/common_map.rs:68-82 and its counterparts, see the
instances below. -/
structure Engine (K V Q : Type) where
  State : Type
  begin : Q → Res State
  step : State → Res (Option (K × V) ⊕ State)
  /-- what iterators go through -/
  entries : List (K × V)

/-- One turn of `for entry in entries { if key.eq(entry.0.borrow()) { return Some(..); } } None`, with the
whole entry; what the caller gets of it is left to `Lookup.answer`. E.g.
specialized_maps/common_map.rs:75-81 and 93-99. -/
def lookOn {K V Q : Type} (eq : Q → Q → Bool) (borrow : K → Q) :
    Q × List (K × V) → Res (Option (K × V) ⊕ (Q × List (K × V)))
  | (_, []) => .ok (.inl none)
  | (q, e :: es) => if eq q (borrow e.1) then .ok (.inl (some e)) else .ok (.inr (q, es))

variable {K V Q : Type}

/-- specialized_maps/scanning_map.rs:31-43 (`get`) in steps. -/
def ScanningMap.engine (P : Probe K Q) (m : ScanningMap K V) : Engine K V Q where
  State := Q × List (K × V)
  begin q := .ok (q, m.entries)
  step := lookOn P.eq P.borrow
  entries := m.entries

/-- specialized_maps/common_map.rs:68-82 (`get`) in steps. -/
def CommonMap.engine (P : Probe K Q) (m : CommonMap K V) : Engine K V Q where
  State := Q × List (K × V)
  begin q := do
    let r ← m.getHashInfo P q
    let es ← sliceUnchecked m.table.entries r.1 r.2
    return (q, es)
  step := lookOn P.eq P.borrow
  entries := m.table.entries

/-- specialized_maps/integer_map.rs:51-65 (`get`) in steps. -/
def IntegerMap.engine (m : IntegerMap V) : Engine Int V Int where
  State := Int × List (Int × V)
  begin q := do
    let r ← m.getHashInfo q
    let es ← sliceUnchecked m.table.entries r.1 r.2
    return (q, es)
  step := lookOn IntegerMap.ieq id
  entries := m.table.entries

/-- specialized_maps/length_map.rs:53-67 (`get`) in steps. -/
def LengthMap.engine (borrow : K → Q) (eq : Q → Q → Bool) (lenQ : Q → Nat) (m : LengthMap K V) :
    Engine K V Q where
  State := Q × List (K × V)
  begin q := do
    let r ← m.getHashInfo lenQ q
    let es ← sliceUnchecked m.table.entries r.1 r.2
    return (q, es)
  step := lookOn eq borrow
  entries := m.table.entries

/-- specialized_maps/left_slice_map.rs:90-104 (`get`) in steps. -/
def LeftSliceMap.engine (m : LeftSliceMap V) : Engine Bytes V Bytes where
  State := Bytes × List (Bytes × V)
  begin q := do
    let r ← m.getHashInfo q
    let es ← sliceUnchecked m.table.entries r.1 r.2
    return (q, es)
  step := lookOn beq id
  entries := m.table.entries

/-- specialized_maps/right_slice_map.rs:93-107 (`get`) in steps. -/
def RightSliceMap.engine (oc : Bool) (m : RightSliceMap V) : Engine Bytes V Bytes where
  State := Bytes × List (Bytes × V)
  begin q := do
    let r ← m.getHashInfo oc q
    let es ← sliceUnchecked m.table.entries r.1 r.2
    return (q, es)
  step := lookOn beq id
  entries := m.table.entries

/-- specialized_maps/integer_range_map.rs:59-70 (`get`) in steps: the position, then the entry there. -/
def IntegerRangeMap.engine (oc : Bool) (t : IntTy) (m : IntegerRangeMap V) : Engine Int V Int where
  State := Option Nat
  begin q := m.position oc t q
  step
    | none => .ok (.inl none)
    | some i => do
      let e ← m.entryAt i
      return .inl (some (e.1, e.2.val))
  entries := m.entries

/-- A lookup with other names for keys and probes: the `transmute`s of facades/frozen_map.rs:333-353,
376-398 and 594-601. -/
def Engine.via {K' Q' : Type} (E : Engine K' V Q') (toQ : Q → Q')
    (found : Option (K' × V) → Option (K × V)) (es : List (K × V)) : Engine K V Q where
  State := E.State
  begin q := E.begin (toQ q)
  step s := (E.step s).map (fun x => match x with
    | .inl o => .inl (found o)
    | .inr s' => .inr s')
  entries := es

/-- An entry of a `u32` map read back as one of the facade (`transmute` of the result,
facades/frozen_map.rs:376-378). -/
def KeyTy.ofIntFound (ty : KeyTy K) (o : Option (Int × V)) : Option (K × V) :=
  match ty.kind with
  | .u32 _ g => o.map (fun e => (g e.1, e.2))
  | _ => none

/-- An entry of a `String` map read back as one of the facade (facades/frozen_map.rs:379-398). -/
def KeyTy.ofBFound (ty : KeyTy K) (o : Option (Bytes × V)) : Option (K × V) :=
  match ty.kind with
  | .string _ g => o.map (fun e => (g e.1, e.2))
  | _ => none

/-- facades/frozen_map.rs:328-357 (`get`) and 371-400 (`get_key_value`) in steps. -/
def FrozenMap.engine (env : Env) (ty : KeyTy K) (m : FrozenMap K V) : Engine K V K :=
  match m with
  | .scanning m' => m'.engine ty.probe
  | .commonSmall m' => m'.engine ty.probe
  | .commonLarge m' => m'.engine ty.probe
  | .u32Small m' => m'.engine.via ty.toInt ty.ofIntFound (m.entries ty)
  | .u32Large m' => m'.engine.via ty.toInt ty.ofIntFound (m.entries ty)
  | .u32Range m' => (m'.engine env.oc IntTy.u32).via ty.toInt ty.ofIntFound (m.entries ty)
  | .leftSmall m' => m'.engine.via ty.toB ty.ofBFound (m.entries ty)
  | .leftLarge m' => m'.engine.via ty.toB ty.ofBFound (m.entries ty)
  | .rightSmall m' => (m'.engine env.oc).via ty.toB ty.ofBFound (m.entries ty)
  | .rightLarge m' => (m'.engine env.oc).via ty.toB ty.ofBFound (m.entries ty)
  | .lengthSmall m' => (m'.engine id beq List.length).via ty.toB ty.ofBFound (m.entries ty)

/-- The `&self` lookups: `get`, `get_key_value`, `contains_key` and `map[key]`. specialized_maps/common_map.rs:68-100,
149-155 and 216-218, and their counterparts in the other maps. -/
inductive Lookup where
  | get
  | getKeyValue
  | containsKey
  | index
deriving DecidableEq

/-- What a thread may ask of a map it shares. The `&self` methods of
specialized_maps/common_map.rs:68-100, 149-162, 191-195 and their
counterparts in the other maps. -/
inductive SharedOp (Q : Type) where
  | look (how : Lookup) (q : Q)
  | len
  /-- `map.iter().collect()` -/
  | iter
deriving DecidableEq

/-- What a lookup makes of the entry it found; `none` is a panic. specialized_maps/common_map.rs:68-82
(`get`), 86-100 (`get_key_value`), 149-155 (`contains_key`), 216-218 (`index`). -/
def Lookup.answer : Lookup → Option (K × V) → Option (Out K V)
  | .get, o => some (.value (o.map (·.2)))
  | .getKeyValue, o => some (.entry o)
  | .containsKey, o => some (.bool o.isSome)
  | .index, some e => some (.value (some e.2))
  | .index, none => none

/-- What a thread is in the middle of. Model device. -/
inductive Doing (E : Engine K V Q) where
  | nothing
  | looking (how : Lookup) (s : E.State)
  | iterating (seen : List (K × V)) (it : MapIter K V)

/-- A thread: what it has still to ask, what it is doing, what it has been answered, and whether it has
panicked. Model device. -/
structure Reader (E : Engine K V Q) where
  todo : List (SharedOp Q)
  doing : Doing E
  outs : List (Out K V)
  panicked : Bool

/-- A thread with its program. Model device. -/
def Reader.new (E : Engine K V Q) (prog : List (SharedOp Q)) : Reader E := ⟨prog, .nothing, [], false⟩

/-- Go on after a step that may panic: a panic ends the thread, and only this thread. Model device. -/
def Reader.after {E : Engine K V Q} {α : Type} (r : Reader E) (x : Res α) (f : α → Reader E) :
    Res (Reader E) :=
  match x with
  | .ok a => .ok (f a)
  | .panic => .ok { r with panicked := true }
  | .ub => .ub

/-- One step of a thread: `len` reads the length (e.g. common_map.rs:191-195), `iter` makes an iterator that
is then asked for one entry at a time (160-162), a lookup finds the entries to look at and then looks at
one at a time (68-82). -/
def Reader.step {E : Engine K V Q} (r : Reader E) : Res (Reader E) :=
  if r.panicked then .ok r
  else match r.doing with
    | .nothing =>
      match r.todo with
      | [] => .ok r
      | .look how q :: ops =>
        r.after (E.begin q) fun s => { r with todo := ops, doing := .looking how s }
      | .len :: ops => .ok { r with todo := ops, outs := r.outs ++ [.number E.entries.length] }
      | .iter :: ops => .ok { r with todo := ops, doing := .iterating [] (MapIter.new E.entries) }
    | .looking how s => r.after (E.step s) fun
      | .inl o =>
        match how.answer o with
        | some out => { r with doing := .nothing, outs := r.outs ++ [out] }
        | none => { r with panicked := true }
      | .inr s' => { r with doing := .looking how s' }
    | .iterating seen it =>
      match it.next with
      | (some e, it') => .ok { r with doing := .iterating (seen ++ [e]) it' }
      | (none, _) => .ok { r with doing := .nothing, outs := r.outs ++ [.items seen] }

/-- Threads taking turns as the scheduler says: the numbers are those of the threads whose turn it is. -/
def runThreads {E : Engine K V Q} : List Nat → List (Reader E) → Res (List (Reader E))
  | [], ts => .ok ts
  | i :: σ, ts =>
    match ts[i]? with
    | none => runThreads σ ts
    | some r => do
      let r' ← r.step
      runThreads σ (ts.set i r')

end FC
