import Verif.Model.Clone
import Verif.Model.Construct
import Verif.Model.StringCode
import Verif.Model.SetLookups
import Verif.Spec.IntTraits
import Verif.Spec.UserCode

/-
Who owns the keys and values, and when they are dropped. The constructors, `Clone` and the operations
of Model/UserCode.lean and Model/Clone.lean once more, with every move of a key or a value, and with
unwinding: when the caller's code panics, each function on the way out drops what its local variables
own. `u64`s, slots and hashers are not tracked, and destructors are taken to return.
-/

set_option autoImplicit false

namespace FC
variable [Target]

/-- Something that is dropped: a key or a value. Model device for the fields of the pairs in
specialized_maps/hash_table.rs:12, scanning_map.rs:12. -/
inductive Thing (K V : Type) where
  | key (k : K)
  | value (v : V)
deriving DecidableEq

/-- What the log of a run says: a thing was dropped, or a thing came into being by `clone`.
Model device. -/
inductive Fact (K V : Type) where
  | dropped (t : Thing K V)
  | cloned (t : Thing K V)
deriving DecidableEq

/-- How code that owns things ends: it returns, it has been unwound by a panic, or its behaviour is
undefined. Model device. -/
inductive Fate (σ K V α : Type) where
  | done (a : α) (s : σ) (log : List (Fact K V))
  | unwound (log : List (Fact K V))
  | ub

/-- Code that owns things; `σ` is the state of the caller's code. Model device. -/
def Own (σ K V α : Type) := σ → List (Fact K V) → Fate σ K V α

variable {σ M K V Q α β : Type}

/-- One step after the other. Model device. -/
instance : Monad (Own σ K V) where
  pure a := fun s log => .done a s log
  bind o f := fun s log =>
    match o s log with
    | .done a s' log' => f a s' log'
    | .unwound log' => .unwound log'
    | .ub => .ub

/-- A step that owns nothing itself. Model device. -/
def Own.call (c : Call σ α) : Own σ K V α := fun s log =>
  match c s with
  | .ok (a, s') => .done a s' log
  | .panic => .unwound log
  | .ub => .ub

/-- Drop things, in this order. Model device: the end of a variable's scope, or an assignment over it. -/
def Own.drop (ts : List (Thing K V)) : Own σ K V Unit := fun s log =>
  .done () s (log ++ ts.map .dropped)

/-- Run `o` while local variables own `ts`: they are dropped, in this order, when a panic passes.
Model device: unwinding. -/
def Own.holding (ts : List (Thing K V)) (o : Own σ K V α) : Own σ K V α := fun s log =>
  match o s log with
  | .done a s' log' => .done a s' log'
  | .unwound log' => .unwound (log' ++ ts.map .dropped)
  | .ub => .ub

/-- A call of `clone`; the thing it returns is new. Model device. -/
def Own.cloning (t : α → Thing K V) (c : Call σ α) : Own σ K V α := fun s log =>
  match c s with
  | .ok (a, s') => .done a s' (log ++ [.cloned (t a)])
  | .panic => .unwound log
  | .ub => .ub

/-- The keys and values of pairs, as a `Vec` or a boxed slice of pairs drops them. std. -/
def things (es : List (K × V)) : List (Thing K V) := es.flatMap fun e => [.key e.1, .value e.2]

/-- The items in `prep_items`. specialized_maps/hash_table.rs:21-24. -/
def prepThings (ps : List (PrepItem K V)) : List (Thing K V) := things (ps.map PrepItem.entry)

/-! ### Construction -/

/-- specialized_maps/hash_table.rs:47-57. While `hash` runs, `entry` owns one pair, the iterator made of
`payload` those after it, and `prep_items` those before. -/
def prepLoopO (numHashSlots : Nat) (hash : K → Call σ Nat) :
    List (K × V) → List (PrepItem K V) → Own σ K V (List (PrepItem K V))
  | [], prep => pure prep
  | entry :: rest, prep => do
    let slot ← Own.holding (things [entry] ++ things rest ++ prepThings prep)
      (Own.call do
        let code ← hash entry.1
        Call.lift (umod code numHashSlots))
    prepLoopO numHashSlots hash rest (prep ++ [⟨slot, entry⟩])

/-- One turn of the outer loop without the moves: specialized_maps/hash_table.rs:71-72, 76 and 87-92. -/
def slotOf (oc : Bool) (S : IdxTy) (slot n : Nat) (slots : List Slot) (entryIndex : Int) :
    Res (List Slot × Int) := do
  let numEntries ← IntTy.i32.arith oc n
  let mn ← S.ofI32 entryIndex
  let cnt ← S.ofI32 numEntries
  let mx ← S.add oc mn cnt
  if slot < slots.length then
    let entryIndex' ← IntTy.i32.arith oc (entryIndex + numEntries)
    return (slots.set slot ⟨mn, mx⟩, entryIndex')
  else .panic

/-- specialized_maps/hash_table.rs:70-93, as `fillLoop`. When a step panics, `entries` owns the pairs
moved so far and `prep_items` the others. (If counting to `num_entries` overflows, the panic comes in
the middle of the inner loop, when some of these pairs are still in `prep_items`.) -/
def fillLoopO (oc : Bool) (S : IdxTy) :
    List (PrepItem K V) → List Slot → List (K × V) → Int → Own σ K V (List Slot × List (K × V))
  | [], slots, entries, _ => pure (slots, entries)
  | item :: stack, slots, entries, entryIndex =>
    let r := runLoop item.slot item stack entries 0
    Own.holding (things r.2.1 ++ prepThings r.1.reverse)
      (Own.call (Call.lift (slotOf oc S item.slot r.2.2 slots entryIndex))) >>= fun p =>
    fillLoopO oc S r.1 p.1 r.2.1 p.2
termination_by stack => stack.length
decreasing_by
  have := runLoop_stack_le item.slot item stack entries 0
  simp only [List.length_cons]
  omega

/-- specialized_maps/hash_table.rs:30-100 (`HashTable::new`). -/
def HashTable.newO (env : Env) (S : IdxTy) (payload : List (K × V)) (numHashSlots : Nat)
    (hash : K → Call σ Nat) : Own σ K V (HashTable K V) :=
  if payload.isEmpty then do
    Own.drop (things payload)
    return ⟨1, [⟨0, 0⟩], []⟩
  else do
    let cap ← Own.holding (things payload) (Own.call (Call.lift (Res.unwrap S.maxUsize)))
    if payload.length > cap then
      Own.holding (things payload) (Own.call (Call.lift .panic))
    else do
      let prep ← prepLoopO numHashSlots hash payload []
      let sorted := env.srt.run PrepItem.slot prep
      let r ← fillLoopO env.oc S sorted.reverse (List.replicate numHashSlots ⟨0, 0⟩) [] 0
      if r.1.length = 0 then Own.holding (things r.2) (Own.call (Call.lift .panic))
      else return ⟨r.1.length, r.1, r.2⟩

/-- The two passes of construction: common_map.rs:31-38, integer_map.rs:27-32, length_map.rs:28-34,
left_slice_map.rs:33-51, right_slice_map.rs:33-51. The first only borrows `payload`. -/
def UMap.fromVecO (env : Env) (S : IdxTy) (u : UserCode σ K Q) (payload : List (K × V)) :
    Own σ K V (UMap K V) := do
  let n ← Own.holding (things payload) (Own.call do
    let codes ← Call.mapList (fun e : K × V => u.sizeCode e.1) payload
    let analysis ← Call.lift (analyzeHashCodes codes)
    return analysis.numHashSlots)
  let table ← HashTable.newO env S payload n u.slotCode
  return .hashed table

/-- facades/frozen_map.rs:212-224 (`FrozenMap::new`) and 308-314 (`new_common_map`) for a key type
of the caller's own. -/
def UMap.facadeO (env : Env) (u : UserCode σ K Q) (payload : List (K × V)) :
    Own σ K V (UMap K V) :=
  if payload.length < 4 then pure (.scanning payload)
  else if payload.length ≤ 255 then UMap.fromVecO env IdxTy.u8 u payload
  else UMap.fromVecO env IdxTy.usize u payload

/-- facades/frozen_map.rs:212-224 (`FrozenMap::new`) and 245-306 (`new_string_map`); the analysis only
borrows `payload`, and the `transmute`s move it. -/
def UMap.stringFacadeO (env : Env) (h : HasherCode σ) (payload : List (Bytes × V)) :
    Own σ Bytes V (StringRep × UMap Bytes V) :=
  if payload.length < 4 then pure (.scanning, .scanning payload)
  else do
    let verdict ← Own.holding (things payload)
      (Own.call (analyzeSliceKeysU env.oc h (payload.map (·.1))))
    if payload.length ≤ 255 then do
      let m ← UMap.fromVecO env IdxTy.u8 (verdict.rep.code env.oc h) payload
      return (verdict.rep, m)
    else do
      let rep := if verdict = .length then .common else verdict.rep
      let m ← UMap.fromVecO env IdxTy.usize (rep.code env.oc h) payload
      return (rep, m)

/-- `Vec::from_iter(iter)` for an iterator of the caller's: what it handed out before it panicked is
dropped with the vector. std; called at specialized_maps/common_map.rs:42, facades/frozen_map.rs:208-210. -/
def Source.vecO : Source (K × V) → Own σ K V (List (K × V))
  | .ends items => pure items
  | .panics items => Own.holding (things items) (Own.call (Call.lift .panic))

/-! ### Clones -/

/-- Cloning a boxed slice of pairs, first to last: the pairs cloned so far are owned by a vector, and a
key whose value is being cloned by a temporary. std; called by the derived `Clone` of
specialized_maps/hash_table.rs:8-13, scanning_map.rs:11-14. -/
def cloneEntriesO (ck : K → Call σ K) (cv : V → Call σ V) :
    List (K × V) → List (K × V) → Own σ K V (List (K × V))
  | [], made => pure made
  | e :: es, made => do
    let k ← Own.holding (things made) (Own.cloning .key (ck e.1))
    let v ← Own.holding (.key k :: things made) (Own.cloning .value (cv e.2))
    cloneEntriesO ck cv es (made ++ [(k, v)])

/-- The derived `Clone`s, as `UMap.clone`. The original is borrowed. specialized_maps/scanning_map.rs:11,
hash_table.rs:8. -/
def UMap.cloneO (ck : K → Call σ K) (cv : V → Call σ V) : UMap K V → Own σ K V (UMap K V)
  | .scanning es => do
    let es' ← cloneEntriesO ck cv es []
    return .scanning es'
  | .hashed t => do
    let es' ← cloneEntriesO ck cv t.entries []
    return .hashed ⟨t.numSlots, t.slots, es'⟩

/-! ### Use -/

/-- `*r = v`: the old value is dropped. The write is the caller's; for references from e.g.
specialized_maps/common_map.rs:104-118. -/
def CallApi.assignO (A : CallApi σ M K V Q) (m : M) (i : Nat) (v : V) : Own σ K V M :=
  match (A.entries m)[i]? with
  | some e => do
    Own.drop [.value e.2]
    return A.write m i v
  | none => Own.call (Call.lift .ub)

/-- One after the other, into the references of `get_many_mut`; the writes are the caller's. For references
from e.g. specialized_maps/common_map.rs:120-146. -/
def CallApi.assignAllO (A : CallApi σ M K V Q) (m : M) : List (Ref V × V) → Own σ K V M
  | [] => pure m
  | rv :: rvs => do
    let m' ← Own.holding (rvs.map fun rv => .value rv.2) (A.assignO m rv.1.idx rv.2)
    CallApi.assignAllO A m' rvs

/-- The values an operation brings along. Model device: the caller's values to be stored. -/
def MapOp.brings : MapOp V Q → List (Thing K V)
  | .getMut _ v => [.value v]
  | .indexMut _ v => [.value v]
  | .getManyMut qvs => qvs.map fun qv => .value qv.2
  | _ => []

/-- One operation, as `CallApi.step`, by a caller that owns the map and the values to be stored. Values
that are not stored are dropped by the caller. specialized_maps/common_map.rs:58-172, 258-272, and its
counterparts in the other maps. -/
def CallApi.stepO (A : CallApi σ M K V Q) (m : M) : MapOp V Q → Own σ K V (Out K V × M)
  | .getMut q v => do
    match ← Own.holding (.value v :: things (A.entries m)) (Own.call (A.lookup m q)) with
    | some r => do
      let m' ← A.assignO m r.2.idx v
      return (.value (some r.2.val), m')
    | none => do
      Own.drop [.value v]
      return (.value none, m)
  | .indexMut q v => do
    match ← Own.holding (.value v :: things (A.entries m)) (Own.call (A.lookup m q)) with
    | some r => do
      let m' ← A.assignO m r.2.idx v
      return (.value (some r.2.val), m')
    | none => Own.holding (.value v :: things (A.entries m)) (Own.call (Call.lift .panic))
  | .getManyMut qvs => do
    match ← Own.holding (MapOp.brings (.getManyMut qvs) ++ things (A.entries m))
        (Own.call (A.getManyMut m (qvs.map (·.1)))) with
    | some rs =>
      if (rs.map Ref.idx).Nodup then do
        let m' ← A.assignAllO m (rs.zip (qvs.map (·.2)))
        return (.many (some (rs.map Ref.val)), m')
      else Own.call (Call.lift .ub)
    | none => do
      Own.drop (MapOp.brings (.getManyMut qvs))
      return (.many none, m)
  | op => Own.holding (things (A.entries m)) (Own.call (A.step m op))

/-- A history, by a caller that owns the map and the values to be stored. Model device: the caller's
sequence of calls of specialized_maps/common_map.rs:58-172, 258-272. -/
def CallApi.runO (A : CallApi σ M K V Q) (m : M) :
    List (MapOp V Q) → Own σ K V (List (Out K V) × M)
  | [] => pure ([], m)
  | op :: ops => do
    let r ← Own.holding (ops.flatMap MapOp.brings) (A.stepO m op)
    let rs ← CallApi.runO A r.2 ops
    return (r.1 :: rs.1, rs.2)

/-- Build a map and perform a history; the map lives on. Model device: the caller's code. -/
def CallApi.useO (A : CallApi σ M K V Q) (build : Own σ K V M) (ops : List (MapOp V Q)) :
    Own σ K V (List (Out K V) × M) := do
  let m ← Own.holding (ops.flatMap MapOp.brings) build
  A.runO m ops

/-- Build a map, perform a history, drop the map. There is no `Drop` in the crate: dropping a map drops
its fields. Model device: the caller's code. -/
def CallApi.sessionO (A : CallApi σ M K V Q) (build : Own σ K V M) (ops : List (MapOp V Q)) :
    Own σ K V (List (Out K V)) := do
  let r ← A.useO build ops
  Own.drop (things (A.entries r.2))
  return r.1

/-- The same for a `FrozenMap` of strings. Model device: the caller's code. -/
def UMap.stringSessionO (env : Env) (h : HasherCode σ) (payload : List (Bytes × V))
    (ops : List (MapOp V Bytes)) : Own σ Bytes V (List (Out Bytes V)) := do
  let m ← Own.holding (ops.flatMap MapOp.brings) (UMap.stringFacadeO env h payload)
  let r ← (UMap.api (m.1.code env.oc h)).runO m.2 ops
  Own.drop (things r.2.entries)
  return r.1

/-- Collect what an iterator of the caller's hands out, build a map of it, perform a history, drop the
map. specialized_maps/common_map.rs:40-44, facades/frozen_map.rs:207-210. -/
def UMap.collectSessionO (u : UserCode σ K Q) (build : List (K × V) → Own σ K V (UMap K V))
    (src : Source (K × V)) (ops : List (MapOp V Q)) : Own σ K V (List (Out K V)) := do
  let payload ← Own.holding (ops.flatMap MapOp.brings) src.vecO
  (UMap.api u).sessionO (build payload) ops

/-- Build a set, ask one thing after another, drop the set. Model device: the caller's code, calling
specialized_sets/common_set.rs:113-199 and its counterparts. -/
def UMap.setSessionO (u : UserCode σ K Q) (build : Own σ K Unit (UMap K Unit)) (asks : List (SetAsk Q)) :
    Own σ K Unit (List (SetAns K)) := do
  let m ← build
  let outs ← Own.holding (things m.entries) (Own.call (m.asks u asks))
  Own.drop (things m.entries)
  return outs

/-- specialized_maps/integer_range_map.rs:28-53. `payload` is sorted in place and then becomes the
entries, so that one variable owns the pairs throughout. (That a sort whose comparison panics leaves
every pair in the vector is std's guarantee.) -/
def RMap.fromVecO (c : RangeCode σ K V Q) (payload : List (K × V)) : Own σ K V (RMap K V) :=
  Own.holding (things payload) (Own.call (RMap.fromVec c payload))

/-- Build a map, clone it, perform one history on the clone and one on the original, drop both. Model
device: the caller's code. -/
def UMap.cloneSessionO (u : UserCode σ K Q) (ck : K → Call σ K) (cv : V → Call σ V)
    (build : Own σ K V (UMap K V)) (ops ops' : List (MapOp V Q)) :
    Own σ K V (List (Out K V) × List (Out K V)) := do
  let m ← Own.holding (ops.flatMap MapOp.brings ++ ops'.flatMap MapOp.brings) build
  let c ← Own.holding (things m.entries ++ ops.flatMap MapOp.brings ++ ops'.flatMap MapOp.brings)
    (m.cloneO ck cv)
  let r ← Own.holding (things m.entries ++ ops'.flatMap MapOp.brings) ((UMap.api u).runO c ops)
  let r' ← Own.holding (things r.2.entries) ((UMap.api u).runO m ops')
  Own.drop (things r.2.entries)
  Own.drop (things r'.2.entries)
  return (r.1, r'.1)

end FC
