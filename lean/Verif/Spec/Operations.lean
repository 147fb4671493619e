import Verif.Spec

/-
The reference of C07: histories of operations on a FrozenMap and on a plain function.
-/

set_option autoImplicit false

namespace FC
variable {K V : Type}

/-- What a client can do with a map. -/
inductive Op (K V : Type) where
  | get (k : K)
  | containsKey (k : K)
  | len
  /-- `if let Some(r) = map.get_mut(&k) { *r = v }` -/
  | set (k : K) (v : V)
  /-- `map[&k]` -/
  | index (k : K)
  /-- `map[&k] = v` -/
  | indexSet (k : K) (v : V)
  /-- `if let Some([r1, ..]) = map.get_many_mut([k1, ..]) { *r1 = v1; .. }` -/
  | setMany (kvs : List (K × V))

/-- What the client sees. -/
inductive Ans (V : Type) where
  | val (o : Option V)
  | bool (b : Bool)
  | num (n : Nat)

/-- Running an operation on the modelled map. -/
def runOp [Target] (env : Env) (ty : KeyTy K) (m : FrozenMap K V) : Op K V → Res (Ans V × FrozenMap K V)
  | .get k => (m.get env ty k).map fun o => (.val (value o), m)
  | .containsKey k => (m.containsKey env ty k).map fun b => (.bool b, m)
  | .len => .ok (.num m.len, m)
  | .set k v => (m.getMut env ty k).map fun o => match o with
      | some r => (.bool true, m.write r.idx v)
      | none => (.bool false, m)
  | .index k => (m.index env ty k).map fun r => (.val (some r.val), m)
  | .indexSet k v => (m.indexMut env ty k).map fun r => (.bool true, m.write r.idx v)
  | .setMany kvs => (m.getManyMut env ty (kvs.map (·.1))).map fun o => match o with
      | some rs => (.bool true,
          (rs.zip (kvs.map (·.2))).foldl (fun m x => m.write x.1.idx x.2) m)
      | none => (.bool false, m)

/-- Running a history. -/
def runOps [Target] (env : Env) (ty : KeyTy K) : FrozenMap K V → List (Op K V) → Res (List (Ans V))
  | _, [] => .ok []
  | m, op :: ops =>
    match runOp env ty m op with
    | .ok (a, m') => (runOps env ty m' ops).map (a :: ·)
    | .panic => .panic
    | .ub => .ub

/-- Updating a plain function at all keys equal to `k`. -/
def update (eq : K → K → Bool) (f : K → Option V) (k : K) (v : V) : K → Option V :=
  fun k' => if eq k k' then some v else f k'

/-- The same operations on a plain function from keys to values with `n` entries; `none` is a
panic. -/
def specOp (eq : K → K → Bool) (n : Nat) (f : K → Option V) : Op K V → Option (Ans V × (K → Option V))
  | .get k => some (.val (f k), f)
  | .containsKey k => some (.bool (f k).isSome, f)
  | .len => some (.num n, f)
  | .set k v => if (f k).isSome then some (.bool true, update eq f k v) else some (.bool false, f)
  | .index k => if (f k).isSome then some (.val (f k), f) else none
  | .indexSet k v => if (f k).isSome then some (.bool true, update eq f k v) else none
  | .setMany kvs =>
      if (kvs.map (·.1)).Pairwise (fun a b => eq a b = false) ∧ ∀ e ∈ kvs, (f e.1).isSome then
        some (.bool true, kvs.foldl (fun f e => update eq f e.1 e.2) f)
      else some (.bool false, f)

/-- The same histories on a plain function. -/
def specOps (eq : K → K → Bool) (n : Nat) : (K → Option V) → List (Op K V) → Option (List (Ans V))
  | _, [] => some []
  | f, op :: ops =>
    match specOp eq n f op with
    | some (a, f') => (specOps eq n f' ops).map (a :: ·)
    | none => none

/-- The map answers like the function. -/
def Represents [Target] (env : Env) (ty : KeyTy K) (m : FrozenMap K V) (f : K → Option V) : Prop :=
  ∀ k, ∃ o, m.get env ty k = .ok o ∧ value o = f k

end FC
