import Verif.Model.Catch
import Verif.Model.Drops

/-
Who owns the keys and values when panics are caught: the operations of Model/Catch.lean once more, with
the drops of Model/Drops.lean. What survives a panic is the map and the log of drops.
-/

set_option autoImplicit false

namespace FC
variable {σ M K V Q α : Type}

/-- What is there after a panic: the map and what the log says. Model device. -/
abbrev Kept (M K V : Type) : Type := M × List (Fact K V)

/-- Drop things, in this order. Model device: the end of a variable's scope. -/
def Holding.drop (ts : List (Thing K V)) : Holding σ (Kept M K V) Unit := fun m s =>
  .done () (m.1, m.2 ++ ts.map .dropped) s

/-- Run `c` while local variables of the closure own `ts`: a panic drops them. The map is not among them,
as the closure borrows it. Model device: unwinding up to `catch_unwind`. -/
def Holding.guard (ts : List (Thing K V)) (c : Holding σ (Kept M K V) α) : Holding σ (Kept M K V) α :=
  fun m s =>
    match c m s with
    | .panicked m' => .panicked (m'.1, m'.2 ++ ts.map .dropped)
    | r => r

/-- `*r = v`: the old value is dropped. The caller's code. -/
def CallApi.overwrite (A : CallApi σ M K V Q) (i : Nat) (v : V) : Holding σ (Kept M K V) Unit := fun m s =>
  match (A.entries m.1)[i]? with
  | some e => .done () (A.write m.1 i v, m.2 ++ [.dropped (.value e.2)]) s
  | none => .ub

/-- As `CallApi.writeAll`; a panic drops the values not written yet. The caller's code. -/
def CallApi.writeAllO (A : CallApi σ M K V Q) :
    List (Ref V × V) → Option Nat → Holding σ (Kept M K V) Unit
  | rvs, some 0 => Holding.guard (rvs.map fun rv => .value rv.2) Holding.panic
  | [], none => pure ()
  | [], some (_ + 1) => Holding.panic
  | rv :: rvs, stop => do
    Holding.guard (rvs.map fun rv => .value rv.2) (A.overwrite rv.1.idx rv.2)
    CallApi.writeAllO A rvs (stop.map (· - 1))

/-- As `CallApi.attempt`, by a closure that owns the values to be stored and borrows the map. Values that
are not stored are dropped by the closure. E.g. specialized_maps/common_map.rs:104-118 (`get_mut`),
121-145 (`get_many_mut`), 225-231 (`index_mut`). -/
def CallApi.attemptO (A : CallApi σ M K V Q) (x : Attempt V Q) : Holding σ (Kept M K V) (Out K V) :=
  match x.op with
  | .getMut q v => do
    match ← Holding.guard [.value v] (Holding.read (A.lookup ·.1 q)) with
    | some r =>
      A.writeAllO [(r.2, v)] x.stop
      return .value (some r.2.val)
    | none =>
      Holding.drop [.value v]
      A.writeAllO [] x.stop
      return .value none
  | .indexMut q v => do
    match ← Holding.guard [.value v] (Holding.read (A.lookup ·.1 q)) with
    | some r =>
      A.writeAllO [(r.2, v)] x.stop
      return .value (some r.2.val)
    | none => Holding.guard [.value v] Holding.panic
  | .getManyMut qvs => do
    match ← Holding.guard (qvs.map fun qv => .value qv.2)
        (Holding.read (A.getManyMut ·.1 (qvs.map (·.1)))) with
    | some rs =>
      if (rs.map Ref.idx).Nodup then
        A.writeAllO (rs.zip (qvs.map (·.2))) x.stop
        return .many (some (rs.map Ref.val))
      else Holding.ub
    | none =>
      Holding.drop (qvs.map fun qv => .value qv.2)
      A.writeAllO [] x.stop
      return .many none
  | op => do
    let out ← Holding.read (A.show op ·.1)
    A.writeAllO [] x.stop
    return out

/-- As `CallApi.caught`, by a caller that owns the map. The caller's code. -/
def CallApi.caughtO (A : CallApi σ M K V Q) (m : M) (x : Attempt V Q) (left : σ) :
    Own σ K V (Option (Out K V) × M) := fun s log =>
  match A.attemptO x (m, log) s with
  | .done out m' s' => .done (some out, m'.1) s' m'.2
  | .panicked m' => .done (none, m'.1) left m'.2
  | .ub => .ub

/-- As `CallApi.caughtRun`. The caller's code. -/
def CallApi.caughtRunO (A : CallApi σ M K V Q) (m : M) :
    List (Attempt V Q × σ) → Own σ K V (List (Option (Out K V)) × M)
  | [] => pure ([], m)
  | x :: xs => do
    let r ← Own.holding (xs.flatMap (·.1.op.brings)) (A.caughtO m x.1 x.2)
    let rs ← CallApi.caughtRunO A r.2 xs
    return (r.1 :: rs.1, rs.2)

/-- Build a map and use it, catching every panic after that; the map lives on. The caller's code. -/
def CallApi.caughtUseO (A : CallApi σ M K V Q) (build : Own σ K V M) (xs : List (Attempt V Q × σ)) :
    Own σ K V (List (Option (Out K V)) × M) := do
  let m ← Own.holding (xs.flatMap (·.1.op.brings)) build
  A.caughtRunO m xs

/-- The same, and then the map is dropped. The caller's code. -/
def CallApi.caughtSessionO (A : CallApi σ M K V Q) (build : Own σ K V M) (xs : List (Attempt V Q × σ)) :
    Own σ K V (List (Option (Out K V))) := do
  let r ← A.caughtUseO build xs
  Own.drop (things (A.entries r.2))
  return r.1

end FC
