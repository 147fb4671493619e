import Verif.Basic

/-
Model of analyzers/int_key_analyzer.rs.
-/

set_option autoImplicit false

namespace FC
variable [Target]

/-- analyzers/int_key_analyzer.rs:5-11 (`IntKeyAnalysisResult`). -/
inductive IntVerdict where
  | normal
  | range
  deriving Repr, DecidableEq

/-- The `for key in keys` loop, analyzers/int_key_analyzer.rs:22-26: running minimum, maximum and
count, the count kept in the key type. -/
def intKeyLoop (t : IntTy) (oc : Bool) : List Int → (min max count : Int) → Res (Int × Int × Int)
  | [], mn, mx, count => .ok (mn, mx, count)
  | key :: keys, mn, mx, count =>
    match t.arith oc (count + 1) with
    | .ok count' => intKeyLoop t oc keys (min mn key) (max mx key) count'
    | .panic => .panic
    | .ub => .ub

/-- analyzers/int_key_analyzer.rs:14-35 (`analyze_int_keys`) for keys of integer type `t`. -/
def analyzeIntKeys (t : IntTy) (oc : Bool) (keys : List Int) : Res IntVerdict := do
  let (mn, mx, count) ← intKeyLoop t oc keys t.hi t.lo 0
  if count = 0 then
    return .normal
  else
    let span ← t.arith oc (mx - mn)
    let last ← t.arith oc (count - 1)
    if span = last then return .range else return .normal

end FC
