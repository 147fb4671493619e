import Verif.Basic

/-
Model of analyzers/slice_key_analyzer.rs for byte-string keys.
-/

set_option autoImplicit false

namespace FC
variable [Target]

/-- Byte strings (`String::as_bytes`). facades/frozen_map.rs:248, facades/frozen_set.rs:233. -/
abbrev Bytes := List UInt8

/-- analyzers/slice_key_analyzer.rs:7-25 (`SliceKeyAnalysisResult`). -/
inductive SliceVerdict where
  | normal
  | left (subsliceIndex subsliceLen : Nat)
  | right (subsliceIndex subsliceLen : Nat)
  | length
  deriving Repr, DecidableEq

/-- The counting loop of `analyze_lengths`, analyzers/slice_key_analyzer.rs:68-82. The `HashMap`
from length to count is a partial function. -/
def lengthsLoop : List Bytes → (Nat → Option Nat) → SliceVerdict
  | [], _ => .length
  | s :: keys, lengths =>
    match lengths s.length with
    | some count =>
      if count = 3 then .normal
      else lengthsLoop keys (fun l => if l = s.length then some (count + 1) else lengths l)
    | none => lengthsLoop keys (fun l => if l = s.length then some 1 else lengths l)

/-- analyzers/slice_key_analyzer.rs:59-83 (`analyze_lengths`). -/
def analyzeLengths (keys : List Bytes) : SliceVerdict :=
  if keys.length > 255 then .normal else lengthsLoop keys (fun _ => none)

/-- The sub-slice chosen for one key, analyzers/slice_key_analyzer.rs:194-199. Both indexings are
bounds-checked; `s.len() - subslice_index - 1` is `usize` arithmetic. -/
def subSlice (oc : Bool) (s : Bytes) (idx len : Nat) (leftJustified : Bool) : Res Bytes := do
  if leftJustified then
    sliceChecked s idx (idx + len)
  else
    let a ← usub oc s.length idx
    let start ← usub oc a 1
    sliceChecked s start (start + len)

/-- The loop of `is_sufficiently_unique`, analyzers/slice_key_analyzer.rs:193-210. The `HashSet`
of hash codes is a list used through membership only. -/
def uniqueLoop (oc : Bool) (bh : Hasher) (idx len : Nat) (leftJustified : Bool) :
    List Bytes → (set : List Nat) → (acceptable : Nat) → Res Bool
  | [], _, _ => .ok true
  | s :: keys, set, acceptable =>
    match subSlice oc s idx len leftJustified with
    | .ok sub =>
      if bh.hashOneBytes sub ∈ set then
        if acceptable = 0 then .ok false
        else uniqueLoop oc bh idx len leftJustified keys set (acceptable - 1)
      else uniqueLoop oc bh idx len leftJustified keys (bh.hashOneBytes sub :: set) acceptable
    | .panic => .panic
    | .ub => .ub

/-- analyzers/slice_key_analyzer.rs:177-211 (`is_sufficiently_unique`); the set starts empty
(line 190). -/
def isSufficientlyUnique (oc : Bool) (bh : Hasher) (keys : List Bytes) (idx len : Nat)
    (leftJustified : Bool) (acceptable : Nat) : Res Bool :=
  uniqueLoop oc bh idx len leftJustified keys [] acceptable

/-- `while subslice_index <= last { if p(subslice_index) return; subslice_index += 1 }` with
`count` iterations left, analyzers/slice_key_analyzer.rs:118-140 and 149-167: the first index
accepted by `p`. -/
def findIndex (p : Nat → Res Bool) : (idx count : Nat) → Res (Option Nat)
  | _, 0 => .ok none
  | idx, count + 1 =>
    match p idx with
    | .ok true => .ok (some idx)
    | .ok false => findIndex p (idx + 1) count
    | .panic => .panic
    | .ub => .ub

/-- The `while subslice_len <= max_subslice_len` loop with `count` iterations left,
analyzers/slice_key_analyzer.rs:115-174. -/
def subsliceLoop (oc : Bool) (bh : Hasher) (keys : List Bytes) (minLen maxLen acceptable : Nat) :
    (len count : Nat) → Res SliceVerdict
  | _, 0 => .ok .normal
  | len, count + 1 =>
    match findIndex (fun i => isSufficientlyUnique oc bh keys i len true acceptable)
        0 (minLen - len + 1) with
    | .ok (some i) => if len = maxLen then .ok .normal else .ok (.left i len)
    | .ok none =>
      if minLen ≠ maxLen then
        match findIndex (fun i => isSufficientlyUnique oc bh keys i len false acceptable)
            0 (minLen - len + 1) with
        | .ok (some i) => .ok (.right i len)
        | .ok none => subsliceLoop oc bh keys minLen maxLen acceptable (len + 1) count
        | .panic => .panic
        | .ub => .ub
      else subsliceLoop oc bh keys minLen maxLen acceptable (len + 1) count
    | .panic => .panic
    | .ub => .ub

/-- `min_len` of the keys, analyzers/slice_key_analyzer.rs:98-103 (starts at `usize::MAX`). -/
def minLen (keys : List Bytes) : Nat := keys.foldl (fun m s => min m s.length) (usz - 1)

/-- `max_len` of the keys, analyzers/slice_key_analyzer.rs:99-103. -/
def maxLen (keys : List Bytes) : Nat := keys.foldl (fun m s => max m s.length) 0

/-- analyzers/slice_key_analyzer.rs:89-175 (`analyze_subslices`). Simplification:
`((n as f64) * 0.05) as usize` is `n / 20` (exact for n < 2^52; see DESIGN.md). -/
def analyzeSubslices (oc : Bool) (bh : Hasher) (keys : List Bytes) : Res SliceVerdict :=
  subsliceLoop oc bh keys (minLen keys) (maxLen keys) (keys.length / 20) 1 (min (minLen keys) 16)

/-- analyzers/slice_key_analyzer.rs:39-56 (`analyze_slice_keys`). -/
def analyzeSliceKeys (oc : Bool) (bh : Hasher) (keys : List Bytes) : Res SliceVerdict :=
  if analyzeLengths keys = .normal then analyzeSubslices oc bh keys
  else .ok (analyzeLengths keys)

end FC
