import Verif.Model.UserCode

/-
`FrozenMap` over `String` keys once more, with the caller's `BuildHasher` as arbitrary code: it reads
and changes a hidden state and may panic, so hashing one string twice may give two codes. `Eq` of
strings is Rust's own. Lemmas/StringCode.lean proves that for hashers that are functions these
definitions are those of Model/FrozenMap.lean and Model/SliceKey.lean.
-/

set_option autoImplicit false

namespace FC
variable [Target]
variable {σ V : Type}

/-- The three ways the crate uses a `BuildHasher` on strings. Lines at the fields: common_map.rs:32, 35,
62; slice_key_analyzer.rs:201; slice_hash.rs:14-17. -/
structure HasherCode (σ : Type) where
  /-- `bh.hash_one(&key)` of a `String` (common_map.rs:32, 35 and 62). -/
  hashKey : Bytes → Call σ Nat
  /-- `bh.hash_one(sub)` of a byte slice (analyzers/slice_key_analyzer.rs:201). -/
  hashSub : Bytes → Call σ Nat
  /-- `build_hasher`, `write`, `finish` on a byte slice (traits/slice_hash.rs:14-17). -/
  writeSub : Bytes → Call σ Nat

/-- traits/slice_hash.rs:11-19 (`SliceHash for String`). -/
def HasherCode.sliceHash (h : HasherCode σ) (s : Bytes) (a b : Nat) : Call σ Nat := do
  let sub ← Call.lift (sliceUnchecked s a b)
  h.writeSub sub

/-- The loop of `is_sufficiently_unique`, analyzers/slice_key_analyzer.rs:193-210. -/
def uniqueLoopU (oc : Bool) (h : HasherCode σ) (idx len : Nat) (leftJustified : Bool) :
    List Bytes → (set : List Nat) → (acceptable : Nat) → Call σ Bool
  | [], _, _ => pure true
  | s :: keys, set, acceptable => do
    let sub ← Call.lift (subSlice oc s idx len leftJustified)
    let code ← h.hashSub sub
    if code ∈ set then
      if acceptable = 0 then return false
      else uniqueLoopU oc h idx len leftJustified keys set (acceptable - 1)
    else uniqueLoopU oc h idx len leftJustified keys (code :: set) acceptable

/-- The loops over `subslice_index`, analyzers/slice_key_analyzer.rs:118-140 and 149-167. -/
def findIndexU (p : Nat → Call σ Bool) : (idx count : Nat) → Call σ (Option Nat)
  | _, 0 => pure none
  | idx, count + 1 => do
    if ← p idx then return some idx else findIndexU p (idx + 1) count

/-- The loop over `subslice_len`, analyzers/slice_key_analyzer.rs:115-174. -/
def subsliceLoopU (oc : Bool) (h : HasherCode σ) (keys : List Bytes)
    (minLen maxLen acceptable : Nat) : (len count : Nat) → Call σ SliceVerdict
  | _, 0 => pure .normal
  | len, count + 1 => do
    match ← findIndexU (fun i => uniqueLoopU oc h i len true keys [] acceptable)
        0 (minLen - len + 1) with
    | some i => if len = maxLen then return .normal else return .left i len
    | none =>
      if minLen ≠ maxLen then
        match ← findIndexU (fun i => uniqueLoopU oc h i len false keys [] acceptable)
            0 (minLen - len + 1) with
        | some i => return .right i len
        | none => subsliceLoopU oc h keys minLen maxLen acceptable (len + 1) count
      else subsliceLoopU oc h keys minLen maxLen acceptable (len + 1) count

/-- analyzers/slice_key_analyzer.rs:39-56 (`analyze_slice_keys`) and 89-175 (`analyze_subslices`). -/
def analyzeSliceKeysU (oc : Bool) (h : HasherCode σ) (keys : List Bytes) : Call σ SliceVerdict :=
  if analyzeLengths keys = .normal then
    subsliceLoopU oc h keys (minLen keys) (maxLen keys) (keys.length / 20) 1 (min (minLen keys) 16)
  else pure (analyzeLengths keys)

/-- Which of the map types a `FrozenMap` of strings is. facades/frozen_map.rs:20-39 and 245-306. -/
inductive StringRep where
  | scanning
  | common
  | left (a b : Nat)
  | right (a b : Nat)
  | length

/-- The calls such a map makes; `String` compares byte by byte and `Len` counts bytes.
traits/len.rs:35-39, traits/slice_hash.rs:11-19. -/
def StringRep.code (oc : Bool) (h : HasherCode σ) : StringRep → UserCode σ Bytes Bytes
  | .scanning | .common =>
    commonCode h.hashKey h.hashKey (fun q k => pure (beq q k)) (fun a b => pure (beq a b))
  | .left a b =>
    leftCode a b (fun k => pure k.length) h.sliceHash (fun q => pure q.length) h.sliceHash
      (fun q k => pure (beq q k)) (fun a b => pure (beq a b))
  | .right a b =>
    rightCode oc a b (fun k => pure k.length) h.sliceHash (fun q => pure q.length) h.sliceHash
      (fun q k => pure (beq q k)) (fun a b => pure (beq a b))
  | .length =>
    lengthCode (fun k => pure k.length) (fun q => pure q.length)
      (fun q k => pure (beq q k)) (fun a b => pure (beq a b))

/-- The map type for a verdict, facades/frozen_map.rs:250-305. -/
def SliceVerdict.rep : SliceVerdict → StringRep
  | .normal => .common
  | .left i l => .left i (i + l)
  | .right i l => .right i (i + l)
  | .length => .length

/-- facades/frozen_map.rs:212-224 (`FrozenMap::new`) and 245-306 (`new_string_map`). Beyond 255
entries the verdict `length` too means a `CommonMap` (lines 280-285). -/
def UMap.stringFacade (env : Env) (h : HasherCode σ) (payload : List (Bytes × V)) :
    Call σ (StringRep × UMap Bytes V) := do
  if payload.length < 4 then return (.scanning, .scanning payload)
  else
    let verdict ← analyzeSliceKeysU env.oc h (payload.map (·.1))
    if payload.length ≤ 255 then
      return (verdict.rep, ← UMap.fromVec env IdxTy.u8 (verdict.rep.code env.oc h) payload)
    else
      let rep := if verdict = .length then .common else verdict.rep
      return (rep, ← UMap.fromVec env IdxTy.usize (rep.code env.oc h) payload)

end FC
