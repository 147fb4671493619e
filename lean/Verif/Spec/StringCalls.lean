import Verif.Spec.StringCode
import Verif.Spec.Calls

/-
What a `FrozenMap` of strings hashes: which bytes, when, how often.
-/

set_option autoImplicit false

namespace FC
variable {σ K V : Type}

/-- What the hasher is given. -/
inductive HashUse where
  /-- A whole string, as `Hash` feeds it. -/
  | whole
  /-- A part of a key, while the map chooses which part tells the keys apart. -/
  | trial
  /-- A part of a string, to find its slot. -/
  | part
  deriving DecidableEq

/-- One use of the hasher: what for, on which bytes, and the hash code it answered. -/
structure HashCall where
  use : HashUse
  bytes : Bytes
  code : Nat
  deriving DecidableEq

/-- The hasher with a log of its uses. -/
def HasherCode.logged (h : HasherCode σ) : HasherCode (σ × List HashCall) where
  hashKey b := (h.hashKey b).noted (⟨.whole, b, ·⟩)
  hashSub b := (h.hashSub b).noted (⟨.trial, b, ·⟩)
  writeSub b := (h.writeSub b).noted (⟨.part, b, ·⟩)

/-- A candidate part of the keys: `len` bytes from byte `idx`, or from the `idx`-th byte from the end
(the last being the 0th). -/
structure Place where
  idx : Nat
  len : Nat
  fromEnd : Bool
  deriving DecidableEq

/-- The bytes of `s` there. -/
def Place.of (p : Place) (s : Bytes) : Bytes :=
  if p.fromEnd then (s.drop (s.length - (p.idx + 1))).take p.len else (s.drop p.idx).take p.len

/-- The candidates of length `len` in keys of at least `lo` bytes, in the order they are tried. -/
def placesOf (lo len : Nat) (fromEnd : Bool) : List Place :=
  (List.range (lo - len + 1)).map (⟨·, len, fromEnd⟩)

/-- All candidates in the order they are tried, for keys of `lo` to `hi` bytes: short before long, at
most 16 bytes, and of each length those counted from the left before those counted from the end; the
latter only if the lengths differ. -/
def searchOrder (lo hi : Nat) : List Place :=
  (List.range' 1 (min lo 16)).flatMap fun len =>
    placesOf lo len false ++ if lo = hi then [] else placesOf lo len true

/-- How many of the codes had come before. -/
def repeatsIn (seen : List Nat) : List Nat → Nat
  | [] => 0
  | c :: cs => (if c ∈ seen then 1 else 0) + repeatsIn (c :: seen) cs

/-- The uses of the hasher that try place `p`: the keys' parts there are hashed in order. -/
def trials (p : Place) (keys : List Bytes) (codes : List Nat) : List HashCall :=
  List.zipWith (fun k c => ⟨.trial, p.of k, c⟩) keys codes

/-- Trying place `p`, with up to `tol` repeated codes allowed. It is accepted once all keys have been
hashed, and rejected at the first repeated code too many. -/
inductive Tries (tol : Nat) (keys : List Bytes) (p : Place) : Bool → List HashCall → Prop
  | accept (codes : List Nat) : codes.length = keys.length → repeatsIn [] codes ≤ tol →
      Tries tol keys p true (trials p keys codes)
  | reject (codes : List Nat) (c : Nat) : codes.length < keys.length → repeatsIn [] codes ≤ tol →
      tol < repeatsIn [] (codes ++ [c]) → Tries tol keys p false (trials p keys (codes ++ [c]))

/-- Trying places in turn, until the first that is accepted. -/
inductive Searches (tol : Nat) (keys : List Bytes) :
    List Place → Option Place → List HashCall → Prop
  | nothing : Searches tol keys [] none []
  | found (p : Place) (ps : List Place) (ev : List HashCall) : Tries tol keys p true ev →
      Searches tol keys (p :: ps) (some p) ev
  | next (p : Place) (ps : List Place) (o : Option Place) (ev ev' : List HashCall) :
      Tries tol keys p false ev → Searches tol keys ps o ev' →
      Searches tol keys (p :: ps) o (ev ++ ev')

/-- What of a string each kind of map hashes to find its slot. A map that scans and one that goes by
length hash nothing; a common map hashes the whole string; a map that goes by bytes `i .. j` hashes
just these, and nothing if the string is too short to have them. -/
def StringRep.calls (rep : StringRep) (s : Bytes) (code : Nat) : List HashCall :=
  match rep with
  | .common => [⟨.whole, s, code⟩]
  | .left i j => if j ≤ s.length then [⟨.part, (s.drop i).take (j - i), code⟩] else []
  | _ => []

/-- The uses of the hasher for the strings of a list in turn. -/
def StringRep.callsFor (rep : StringRep) (ss : List Bytes) (ev : List HashCall) : Prop :=
  ∃ codes : List Nat, codes.length = ss.length ∧ ev = (List.zipWith rep.calls ss codes).flatten

/-- The kind of map chosen for `keys` and the hashing done to choose it. Fewer than four keys, or
lengths that are spread out: none. Otherwise the search above, with one key in twenty allowed to
repeat; `lo` and `hi` are the lengths of a shortest and a longest key. A map that hashes parts is built
if a place counted from the left is accepted that is not the whole of the longest keys, and one that
hashes whole keys if nothing is accepted. (If a place counted from the end is accepted, no map is
built: C03, C29.) -/
inductive Chooses (keys : List Bytes) : StringRep → List HashCall → Prop
  | few : keys.length < 4 → Chooses keys .scanning []
  | lengths : 4 ≤ keys.length → LengthsSpread keys → Chooses keys .length []
  | part (lo hi : Nat) (p : Place) (ev : List HashCall) : 4 ≤ keys.length → ¬ LengthsSpread keys →
      (∀ k ∈ keys, lo ≤ k.length ∧ k.length ≤ hi) → (∃ k ∈ keys, k.length = lo) →
      (∃ k ∈ keys, k.length = hi) → Searches (keys.length / 20) keys (searchOrder lo hi) (some p) ev →
      p.fromEnd = false → p.len < hi → Chooses keys (.left p.idx (p.idx + p.len)) ev
  | whole (lo hi : Nat) (o : Option Place) (ev : List HashCall) : 4 ≤ keys.length →
      ¬ LengthsSpread keys →
      (∀ k ∈ keys, lo ≤ k.length ∧ k.length ≤ hi) → (∃ k ∈ keys, k.length = lo) →
      (∃ k ∈ keys, k.length = hi) → Searches (keys.length / 20) keys (searchOrder lo hi) o ev →
      (∀ p, o = some p → p.fromEnd = false ∧ p.len = hi) → Chooses keys .common ev

/-- The keys an operation looks up when it shows `out`: `get_many_mut` looks up none if one is asked
for twice, all if it succeeds, and else the first few. -/
def MapOp.Asks (op : MapOp V Bytes) (out : Out Bytes V) (qs : List Bytes) : Prop :=
  match op with
  | .get q | .getKeyValue q | .containsKey q | .index q => qs = [q]
  | .getMut q _ | .indexMut q _ => qs = [q]
  | .getManyMut qvs =>
    if (qvs.map (·.1)).Nodup then
      qs <+: qvs.map (·.1) ∧ (qvs ≠ [] → qs ≠ []) ∧ (out ≠ .many none → qs = qvs.map (·.1))
    else qs = []
  | .len | .iter | .keys | .values => qs = []

/-- The uses of the hasher by a history on a map of kind `rep`. -/
inductive HashesAll (rep : StringRep) :
    List (MapOp V Bytes) → List (Out Bytes V) → List HashCall → Prop
  | nil : HashesAll rep [] [] []
  | cons (op : MapOp V Bytes) (ops : List (MapOp V Bytes)) (o : Out Bytes V)
      (os : List (Out Bytes V)) (qs : List Bytes) (ev ev' : List HashCall) : op.Asks o qs →
      rep.callsFor qs ev → HashesAll rep ops os ev' →
      HashesAll rep (op :: ops) (o :: os) (ev ++ ev')

/-- The uses of the hasher by building a map of `keys` and performing a history: the choice of a kind
of map, two passes over the keys, and then the lookups. -/
def StringCalls (keys : List Bytes) (ops : List (MapOp V Bytes)) (outs : List (Out Bytes V))
    (ev : List HashCall) : Prop :=
  ∃ (rep : StringRep) (choice pass₁ pass₂ rest : List HashCall),
    Chooses keys rep choice ∧ rep.callsFor keys pass₁ ∧ rep.callsFor keys pass₂ ∧
    HashesAll rep ops outs rest ∧ ev = choice ++ pass₁ ++ pass₂ ++ rest

end FC
