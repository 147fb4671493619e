import Verif.Spec.UserCode

/-
Which calls of the caller's `Hash` and `Eq` a map makes, in which order. The log of calls is kept
beside the state the caller's code works on, so that code cannot see it.
-/

set_option autoImplicit false

namespace FC
variable [Target]
variable {σ K V Q α : Type}

/-- One call of the caller's code, with its answer. -/
inductive CallEvent (K Q : Type) where
  /-- A key of the payload is hashed, to choose the size of the table. -/
  | sized (k : K) (code : Nat)
  /-- A key of the payload is hashed, to choose its place. -/
  | placed (k : K) (code : Nat)
  /-- The key asked for is hashed. -/
  | hashed (q : Q) (code : Nat)
  /-- The key asked for is compared with a stored key. -/
  | compared (q : Q) (k : K) (answer : Bool)
  /-- Two keys asked for together are compared. -/
  | paired (a b : Q) (answer : Bool)
  deriving DecidableEq

/-- Run `c` and add what it answered to the log. -/
def Call.noted {E : Type} (f : α → E) (c : Call σ α) : Call (σ × List E) α :=
  fun s => (c s.1).map (fun r => (r.1, (r.2, s.2 ++ [f r.1])))

/-- The caller's code with a log of calls. -/
def UserCode.logged (u : UserCode σ K Q) : UserCode (σ × List (CallEvent K Q)) K Q where
  sizeCode k := (u.sizeCode k).noted (.sized k)
  slotCode k := (u.slotCode k).noted (.placed k)
  probeCode q := (u.probeCode q).noted (.hashed q)
  isMatch q k := (u.isMatch q k).noted (.compared q k)
  isSame a b := (u.isSame a b).noted (.paired a b)

/-- Whenever `c` returns, it has added events to the log that satisfy `P`, together with its result. -/
def Logs {E : Type} (c : Call (σ × List E) α) (P : α → List E → Prop) : Prop :=
  ∀ s log a s' log', c (s, log) = .ok (a, (s', log')) → ∃ ev, log' = log ++ ev ∧ P a ev

/-- `q` is compared with the keys of the candidates in turn, until the first yes. -/
inductive Compares (q : Q) : List (K × V) → Option (K × V) → List (CallEvent K Q) → Prop
  | none : Compares q [] none []
  | hit (e : K × V) (es : List (K × V)) : Compares q (e :: es) (some e) [.compared q e.1 true]
  | miss (e : K × V) (es : List (K × V)) (o : Option (K × V)) (ev : List (CallEvent K Q)) :
      Compares q es o ev → Compares q (e :: es) o (.compared q e.1 false :: ev)

/-- How a hashed map stores its pairs: the number of slots, and for each stored pair, in order, the
hash code its key had when it was placed. -/
structure Layout where
  slots : Nat
  places : List Nat

/-- The stored pairs in the slot of a hash code: those placed by a code with the same remainder. -/
def Layout.mates (lay : Layout) (code : Nat) (d : List (K × V)) : List (K × V) :=
  ((d.zip lay.places).filter (fun x => x.2 % lay.slots = code % lay.slots)).map (·.1)

/-- A lookup of `q` in the stored pairs `d` that finds `o`. A scanning map compares `q` with the stored
keys; a hashed map hashes `q` once and compares it with the keys in the slot of the hash code. -/
inductive Looks (d : List (K × V)) (q : Q) :
    Option Layout → Option (K × V) → List (CallEvent K Q) → Prop
  | scan (o : Option (K × V)) (ev : List (CallEvent K Q)) : Compares q d o ev → Looks d q none o ev
  | table (lay : Layout) (code : Nat) (o : Option (K × V)) (ev : List (CallEvent K Q)) :
      Compares q (lay.mates code d) o ev → Looks d q (some lay) o (.hashed q code :: ev)

/-- All pairs of an earlier and a later element: the later ones in order, and for each the earlier
ones in order. -/
def pairsFrom (seen : List Q) : List Q → List (Q × Q)
  | [] => []
  | q :: qs => seen.map (fun s => (s, q)) ++ pairsFrom (seen ++ [q]) qs

/-- Pairs of keys asked for together are compared in turn, until the first yes. -/
inductive Pairs : List (Q × Q) → Bool → List (CallEvent K Q) → Prop
  | distinct : Pairs [] false []
  | same (ab : Q × Q) (l : List (Q × Q)) : Pairs (ab :: l) true [.paired ab.1 ab.2 true]
  | differ (ab : Q × Q) (l : List (Q × Q)) (b : Bool) (ev : List (CallEvent K Q)) :
      Pairs l b ev → Pairs (ab :: l) b (.paired ab.1 ab.2 false :: ev)

/-- Keys are looked up in turn, until the first that is missing. -/
inductive LooksAll (d : List (K × V)) (h : Option Layout) :
    List Q → Option (List (K × V)) → List (CallEvent K Q) → Prop
  | done : LooksAll d h [] (some []) []
  | missing (q : Q) (qs : List Q) (ev : List (CallEvent K Q)) : Looks d q h none ev →
      LooksAll d h (q :: qs) none ev
  | found (q : Q) (qs : List Q) (e : K × V) (o : Option (List (K × V)))
      (ev ev' : List (CallEvent K Q)) : Looks d q h (some e) ev → LooksAll d h qs o ev' →
      LooksAll d h (q :: qs) (o.map (e :: ·)) (ev ++ ev')

/-- The calls an operation makes on stored pairs `d` when it shows `out`; `h` is the layout of
a hashed map. -/
inductive Calls (d : List (K × V)) (h : Option Layout) : MapOp V Q → Out K V → List (CallEvent K Q) → Prop
  | get (q : Q) (o : Option (K × V)) (ev : List (CallEvent K Q)) : Looks d q h o ev →
      Calls d h (.get q) (.value (o.map (·.2))) ev
  | getKeyValue (q : Q) (o : Option (K × V)) (ev : List (CallEvent K Q)) : Looks d q h o ev →
      Calls d h (.getKeyValue q) (.entry o) ev
  | containsKey (q : Q) (o : Option (K × V)) (ev : List (CallEvent K Q)) : Looks d q h o ev →
      Calls d h (.containsKey q) (.bool o.isSome) ev
  | index (q : Q) (e : K × V) (ev : List (CallEvent K Q)) : Looks d q h (some e) ev →
      Calls d h (.index q) (.value (some e.2)) ev
  | len (n : Nat) : Calls d h .len (.number n) []
  | iter (l : List (K × V)) : Calls d h .iter (.items l) []
  | keys (l : List K) : Calls d h .keys (.keys l) []
  | values (l : List V) : Calls d h .values (.values l) []
  | getMut (q : Q) (v : V) (o : Option (K × V)) (ev : List (CallEvent K Q)) : Looks d q h o ev →
      Calls d h (.getMut q v) (.value (o.map (·.2))) ev
  | indexMut (q : Q) (v : V) (e : K × V) (ev : List (CallEvent K Q)) : Looks d q h (some e) ev →
      Calls d h (.indexMut q v) (.value (some e.2)) ev
  | repeated (qvs : List (Q × V)) (ev : List (CallEvent K Q)) :
      Pairs (pairsFrom [] (qvs.map (·.1))) true ev → Calls d h (.getManyMut qvs) (.many none) ev
  | many (qvs : List (Q × V)) (o : Option (List (K × V))) (ev ev' : List (CallEvent K Q)) :
      Pairs (pairsFrom [] (qvs.map (·.1))) false ev → LooksAll d h (qvs.map (·.1)) o ev' →
      Calls d h (.getManyMut qvs) (.many (o.map (fun es => es.map (·.2)))) (ev ++ ev')

/-- The calls a whole history makes; values may have been written in between, keys not. -/
inductive CallsAll (keys : List K) (h : Option Layout) :
    List (MapOp V Q) → List (Out K V) → List (CallEvent K Q) → Prop
  | nil : CallsAll keys h [] [] []
  | cons (d : List (K × V)) (op : MapOp V Q) (ops : List (MapOp V Q)) (o : Out K V)
      (os : List (Out K V)) (ev ev' : List (CallEvent K Q)) : d.map (·.1) = keys →
      Calls d h op o ev → CallsAll keys h ops os ev' →
      CallsAll keys h (op :: ops) (o :: os) (ev ++ ev')

/-- The calls made to build a hashed map over `payload` and to perform a history that showed `outs`.
Each key of the payload is hashed once, in order, then each once more, in order; keys are not compared.
After that the history makes the calls of Spec/Calls. A lookup hashes the key asked for once and
compares it with the stored keys of one slot, in stored order, up to the first yes; the number of
slots was chosen from the first hash codes, and a key's slot by its second. -/
def HashedCalls (payload : List (K × V)) (ops : List (MapOp V Q)) (outs : List (Out K V))
    (ev : List (CallEvent K Q)) : Prop :=
  ∃ (sizes codes : List Nat) (lay : Layout) (keys : List K) (rest : List (CallEvent K Q)),
    sizes.length = payload.length ∧ codes.length = payload.length ∧
    ev = List.zipWith (fun e c => .sized e.1 c) payload sizes ++
      List.zipWith (fun e c => .placed e.1 c) payload codes ++ rest ∧
    keys.length = lay.places.length ∧
    (keys.zip lay.places).Perm ((payload.map (·.1)).zip codes) ∧
    (payload ≠ [] → ∃ r, analyzeHashCodes sizes = .ok r ∧ lay.slots = r.numHashSlots) ∧
    CallsAll keys (some lay) ops outs rest

/-- Is this a hash of a key of the payload? -/
def CallEvent.ofPayload : CallEvent K Q → Prop
  | .sized _ _ => True
  | .placed _ _ => True
  | _ => False

end FC
