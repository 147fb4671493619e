import Verif.Lemmas.UserCodeAgree
import Verif.Examples

/-
C56: broken, changing or panicking key types never cause undefined behaviour.
-/

set_option autoImplicit false

namespace FC
variable {σ K V Q : Type}

theorem UMap.session_behaves {p : Prop} {u : UserCode σ K Q} (hu : u.SafeLookup p)
    {build : Call σ (UMap K V)} {payload : List (K × V)}
    (hb : Behaves False p build (fun m => m.OK ∧ m.entries.Perm payload))
    (ops : List (MapOp V Q)) :
    Behaves (¬ u.EqOK ∧ ∃ op ∈ ops, op.isMany) (p ∨ ∃ op ∈ ops, op.isIndex)
      (UMap.session u build ops)
      (fun outs => ∃ d : List (K × V), d.Perm payload ∧ Loose.Run u.MayMatch d ops outs) := by
  unfold UMap.session
  refine (hb.mono False.elim Or.inl (fun _ h => h)).bind (fun m hm => ?_)
  refine (UMap.run_behaves hu ops ?_ m hm.1).bind (fun r hr => .pure ⟨_, hm.2, hr.2.1⟩)
  intro op hop hmany
  by_cases h : u.EqOK
  · exact .inl h
  · exact .inr ⟨h, op, hop, hmany⟩

/-- `FrozenMap` with a key type of the caller's own. Whatever its `Hash` and `Eq` answer, and however
the answers change from call to call: building the map and performing any history has no undefined
behaviour, unless `get_many_mut` is asked for two references and `Eq` is not an equivalence (see
C09). It panics only if the caller's code panics (`p`), the history indexes or there are 2^31 pairs or
more, which `p` must then allow. And what is seen is what a
list of the given pairs can show when each lookup picks an entry, or none, as it likes, among those
whose key the caller's `Eq` accepts for the probe: no entry is ever lost, invented or damaged, and
none is found for a probe that `Eq` never calls equal to its key. -/
theorem C56_frozen_map [Target] {p : Prop} (env : Env) (u : UserCode σ K K) (hu : u.Safe p)
    (payload : List (K × V)) (hbig : 2 ^ 31 ≤ payload.length → p) (ops : List (MapOp V K)) :
    Behaves (¬ u.EqOK ∧ ∃ op ∈ ops, op.isMany) (p ∨ ∃ op ∈ ops, op.isIndex)
      (UMap.session u (UMap.facade env u payload) ops)
      (fun outs => ∃ d : List (K × V), d.Perm payload ∧ Loose.Run u.MayMatch d ops outs) :=
  UMap.session_behaves hu.toSafeLookup (UMap.facade_behaves env hu hbig) ops

/-- `ScanningMap`: only `Eq` is called. -/
theorem C56_scanning_map {p : Prop} (u : UserCode σ K Q) (hu : u.Safe p)
    (payload : List (K × V)) (ops : List (MapOp V Q)) :
    Behaves (¬ u.EqOK ∧ ∃ op ∈ ops, op.isMany) (p ∨ ∃ op ∈ ops, op.isIndex)
      (UMap.session u (pure (.scanning payload)) ops)
      (fun outs => ∃ d : List (K × V), d.Perm payload ∧ Loose.Run u.MayMatch d ops outs) :=
  UMap.session_behaves hu.toSafeLookup
    (.pure (show (UMap.scanning payload).OK ∧ _ from ⟨trivial, .refl _⟩)) ops

/-- `CommonMap`, with a `BuildHasher` that may misbehave too. Here and below the payload may be of any
size: when the map cannot hold it (C68), `p` must allow a panic, and nothing worse happens. -/
theorem C56_common_map [Target] {p : Prop} (env : Env) (S : IdxTy)
    (hashK : K → Call σ Nat) (hashQ : Q → Call σ Nat) (isMatch : Q → K → Call σ Bool)
    (isSame : Q → Q → Call σ Bool)
    (hK : ∀ k, Behaves False p (hashK k) (fun _ => True))
    (hQ : ∀ q, Behaves False p (hashQ q) (fun _ => True))
    (hM : ∀ q k, Behaves False p (isMatch q k) (fun _ => True))
    (hE : ∀ a b, Behaves False p (isSame a b) (fun _ => True))
    (payload : List (K × V)) (hbig : ¬ S.Holds payload.length → p) (ops : List (MapOp V Q)) :
    Behaves (¬ (commonCode hashK hashQ isMatch isSame).EqOK ∧ ∃ op ∈ ops, op.isMany)
      (p ∨ ∃ op ∈ ops, op.isIndex)
      (UMap.session (commonCode hashK hashQ isMatch isSame)
        (UMap.fromVec env S (commonCode hashK hashQ isMatch isSame) payload) ops)
      (fun outs => ∃ d : List (K × V), d.Perm payload ∧
        Loose.Run (commonCode hashK hashQ isMatch isSame).MayMatch d ops outs) :=
  have hu : (commonCode hashK hashQ isMatch isSame).Safe p := .of hK hK hQ hM hE
  UMap.session_behaves hu.toSafeLookup (UMap.fromVec_behaves env hu hbig) ops

/-- `LengthMap` with any `Len`, and `IntegerMap` with any `AsPrimitive<u64>`. -/
theorem C56_length_map [Target] {p : Prop} (env : Env) (S : IdxTy)
    (lenK : K → Call σ Nat) (lenQ : Q → Call σ Nat) (isMatch : Q → K → Call σ Bool)
    (isSame : Q → Q → Call σ Bool)
    (hK : ∀ k, Behaves False p (lenK k) (fun _ => True))
    (hQ : ∀ q, Behaves False p (lenQ q) (fun _ => True))
    (hM : ∀ q k, Behaves False p (isMatch q k) (fun _ => True))
    (hE : ∀ a b, Behaves False p (isSame a b) (fun _ => True))
    (payload : List (K × V)) (hbig : ¬ S.Holds payload.length → p) (ops : List (MapOp V Q)) :
    Behaves (¬ (lengthCode lenK lenQ isMatch isSame).EqOK ∧ ∃ op ∈ ops, op.isMany)
      (p ∨ ∃ op ∈ ops, op.isIndex)
      (UMap.session (lengthCode lenK lenQ isMatch isSame)
        (UMap.fromVec env S (lengthCode lenK lenQ isMatch isSame) payload) ops)
      (fun outs => ∃ d : List (K × V), d.Perm payload ∧
        Loose.Run (lengthCode lenK lenQ isMatch isSame).MayMatch d ops outs) :=
  have hu : (lengthCode lenK lenQ isMatch isSame).Safe p := .of hK hK hQ hM hE
  UMap.session_behaves hu.toSafeLookup (UMap.fromVec_behaves env hu hbig) ops

/-- `LeftSliceMap` over a key type with its own `Len` and `SliceHash`, for every range. -/
theorem C56_left_slice_map [Target] {p : Prop} (env : Env) (S : IdxTy)
    (a b : Nat) (lenK : K → Call σ Nat)
    (hashK : K → Nat → Nat → Call σ Nat) (lenQ : Q → Call σ Nat)
    (hashQ : Q → Nat → Nat → Call σ Nat) (isMatch : Q → K → Call σ Bool)
    (isSame : Q → Q → Call σ Bool)
    (hlK : ∀ k, Behaves False p (lenK k) (fun _ => True))
    (hhK : ∀ k i j, Behaves False p (hashK k i j) (fun _ => True))
    (hlQ : ∀ q, Behaves False p (lenQ q) (fun _ => True))
    (hhQ : ∀ q i j, Behaves False p (hashQ q i j) (fun _ => True))
    (hM : ∀ q k, Behaves False p (isMatch q k) (fun _ => True))
    (hE : ∀ a b, Behaves False p (isSame a b) (fun _ => True))
    (payload : List (K × V)) (hbig : ¬ S.Holds payload.length → p) (ops : List (MapOp V Q)) :
    Behaves (¬ (leftCode a b lenK hashK lenQ hashQ isMatch isSame).EqOK ∧ ∃ op ∈ ops, op.isMany)
      (p ∨ ∃ op ∈ ops, op.isIndex)
      (UMap.session (leftCode a b lenK hashK lenQ hashQ isMatch isSame)
        (UMap.fromVec env S (leftCode a b lenK hashK lenQ hashQ isMatch isSame) payload) ops)
      (fun outs => ∃ d : List (K × V), d.Perm payload ∧
        Loose.Run (leftCode a b lenK hashK lenQ hashQ isMatch isSame).MayMatch d ops outs) :=
  have hu : (leftCode a b lenK hashK lenQ hashQ isMatch isSame).Safe p :=
    .of (fun k => (hlK k).bind (fun _ _ => .ite (fun _ => hhK k a b) (fun _ => .pure trivial)))
      (fun k => hhK k a b)
      (fun q => (hlQ q).bind (fun _ _ => .ite (fun _ => hhQ q a b) (fun _ => .pure trivial))) hM hE
  UMap.session_behaves hu.toSafeLookup (UMap.fromVec_behaves env hu hbig) ops

theorem rightCall_behaves [Target] {X : Type} {p : Prop} {oc : Bool} {a b : Nat} {len : X → Call σ Nat}
    {hash : X → Nat → Nat → Call σ Nat} (hl : ∀ x, Behaves False p (len x) (fun _ => True))
    (hh : ∀ x i j, Behaves False p (hash x i j) (fun _ => True)) (x : X) :
    Behaves False (p ∨ oc = true) (rightCall oc a b len hash x) (fun _ => True) := by
  have hs : ∀ n k : Nat, Behaves False (p ∨ oc = true) (Call.lift (usub oc n k) : Call σ Nat)
      (fun _ => True) := by
    intro n k s
    unfold Call.lift usub
    generalize n + usz - k = w
    by_cases h : k ≤ n
    · rw [if_pos h]; trivial
    · rw [if_neg h]
      cases oc with
      | true => exact Or.inr rfl
      | false => trivial
  unfold rightCall
  refine ((hl x).mono id Or.inl (fun _ h => h)).bind (fun n _ => (hs n a).bind (fun lo _ => ?_))
  refine ((hl x).mono id Or.inl (fun _ h => h)).bind (fun n _ => (hs n b).bind (fun hi _ => ?_))
  exact (hh x lo hi).mono id Or.inl (fun _ h => h)

/-- `RightSliceMap` over a key type with its own `Len` and `SliceHash`, for every range. In builds
with overflow checks the subtractions from `len` may panic; without, the range handed to the key
type's `hash` may be wrong, which is the key type's business. (String keys, whose `hash` is this
crate's own unsafe code, are C28 and C29.) -/
theorem C56_right_slice_map [Target] {p : Prop} (env : Env) (S : IdxTy)
    (oc : Bool) (a b : Nat) (lenK : K → Call σ Nat)
    (hashK : K → Nat → Nat → Call σ Nat) (lenQ : Q → Call σ Nat)
    (hashQ : Q → Nat → Nat → Call σ Nat) (isMatch : Q → K → Call σ Bool)
    (isSame : Q → Q → Call σ Bool)
    (hlK : ∀ k, Behaves False p (lenK k) (fun _ => True))
    (hhK : ∀ k i j, Behaves False p (hashK k i j) (fun _ => True))
    (hlQ : ∀ q, Behaves False p (lenQ q) (fun _ => True))
    (hhQ : ∀ q i j, Behaves False p (hashQ q i j) (fun _ => True))
    (hM : ∀ q k, Behaves False p (isMatch q k) (fun _ => True))
    (hE : ∀ a b, Behaves False p (isSame a b) (fun _ => True))
    (payload : List (K × V)) (hbig : ¬ S.Holds payload.length → p) (ops : List (MapOp V Q)) :
    Behaves (¬ (rightCode oc a b lenK hashK lenQ hashQ isMatch isSame).EqOK ∧
        ∃ op ∈ ops, op.isMany)
      ((p ∨ oc = true) ∨ ∃ op ∈ ops, op.isIndex)
      (UMap.session (rightCode oc a b lenK hashK lenQ hashQ isMatch isSame)
        (UMap.fromVec env S (rightCode oc a b lenK hashK lenQ hashQ isMatch isSame) payload) ops)
      (fun outs => ∃ d : List (K × V), d.Perm payload ∧
        Loose.Run (rightCode oc a b lenK hashK lenQ hashQ isMatch isSame).MayMatch d ops outs) :=
  have hu : (rightCode oc a b lenK hashK lenQ hashQ isMatch isSame).Safe (p ∨ oc = true) :=
    .of (fun k => ((hlK k).mono id Or.inl (fun _ h => h)).bind
        (fun _ _ => .ite (fun _ => rightCall_behaves hlK hhK k) (fun _ => .pure trivial)))
      (fun k => rightCall_behaves hlK hhK k)
      (fun q => ((hlQ q).mono id Or.inl (fun _ h => h)).bind
        (fun _ _ => .ite (fun _ => rightCall_behaves hlQ hhQ q) (fun _ => .pure trivial)))
      (fun q k => (hM q k).mono id Or.inl (fun _ h => h))
      (fun x y => (hE x y).mono id Or.inl (fun _ h => h))
  UMap.session_behaves hu.toSafeLookup (UMap.fromVec_behaves env hu (fun h => Or.inl (hbig h))) ops

theorem UMap.eqSession_behaves {p : Prop} {u₁ u₂ : UserCode σ K K} (hu₁ : u₁.SafeLookup p)
    (hu₂ : u₂.SafeLookup p) {veq : V → V → Call σ Bool}
    (hv : ∀ a b, Behaves False p (veq a b) (fun _ => True)) {p₁ p₂ : List (K × V)}
    {b₁ b₂ : Call σ (UMap K V)} (h₁ : Behaves False p b₁ (fun m => m.OK ∧ m.entries.Perm p₁))
    (h₂ : Behaves False p b₂ (fun m => m.OK ∧ m.entries.Perm p₂)) (ops₁ ops₂ : List (MapOp V K)) :
    Behaves ((¬ u₁.EqOK ∧ ∃ op ∈ ops₁, op.isMany) ∨ (¬ u₂.EqOK ∧ ∃ op ∈ ops₂, op.isMany))
      (p ∨ ∃ op ∈ ops₁ ++ ops₂, op.isIndex)
      (UMap.eqSession u₁ u₂ veq b₁ b₂ ops₁ ops₂)
      (fun b => b = true → p₁.length = p₂.length) := by
  unfold UMap.eqSession
  refine (h₁.mono False.elim Or.inl (fun _ h => h)).bind (fun m₁ hm₁ => ?_)
  refine (h₂.mono False.elim Or.inl (fun _ h => h)).bind (fun m₂ hm₂ => ?_)
  refine ((UMap.run_behaves (U := ¬ u₁.EqOK ∧ ∃ op ∈ ops₁, op.isMany) hu₁ ops₁
    (fun op h1 h2 => (Classical.em u₁.EqOK).imp id (fun h => ⟨h, op, h1, h2⟩)) m₁ hm₁.1).mono Or.inl
    (Or.imp id (fun ⟨op, h1, h2⟩ => ⟨op, by simp [h1], h2⟩)) (fun _ h => h)).bind (fun r₁ hr₁ => ?_)
  refine ((UMap.run_behaves (U := ¬ u₂.EqOK ∧ ∃ op ∈ ops₂, op.isMany) hu₂ ops₂
    (fun op h1 h2 => (Classical.em u₂.EqOK).imp id (fun h => ⟨h, op, h1, h2⟩)) m₂ hm₂.1).mono Or.inr
    (Or.imp id (fun ⟨op, h1, h2⟩ => ⟨op, by simp [h1], h2⟩)) (fun _ h => h)).bind (fun r₂ hr₂ => ?_)
  refine (UMap.partialEq_behaves hu₂ hv hr₂.1).mono False.elim Or.inl (fun b hb h => ?_)
  have := hb h
  unfold UMap.len at this
  rw [hr₁.2.2, hr₂.2.2, hm₁.2.length_eq, hm₂.2.length_eq] at this
  exact this

/-- `==` of two `FrozenMap`s, after any histories: no undefined behaviour but that of the histories
(the exception of C09), a panic only from the caller's code or from indexing, and `true` only for maps
of one length. -/
theorem C56_eq [Target] {p : Prop} (env : Env) (u : UserCode σ K K) (hu : u.Safe p)
    (veq : V → V → Call σ Bool) (hv : ∀ a b, Behaves False p (veq a b) (fun _ => True))
    (payload₁ payload₂ : List (K × V)) (h₁ : 2 ^ 31 ≤ payload₁.length → p)
    (h₂ : 2 ^ 31 ≤ payload₂.length → p) (ops₁ ops₂ : List (MapOp V K)) :
    Behaves ((¬ u.EqOK ∧ ∃ op ∈ ops₁, op.isMany) ∨ (¬ u.EqOK ∧ ∃ op ∈ ops₂, op.isMany))
      (p ∨ ∃ op ∈ ops₁ ++ ops₂, op.isIndex)
      (UMap.eqSession u u veq (UMap.facade env u payload₁) (UMap.facade env u payload₂) ops₁ ops₂)
      (fun b => b = true → payload₁.length = payload₂.length) :=
  UMap.eqSession_behaves hu.toSafeLookup hu.toSafeLookup hv (UMap.facade_behaves env hu h₁)
    (UMap.facade_behaves env hu h₂) ops₁ ops₂

/-- The same for two scanning maps. -/
theorem C56_eq_scanning {p : Prop} (u : UserCode σ K K) (hu : u.Safe p)
    (veq : V → V → Call σ Bool) (hv : ∀ a b, Behaves False p (veq a b) (fun _ => True))
    (payload₁ payload₂ : List (K × V)) (ops₁ ops₂ : List (MapOp V K)) :
    Behaves ((¬ u.EqOK ∧ ∃ op ∈ ops₁, op.isMany) ∨ (¬ u.EqOK ∧ ∃ op ∈ ops₂, op.isMany))
      (p ∨ ∃ op ∈ ops₁ ++ ops₂, op.isIndex)
      (UMap.eqSession u u veq (pure (.scanning payload₁)) (pure (.scanning payload₂)) ops₁ ops₂)
      (fun b => b = true → payload₁.length = payload₂.length) :=
  UMap.eqSession_behaves hu.toSafeLookup hu.toSafeLookup hv
    (.pure (a := UMap.scanning payload₁) ⟨trivial, .refl _⟩)
    (.pure (a := UMap.scanning payload₂) ⟨trivial, .refl _⟩) ops₁ ops₂

/-- The same for two hash-based maps of any kind, whose code for hashing and comparing may also differ
(other hashers, other slices). -/
theorem C56_eq_hashed [Target] {p : Prop} (env : Env) (S : IdxTy) (u₁ u₂ : UserCode σ K K)
    (hu₁ : u₁.Safe p) (hu₂ : u₂.Safe p)
    (veq : V → V → Call σ Bool) (hv : ∀ a b, Behaves False p (veq a b) (fun _ => True))
    (payload₁ payload₂ : List (K × V)) (h₁ : ¬ S.Holds payload₁.length → p)
    (h₂ : ¬ S.Holds payload₂.length → p) (ops₁ ops₂ : List (MapOp V K)) :
    Behaves ((¬ u₁.EqOK ∧ ∃ op ∈ ops₁, op.isMany) ∨ (¬ u₂.EqOK ∧ ∃ op ∈ ops₂, op.isMany))
      (p ∨ ∃ op ∈ ops₁ ++ ops₂, op.isIndex)
      (UMap.eqSession u₁ u₂ veq (UMap.fromVec env S u₁ payload₁) (UMap.fromVec env S u₂ payload₂)
        ops₁ ops₂)
      (fun b => b = true → payload₁.length = payload₂.length) :=
  UMap.eqSession_behaves hu₁.toSafeLookup hu₂.toSafeLookup hv (UMap.fromVec_behaves env hu₁ h₁)
    (UMap.fromVec_behaves env hu₂ h₂) ops₁ ops₂

/-! ### Non-vacuity -/

/-- A key type that counts the calls made to it and lets the count decide every answer. -/
def moodyCode : UserCode Nat Nat Nat where
  sizeCode k := fun s => .ok (k * s, s + 1)
  slotCode k := fun s => .ok (k + s * s, s + 1)
  probeCode q := fun s => .ok (q + s, s + 1)
  isMatch _ _ := fun s => .ok (s % 3 != 0, s + 1)
  isSame _ _ := fun s => .ok (s % 2 == 0, s + 1)

theorem moodyCode_safe : moodyCode.Safe False :=
  .of (fun _ _ => trivial) (fun _ _ => trivial) (fun _ _ => trivial) (fun _ _ _ => trivial)
    (fun _ _ _ => trivial)

/-- Five entries under such a key type: the same lookup finds different entries, or none, and the
entries stay what they are. -/
example : UMap.session moodyCode (UMap.facade checkedEnv moodyCode
      [(1, 10), (2, 20), (3, 30), (4, 40), (5, 50)])
      [.getKeyValue 1, .getKeyValue 1, .getMut 1 99, .getKeyValue 1, .getKeyValue 1, .getMut 1 98,
        .getMut 1 97, .len, .iter] 0
    = .ok ([.entry none, .entry none, .value (some 40), .entry none, .entry none, .value none,
        .value (some 30), .number 5, .items [(5, 50), (3, 97), (2, 20), (1, 10), (4, 99)]], 20) := by decide +kernel

example : Behaves False (∃ op ∈ ([.get 1, .getMut 1 99, .iter] : List (MapOp Nat Nat)), op.isIndex)
    (UMap.session moodyCode (UMap.facade checkedEnv moodyCode
      [(1, 10), (2, 20), (3, 30), (4, 40), (5, 50)]) [.get 1, .getMut 1 99, .iter])
    (fun outs => ∃ d : List (Nat × Nat), d.Perm [(1, 10), (2, 20), (3, 30), (4, 40), (5, 50)] ∧
      Loose.Run moodyCode.MayMatch d [.get 1, .getMut 1 99, .iter] outs) :=
  (C56_frozen_map checkedEnv moodyCode moodyCode_safe _ (by decide) _).mono
    (by simp [MapOp.isMany]) (by simp) (fun _ h => h)

/-- The same with an honest `Eq`: `EqOK` holds, so nothing is undefined, not even `get_many_mut`. -/
def moodyHash : UserCode Nat Nat Nat where
  sizeCode := moodyCode.sizeCode
  slotCode := moodyCode.slotCode
  probeCode := moodyCode.probeCode
  isMatch q k := fun s => .ok (q == k, s + 1)
  isSame a b := fun s => .ok (a == b, s + 1)

theorem moodyHash_eqOK : moodyHash.EqOK :=
  ⟨Nat, id, id, fun q k s => by simp [moodyHash], fun a b s => by simp [moodyHash]⟩

/-- The exception is real: with an `Eq` that says yes to everything stored and no between probes,
two references to one value are handed out. -/
def aliasCode : UserCode Nat Nat Nat where
  sizeCode := moodyCode.sizeCode
  slotCode := moodyCode.slotCode
  probeCode := moodyCode.probeCode
  isMatch _ _ := fun s => .ok (true, s + 1)
  isSame _ _ := fun s => .ok (false, s + 1)

example : UMap.session aliasCode (UMap.facade checkedEnv aliasCode [(1, 10)])
    [.getManyMut [(1, 5), (2, 6)]] 0 = .ub := by decide +kernel

theorem moodyVeq (a b : Nat) :
    Behaves False False (fun s : Nat => .ok (a == b && s % 3 == 0, s + 1)) (fun _ => True) :=
  fun _ => trivial

example := C56_scanning_map moodyCode moodyCode_safe [(1, 10), (2, 20), (3, 30), (4, 40), (5, 50)]
  [.getKeyValue 1, .getMut 1 99, .len]

example := C56_common_map (p := False) checkedEnv IdxTy.u8 (fun k s => .ok (k + s, s + 1)) (fun k s => .ok (k * s, s + 1))
  moodyCode.isMatch moodyCode.isSame (fun _ _ => trivial) (fun _ _ => trivial) (fun _ _ _ => trivial)
  (fun _ _ _ => trivial) [(1, 10), (2, 20), (3, 30), (4, 40), (5, 50)]
  (fun h => h ⟨255, by decide, by decide⟩) [.getKeyValue 1, .getMut 1 99, .len]

example := C56_length_map (p := False) checkedEnv IdxTy.u8 (fun k s => .ok (k + s, s + 1)) (fun k s => .ok (k * s, s + 1))
  moodyCode.isMatch moodyCode.isSame (fun _ _ => trivial) (fun _ _ => trivial) (fun _ _ _ => trivial)
  (fun _ _ _ => trivial) [(1, 10), (2, 20), (3, 30), (4, 40), (5, 50)]
  (fun h => h ⟨255, by decide, by decide⟩) [.getKeyValue 1, .getMut 1 99, .len]

example := C56_left_slice_map (p := False) checkedEnv IdxTy.u8 1 2 (fun k s => .ok (k + s, s + 1))
  (fun k i j s => .ok (k * i + j * s, s + 1)) (fun k s => .ok (k * s, s + 1)) (fun k i j s => .ok (k + i + j + s, s + 1))
  moodyCode.isMatch moodyCode.isSame (fun _ _ => trivial) (fun _ _ _ _ => trivial) (fun _ _ => trivial)
  (fun _ _ _ _ => trivial) (fun _ _ _ => trivial) (fun _ _ _ => trivial)
  [(1, 10), (2, 20), (3, 30), (4, 40), (5, 50)] (fun h => h ⟨255, by decide, by decide⟩)
  [.getKeyValue 1, .getMut 1 99, .len]

example := C56_right_slice_map (p := False) checkedEnv IdxTy.u8 false 2 1 (fun k s => .ok (k + s, s + 1))
  (fun k i j s => .ok (k * i + j * s, s + 1)) (fun k s => .ok (k * s, s + 1)) (fun k i j s => .ok (k + i + j + s, s + 1))
  moodyCode.isMatch moodyCode.isSame (fun _ _ => trivial) (fun _ _ _ _ => trivial) (fun _ _ => trivial)
  (fun _ _ _ _ => trivial) (fun _ _ _ => trivial) (fun _ _ _ => trivial)
  [(1, 10), (2, 20), (3, 30), (4, 40), (5, 50)] (fun h => h ⟨255, by decide, by decide⟩)
  [.getKeyValue 1, .getMut 1 99, .len]

example := C56_eq checkedEnv moodyCode moodyCode_safe _ moodyVeq [(1, 10), (2, 20), (3, 30), (4, 40), (5, 50)]
  [(5, 10), (2, 20), (3, 30), (4, 40), (5, 50)] (by decide) (by decide) [.getMut 1 99] [.get 2]

example := C56_eq_scanning moodyCode moodyCode_safe _ moodyVeq [(1, 10), (2, 20), (3, 30)]
  [(5, 10), (2, 20), (3, 30)] [.getMut 1 99] [.get 2]

example := C56_eq_hashed checkedEnv IdxTy.u8 moodyCode moodyCode moodyCode_safe moodyCode_safe _ moodyVeq
  [(1, 10), (2, 20), (3, 30), (4, 40), (5, 50)] [(5, 10), (2, 20), (3, 30), (4, 40), (5, 50)]
  (fun h => h ⟨255, by decide, by decide⟩) (fun h => h ⟨255, by decide, by decide⟩) [.getMut 1 99] [.get 2]

end FC
