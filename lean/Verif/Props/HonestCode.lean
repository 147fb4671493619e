import Verif.Lemmas.HonestCode
import Verif.Props.Catch

/-
C93: keys whose code panics now and then, but is right whenever it answers. Every operation that returns
is right, after any panics caught before it.
-/

set_option autoImplicit false

namespace FC
variable {σ K V Q : Type}

/-! ### Any history: caught panics of the keys, of indexing, and of the caller -/

/-- A scan, `FrozenMap` with at most three pairs. -/
theorem C93_scanning_map {p : Prop} (u : UserCode σ K Q) {code : K → Nat} {probe : Q → Nat}
    {eq : Q → Q → Bool} {borrow : K → Q} (hu : u.Honest p code probe eq borrow) (payload : List (K × V))
    (hd : DistinctKeys (fun a b => eq (borrow a) (borrow b)) payload) (xs : List (Attempt V Q × σ)) :
    Behaves False False ((UMap.api u).caughtSession (pure (.scanning payload)) xs)
      (fun r => Dict.CaughtRun eq borrow p payload (xs.map (·.1)) r.1 r.2) := by
  unfold CallApi.caughtSession
  refine (Behaves.pure (a := UMap.scanning payload) (post := fun m => m = .scanning payload) rfl).bind
    (fun m hm => ?_)
  rw [hm]
  exact ((UMap.exact hu.answers).caughtRun xs (.scanning payload) trivial hd).bind fun r hr => .pure hr

/-- `FrozenMap` with a key type of the caller's own. -/
theorem C93_frozen_map [Target] {p : Prop} (env : Env) (u : UserCode σ K Q) {code : K → Nat}
    {probe : Q → Nat} {eq : Q → Q → Bool} {borrow : K → Q} (hu : u.Honest p code probe eq borrow)
    (payload : List (K × V)) (hd : DistinctKeys (fun a b => eq (borrow a) (borrow b)) payload)
    (h32 : payload.length < 2 ^ 32) (hbig : 2 ^ 31 ≤ payload.length → p) (xs : List (Attempt V Q × σ)) :
    Behaves False p ((UMap.api u).caughtSession (UMap.facade env u payload) xs)
      (fun r => ∃ d : List (K × V), d.Perm payload ∧
        Dict.CaughtRun eq borrow p d (xs.map (·.1)) r.1 r.2) :=
  (UMap.exact hu.answers).caughtSession (UMap.facade_honest env hu.answers (fun _ _ => trivial) h32 hbig) hd xs

/-- The hash-based maps. -/
theorem C93_hashed_map [Target] {p : Prop} (env : Env) (S : IdxTy) (u : UserCode σ K Q) {code : K → Nat}
    {probe : Q → Nat} {eq : Q → Q → Bool} {borrow : K → Q} (hu : u.Honest p code probe eq borrow)
    (payload : List (K × V)) (hd : DistinctKeys (fun a b => eq (borrow a) (borrow b)) payload)
    (h32 : payload.length < 2 ^ 32) (hbig : ¬ S.Holds payload.length → p) (xs : List (Attempt V Q × σ)) :
    Behaves False p ((UMap.api u).caughtSession (UMap.fromVec env S u payload) xs)
      (fun r => ∃ d : List (K × V), d.Perm payload ∧
        Dict.CaughtRun eq borrow p d (xs.map (·.1)) r.1 r.2) :=
  (UMap.exact hu.answers).caughtSession (UMap.fromVec_honest env hu.answers (fun _ _ => trivial) h32 hbig) hd xs

/-- `FrozenMap<String, V>` with a hasher that panics now and then. As in C92 the keys must not make the crate
try the ends of strings. -/
theorem C93_string_map [Target] {p : Prop} (env : Env) (h : HasherCode σ) {hk hw : Bytes → Nat}
    (hh : h.Honest p hk hw) (payload : List (Bytes × V)) (hd : (payload.map (·.1)).Nodup)
    (h32 : payload.length < 2 ^ 32) (hbig : 2 ^ 31 ≤ payload.length → p)
    (hlen : ∀ e ∈ payload, e.1.length < usz / 2) (xs : List (Attempt V Bytes × σ)) :
    Behaves (TriesEnds (payload.map (·.1))) (p ∨ TriesEnds (payload.map (·.1)))
      (do
        let m ← UMap.stringFacade env h payload
        (UMap.api (m.1.code env.oc h)).caughtSession (pure m.2) xs)
      (fun r => ∃ d : List (Bytes × V), d.Perm payload ∧
        Dict.CaughtRun (fun a b => decide (a = b)) id p d (xs.map (·.1)) r.1 r.2) := by
  refine (UMap.stringFacade_honest env hh h32 hbig (fun e he => by have := hlen e he; omega)).bind
    (fun m hm => ?_)
  obtain ⟨P, code, probe, ha, hm⟩ := hm
  refine ((UMap.exact ha).caughtSession (build := pure m.2) (payload := payload) (.pure hm) ?_ xs).mono
    False.elim Or.inl (fun _ h => h)
  exact (List.pairwise_map.1 hd).imp fun hne => by simpa [beq] using hne

/-! ### Panics of the keys and of indexing only -/

/-- The operations that returned, and what they showed. -/
def whatReturned (ops : List (MapOp V Q)) (outs : List (Option (Out K V))) :
    List (MapOp V Q × Out K V) :=
  (ops.zip outs).filterMap fun x => x.2.map fun out => (x.1, out)

/-- The operations that panicked might as well not have been called: those that returned show what they
show on a dictionary on which nothing else is done. -/
theorem C93_as_if_never_called [Target] {p : Prop} (env : Env) (u : UserCode σ K Q) {code : K → Nat}
    {probe : Q → Nat} {eq : Q → Q → Bool} {borrow : K → Q} (hu : u.Honest p code probe eq borrow)
    (payload : List (K × V)) (hd : DistinctKeys (fun a b => eq (borrow a) (borrow b)) payload)
    (h32 : payload.length < 2 ^ 32) (hbig : 2 ^ 31 ≤ payload.length → p) (ops : List (MapOp V Q × σ)) :
    Behaves False p
      ((UMap.api u).caughtSession (UMap.facade env u payload) (ops.map fun x => (⟨x.1, none⟩, x.2)))
      (fun r => r.1.length = ops.length ∧ ∃ d : List (K × V), d.Perm payload ∧
        Dict.run eq borrow d ((whatReturned (ops.map (·.1)) r.1).map (·.1))
          = .ok ((whatReturned (ops.map (·.1)) r.1).map (·.2), r.2)) := by
  refine (C93_frozen_map env u hu payload hd h32 hbig _).mono id id ?_
  rintro r ⟨d, hp, hr⟩
  rw [List.map_map] at hr
  obtain ⟨h1, h2⟩ := Dict.CaughtRun.returned (ops := ops.map (·.1)) (os := r.1) (d := d) (d' := r.2)
    (by rw [List.map_map]; exact hr)
  exact ⟨by simpa using h1, d, hp, h2⟩

/-- If the keys never panic, there is one outcome only for each history. -/
theorem C93_determined {eq : Q → Q → Bool} {borrow : K → Q} {d d₁ d₂ : List (K × V)}
    {xs : List (Attempt V Q)} {os₁ os₂ : List (Option (Out K V))}
    (h₁ : Dict.CaughtRun eq borrow False d xs os₁ d₁) (h₂ : Dict.CaughtRun eq borrow False d xs os₂ d₂) :
    os₁ = os₂ ∧ d₁ = d₂ :=
  h₁.unique h₂

/-! ### Concrete histories -/

/-- Keys that are right whenever they answer, and panic at every call whose number leaves 5 modulo 7. -/
def honestCode : UserCode Nat Nat Nat where
  sizeCode _ := fun s => if s % 7 = 5 then .panic else .ok (s, s + 1)
  slotCode k := fun s => if s % 7 = 5 then .panic else .ok (k % 10, s + 1)
  probeCode q := fun s => if s % 7 = 5 then .panic else .ok (q % 10, s + 1)
  isMatch q k := fun s => if s % 7 = 5 then .panic else .ok (q == k, s + 1)
  isSame a b := fun s => if s % 7 = 5 then .panic else .ok (a == b, s + 1)

theorem honestCode_honest :
    honestCode.Honest True (fun k => k % 10) (fun q => q % 10) (fun a b => a == b) id := by
  refine ⟨?_, ?_, ?_, ?_, ?_, ⟨by simp, by simp +contextual, by simp +contextual⟩, by simp +contextual⟩
  · intro k s; by_cases h : s % 7 = 5 <;> simp [honestCode, h]
  · intro k s; by_cases h : s % 7 = 5 <;> simp [honestCode, h]
  · intro k s; by_cases h : s % 7 = 5 <;> simp [honestCode, h]
  · intro q k s; by_cases h : s % 7 = 5 <;> simp [honestCode, h]
  · intro a b s; by_cases h : s % 7 = 5 <;> simp [honestCode, h]

/-- The first lookup panics in the keys and is repeated; of two writes the caller does one; indexing with
an absent key panics. -/
def exHonest : List (Attempt Nat Nat × Nat) :=
  [(⟨.getMut 2 99, none⟩, 6), (⟨.getMut 2 99, none⟩, 6), (⟨.getManyMut [(1, 7), (2, 8)], some 1⟩, 6),
    (⟨.index 17, none⟩, 6), (⟨.get 2, none⟩, 6), (⟨.iter, none⟩, 0)]

set_option synthInstance.maxSize 1000 in
example : (UMap.api honestCode).caughtSession (pure (.scanning [(1, 10), (2, 20), (3, 30)])) exHonest 4
    = .ok (([none, some (.value (some 20)), none, none, some (.value (some 99)),
        some (.items [(1, 7), (2, 99), (3, 30)])], [(1, 7), (2, 99), (3, 30)]), 8) := by decide +kernel

theorem exFive_distinct : DistinctKeys (fun a b : Nat => id a == id b) exFive := by
  unfold DistinctKeys
  decide

example := C93_scanning_map honestCode honestCode_honest exFive exFive_distinct exHonest

example := C93_frozen_map checkedEnv honestCode honestCode_honest exFive exFive_distinct (by decide)
  (fun _ => trivial) exHonest

example := C93_hashed_map checkedEnv IdxTy.u8 honestCode honestCode_honest exFive exFive_distinct (by decide)
  (fun _ => trivial) exHonest

example := C93_as_if_never_called checkedEnv honestCode honestCode_honest exFive exFive_distinct (by decide)
  (fun _ => trivial) [(.getMut 3 99, 6), (.index 17, 6), (.iter, 0)]

/-- The sum of the bytes of a string. -/
def byteSum (k : Bytes) : Nat := (k.map UInt8.toNat).sum

/-- A hasher that is right whenever it answers, and panics now and then. -/
def honestHasher : HasherCode Nat where
  hashKey k := fun s => if s % 7 = 5 then .panic else .ok (byteSum k, s + 1)
  hashSub _ := fun s => if s % 7 = 5 then .panic else .ok (s, s + 1)
  writeSub k := fun s => if s % 7 = 5 then .panic else .ok (byteSum k, s + 1)

theorem honestHasher_honest : honestHasher.Honest True byteSum byteSum := by
  refine ⟨?_, ?_, ?_⟩
  · intro k s; by_cases h : s % 7 = 5 <;> simp [honestHasher, h]
  · intro k s; by_cases h : s % 7 = 5 <;> simp [honestHasher, h]
  · intro k s; by_cases h : s % 7 = 5 <;> simp [honestHasher, h]

example (xs : List (Attempt Nat Bytes × Nat)) :=
  C93_string_map checkedEnv honestHasher honestHasher_honest sameLenKeys (by decide) (by decide)
    (fun _ => trivial) (by decide) xs

end FC
