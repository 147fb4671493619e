import Verif.Lemmas.SetLookups
import Verif.Props.StringCalls
import Verif.Props.SetCode

/-
C71: sets of elements, or with hashers, that misbehave.
-/

set_option autoImplicit false

namespace FC
variable {σ T Q : Type}

/-! ### Element types of the caller's own -/

/-- `FrozenSet` over an element type of the caller's own. Whatever its `Hash` and `Eq` answer, and
however the answers change: building the set and asking any sequence of questions has no undefined
behaviour, panics only if the caller's code does (`p`, which must also allow for 2^31 elements or
more), and shows only given elements that `Eq` can call equal to the value asked for; length and
iteration are exact. -/
theorem C71_frozen_set [Target] {p : Prop} (env : Env) (u : UserCode σ T T) (hu : u.Safe p)
    (payload : List T) (hbig : 2 ^ 31 ≤ payload.length → p) (asks : List (SetAsk T)) :
    Behaves False p (UMap.setSession u (UMap.setFacade env u payload) asks)
      (SetMayShow u.MayMatch payload asks) := by
  rw [UMap.setFacade_eq]
  exact UMap.setSession_behaves hu.toSafeLookup
    (UMap.facade_behaves env hu (by rwa [unitPayload_length])) asks

/-- `ScanningSet`. -/
theorem C71_scanning_set {p : Prop} (u : UserCode σ T Q) (hu : u.Safe p) (payload : List T)
    (asks : List (SetAsk Q)) :
    Behaves False p (UMap.setSession u (pure (.scanning (unitPayload payload))) asks)
      (SetMayShow u.MayMatch payload asks) :=
  UMap.setSession_behaves hu.toSafeLookup
    (.pure (show (UMap.scanning (unitPayload payload)).OK ∧ _ from ⟨trivial, .refl _⟩)) asks

/-- `CommonSet`, `LengthSet`, `LeftSliceSet`, `RightSliceSet` and `IntegerSet`, of any size: `u` is the
code each makes of the caller's (Model/UserCode). When the set cannot hold the payload (C68), `p` must
allow a panic, and nothing worse happens. -/
theorem C71_hashed_set [Target] {p : Prop} (env : Env) (S : IdxTy) (u : UserCode σ T Q)
    (hu : u.Safe p) (payload : List T) (hbig : ¬ S.Holds payload.length → p)
    (asks : List (SetAsk Q)) :
    Behaves False p (UMap.setSession u (UMap.fromVec env S u (unitPayload payload)) asks)
      (SetMayShow u.MayMatch payload asks) :=
  UMap.setSession_behaves hu.toSafeLookup
    (UMap.fromVec_behaves env hu (by rwa [unitPayload_length])) asks

/-- Exactly which calls of the element type's code a `FrozenSet` makes: construction hashes the
elements twice and compares none (nothing at all for fewer than four), `get` and `contains` are one
lookup each, and `len`, `is_empty` and `iter` call nothing. -/
theorem C71_calls [Target] (env : Env) (u : UserCode σ T T) (payload : List T)
    (h32 : payload.length < 2 ^ 32) (asks : List (SetAsk T)) :
    Logs (UMap.setSession u.logged (UMap.setFacade env u.logged payload) asks)
      (fun outs ev => ∃ elems lay built rest, SetLaysOut payload elems lay built ∧
        AskCalls elems lay asks outs rest ∧ ev = built ++ rest) := by
  rw [UMap.setFacade_eq]
  exact (UMap.facade_lays_out env u payload h32).bind (fun m ev ⟨lay, h1, h2⟩ =>
    (UMap.asks_logs u h1 asks).mono (fun outs ev' h => ⟨_, lay, ev, ev', h2, h, rfl⟩))

/-- The log is only watched: without it, the same is seen, and panics are the same. -/
theorem C71_log_changes_nothing [Target] (env : Env) (u : UserCode σ T T) (payload : List T)
    (asks : List (SetAsk T)) (s : σ) (log : List (CallEvent T T)) :
    (UMap.setSession u.logged (UMap.setFacade env u.logged payload) asks (s, log)).map
        (fun r => (r.1, r.2.1))
      = UMap.setSession u (UMap.setFacade env u payload) asks s := by
  rw [UMap.setFacade_eq, UMap.setFacade_eq]
  exact ((UMap.facade_forgets env u.logged_forgets _).bind (fun m =>
    UMap.asks_forget u.logged_forgets m asks)) s log

/-! ### Hashers of the caller's own -/

theorem UMap.stringSetFacade_behaves [Target] (env : Env) {p : Prop} {h : HasherCode σ}
    (hh : h.Safe p) {payload : List Bytes} (hbig : 2 ^ 31 ≤ payload.length → p)
    (hlen : ∀ x ∈ payload, x.length < usz / 2) :
    Behaves (TriesEnds payload) (p ∨ TriesEnds payload) (UMap.stringSetFacade env h payload)
      (fun m => (m.1.code env.oc h).SafeLookup p ∧ m.2.OK ∧ (m.2.entries.map (·.1)).Perm payload) := by
  rw [UMap.stringSetFacade_eq]
  have := UMap.stringFacade_behaves env hh (payload := unitPayload payload)
    (by rwa [unitPayload_length]) (fun e he => by
      obtain ⟨x, hx, rfl⟩ := List.mem_map.1 he
      have := hlen x hx
      simp only; omega)
  rw [unitPayload_keys] at this
  exact this.mono id id (fun m hm => ⟨hm.1, hm.2.1, UMap.elems_perm hm.2.2⟩)

/-- `FrozenSet<String>` with any `BuildHasher`, however its answers change from call to call. No
undefined behaviour and no panic but the hasher's (`p`, which must also allow for 2^31 elements or
more), unless the elements make the crate try the ends of strings (C03, C29). `get` answers with the
very string asked for or misses, `contains` says yes only to strings in the set, length and iteration
are exact. -/
theorem C71_string_set [Target] {p : Prop} (env : Env) (h : HasherCode σ) (hh : h.Safe p)
    (payload : List Bytes) (hbig : 2 ^ 31 ≤ payload.length → p)
    (hlen : ∀ x ∈ payload, x.length < usz / 2) (asks : List (SetAsk Bytes)) :
    Behaves (TriesEnds payload) (p ∨ TriesEnds payload)
      (UMap.stringSetSession env h payload asks)
      (SetMayShow (fun q x => q = x) payload asks) := by
  unfold UMap.stringSetSession
  refine (UMap.stringSetFacade_behaves env hh hbig hlen).bind (fun m hm => ?_)
  refine (UMap.asks_behave hm.1 hm.2.1 asks).mono False.elim Or.inl (fun outs ho => ?_)
  exact SetMayShow.mono ⟨_, hm.2.2, ho⟩ (fun _ _ h => StringRep.code_mayMatch h)

/-- A hasher that answers the same every time is the special case in which construction is that of
the other theorems about `FrozenSet`. -/
theorem C71_function_hasher [Target] (env : Env) (bh : Hasher) (enc : Bytes → List HCall)
    (payload : List Bytes) (s : σ) :
    UMap.stringSetFacade env (HasherCode.det bh enc) payload s
      = (FrozenSet.new env (bytesTy enc) payload bh).map (fun m => (m.stripped, s)) := by
  rw [UMap.stringSetFacade_eq, UMap.stringFacade_det]
  exact FrozenSet.stripped_eq env bh enc payload (fun r => (r, s))

/-- Exactly what a `FrozenSet` of strings hashes: as C67 says for maps; `get` and `contains` use the
hasher at most once, on just the bytes the kind of set goes by, and nothing else uses it. -/
theorem C71_string_hashing [Target] (env : Env) (h : HasherCode σ) (payload : List Bytes)
    (hlen : ∀ x ∈ payload, x.length < usz / 2) (asks : List (SetAsk Bytes)) :
    Logs (UMap.stringSetSession env h.logged payload asks) (fun _ ev =>
      ∃ (rep : StringRep) (choice pass₁ pass₂ rest : List HashCall),
        Chooses payload rep choice ∧ rep.callsFor payload pass₁ ∧ rep.callsFor payload pass₂ ∧
        rep.callsFor (asks.filterMap SetAsk.probe) rest ∧ ev = choice ++ pass₁ ++ pass₂ ++ rest) := by
  unfold UMap.stringSetSession
  rw [UMap.stringSetFacade_eq]
  have := UMap.stringFacade_logs env h (payload := unitPayload payload) (fun e he => by
    obtain ⟨x, hx, rfl⟩ := List.mem_map.1 he
    have := hlen x hx
    simp only; omega)
  rw [unitPayload_keys] at this
  refine this.bind (fun m ev hm => ?_)
  obtain ⟨hk, choice, p1, p2, h1, h2, h3, rfl⟩ := hm
  refine (UMap.asks_hash (m := m.2) (rep := m.1) ?_ asks).mono
    (fun _ ev hev => ⟨m.1, choice, p1, p2, ev, h1, h2, h3, hev, rfl⟩)
  cases hm2 : m.2 with
  | scanning es => rw [hm2] at hk; exact hk
  | hashed T => rw [hm2] at hk; exact hk

/-- The log is only watched. -/
theorem C71_string_log_changes_nothing [Target] (env : Env) (h : HasherCode σ) (payload : List Bytes)
    (asks : List (SetAsk Bytes)) (s : σ) (log : List HashCall) :
    (UMap.stringSetSession env h.logged payload asks (s, log)).map (fun r => (r.1, r.2.1))
      = UMap.stringSetSession env h payload asks s := by
  unfold UMap.stringSetSession
  rw [UMap.stringSetFacade_eq, UMap.stringSetFacade_eq]
  exact ((UMap.stringFacade_forgets env h _).bind (fun m =>
    UMap.asks_forget (StringRep.code_forgets env.oc h m.1) m.2 asks)) s log

/-! ### Set operations on sets of strings -/

theorem UMap.stringSet_safe [Target] {p : Prop} {u : UserCode σ T T} (hu : u.SafeLookup p)
    {m : UMap T Unit} (hm : m.OK) : (m.toSet u).Safe p :=
  ⟨fun x => ((UMap.lookup_behaves hu hm x).mono id id (fun _ _ => trivial)).bind
    (fun _ _ => Behaves.pure trivial), Behaves.pure trivial⟩

theorem UMap.stringSet_claims [Target] {p : Prop} {oc : Bool} {h : HasherCode σ} {rep : StringRep}
    (hu : (rep.code oc h).SafeLookup p) {m : UMap Bytes Unit} (hm : m.OK) {payload : List Bytes}
    (hp : (m.entries.map (·.1)).Perm payload) :
    (m.toSet (rep.code oc h)).Claims (· ∈ payload) (fun _ => True) := by
  intro x
  rw [← UMap.setContains_eq]
  refine Behaves.mono ((UMap.setGet_behaves hu hm x).bind (fun o ho => Behaves.pure
    (post := fun b => if b = true then x ∈ payload else True) ?_)) False.elim (fun _ => trivial)
    (fun _ h => h)
  cases o with
  | none => simp
  | some y =>
    obtain ⟨h1, h2⟩ := ho y rfl
    obtain rfl := StringRep.code_mayMatch h2
    simpa using hp.mem_iff.1 h1

/-- Set operations between two `FrozenSet<String>`s with any two hashers (which may share state). No
undefined behaviour and no panic but the hashers', unless the elements make the crate try the ends of
strings. Only elements of the payloads are seen, none more often than given; `difference` shows only
elements of the first set, and `intersection` only strings that are in both. -/
theorem C71_string_operations [Target] {p : Prop} (env : Env) (h₁ h₂ : HasherCode σ)
    (hh₁ : h₁.Safe p) (hh₂ : h₂.Safe p) (payload₁ payload₂ : List Bytes)
    (hb₁ : 2 ^ 31 ≤ payload₁.length → p) (hb₂ : 2 ^ 31 ≤ payload₂.length → p)
    (hl₁ : ∀ x ∈ payload₁, x.length < usz / 2) (hl₂ : ∀ x ∈ payload₂, x.length < usz / 2)
    (op : SetOp) (n : Nat) :
    Behaves (TriesEnds payload₁ ∨ TriesEnds payload₂)
      (p ∨ TriesEnds payload₁ ∨ TriesEnds payload₂)
      (stringOperationSession env h₁ h₂ payload₁ payload₂ op n)
      (fun outs => (Feed.items outs).Subperm (payload₁ ++ payload₂) ∧
        ∀ x ∈ Feed.items outs, op.MayYield payload₁ payload₂ x) := by
  unfold stringOperationSession
  refine ((UMap.stringSetFacade_behaves env hh₁ hb₁ hl₁).mono Or.inl (Or.imp id Or.inl)
    (fun _ h => h)).bind (fun a ha => ?_)
  refine ((UMap.stringSetFacade_behaves env hh₂ hb₂ hl₂).mono Or.inr (Or.imp id Or.inr)
    (fun _ h => h)).bind (fun b hb => ?_)
  have sa := UMap.stringSet_safe ha.1 ha.2.1
  have sb := UMap.stringSet_safe hb.1 hb.2.1
  have ca := UMap.stringSet_claims ha.1 ha.2.1 ha.2.2
  have cb := UMap.stringSet_claims hb.1 hb.2.1 hb.2.2
  have pa : ((a.2.toSet (a.1.code env.oc h₁)).iter.items).Perm payload₁ := by
    rw [UMap.toSet_items]; exact ha.2.2
  have pb : ((b.2.toSet (b.1.code env.oc h₂)).iter.items).Perm payload₂ := by
    rw [UMap.toSet_items]; exact hb.2.2
  have hmem : ∀ {l₁ l₂ l : List Bytes}, Interleave l₁ l₂ l → ∀ x ∈ l, x ∈ l₁ ∨ x ∈ l₂ := by
    intro l₁ l₂ l h
    induction h with
    | nil => simp
    | left h ih =>
      intro x hx
      rcases List.mem_cons.1 hx with rfl | hx
      · simp
      · exact (ih x hx).imp (List.mem_cons_of_mem _) id
    | right h ih =>
      intro x hx
      rcases List.mem_cons.1 hx with rfl | hx
      · simp
      · exact (ih x hx).imp id (List.mem_cons_of_mem _)
  have key : ∀ {P R : Bytes → Prop} {outs : List (Option Bytes)},
      DrawnFrom (a.2.toSet (a.1.code env.oc h₁)).iter (b.2.toSet (b.1.code env.oc h₂)).iter P R outs →
      (Feed.items outs).Subperm (payload₁ ++ payload₂) ∧
      ∀ x ∈ Feed.items outs, (x ∈ payload₁ ∧ P x) ∨ (x ∈ payload₂ ∧ R x) := by
    rintro P R outs ⟨la, lb, ia, ib, hP, hR, hi⟩
    refine ⟨perm_of_sublists hi ia ib pa pb, fun x hx => ?_⟩
    exact (hmem hi x hx).imp (fun h => ⟨pa.mem_iff.1 (ia.subset h), hP x h⟩)
      (fun h => ⟨pb.mem_iff.1 (ib.subset h), hR x h⟩)
  refine Behaves.bind (post := fun r => (Feed.items r.1).Subperm (payload₁ ++ payload₂) ∧
        ∀ x ∈ Feed.items r.1, op.MayYield payload₁ payload₂ x) ?_ (fun r hr => .pure hr)
  cases op with
  | union =>
    exact (C59_union _ _ sa sb n).mono False.elim Or.inl (fun r h => ⟨(key h).1, fun x hx =>
      ((key h).2 x hx).imp And.left And.left⟩)
  | intersection =>
    exact (C59_intersection _ _ sa sb _ _ _ _ ca cb n).mono False.elim Or.inl (fun r h =>
      ⟨(key h).1, fun x hx => ((key h).2 x hx).elim id And.symm⟩)
  | difference =>
    exact (C59_difference _ _ sb _ _ cb n).mono False.elim Or.inl (fun r h =>
      ⟨(key h).1, fun x hx => ((key h).2 x hx).elim And.left (fun h => h.2.elim)⟩)
  | symmetricDifference =>
    exact (C59_symmetric_difference _ _ sa sb _ _ _ _ ca cb n).mono False.elim Or.inl
      (fun r h => ⟨(key h).1, fun x hx => ((key h).2 x hx).imp And.left And.left⟩)

/-- The predicates: a yes of `is_subset`, `is_superset` or `==` can be relied on even then. -/
theorem C71_string_predicates [Target] {p : Prop} (env : Env) (h₁ h₂ : HasherCode σ)
    (hh₁ : h₁.Safe p) (hh₂ : h₂.Safe p) (payload₁ payload₂ : List Bytes)
    (hb₁ : 2 ^ 31 ≤ payload₁.length → p) (hb₂ : 2 ^ 31 ≤ payload₂.length → p)
    (hl₁ : ∀ x ∈ payload₁, x.length < usz / 2) (hl₂ : ∀ x ∈ payload₂, x.length < usz / 2)
    (pred : SetPred) :
    Behaves (TriesEnds payload₁ ∨ TriesEnds payload₂)
      (p ∨ TriesEnds payload₁ ∨ TriesEnds payload₂)
      (stringPredicateSession env h₁ h₂ payload₁ payload₂ pred)
      (fun r => r = true → pred.Promises payload₁ payload₂) := by
  unfold stringPredicateSession
  refine ((UMap.stringSetFacade_behaves env hh₁ hb₁ hl₁).mono Or.inl (Or.imp id Or.inl)
    (fun _ h => h)).bind (fun a ha => ?_)
  refine ((UMap.stringSetFacade_behaves env hh₂ hb₂ hl₂).mono Or.inr (Or.imp id Or.inr)
    (fun _ h => h)).bind (fun b hb => ?_)
  have sa := UMap.stringSet_safe ha.1 ha.2.1
  have sb := UMap.stringSet_safe hb.1 hb.2.1
  have ca := UMap.stringSet_claims ha.1 ha.2.1 ha.2.2
  have cb := UMap.stringSet_claims hb.1 hb.2.1 hb.2.2
  have hup : ∀ l : List Bytes, Feed.upToNone (l.map some) = l := by
    intro l
    induction l with
    | nil => rfl
    | cons x l ih => simp [Feed.upToNone, ih]
  have ua : ∀ x ∈ payload₁, x ∈ (a.2.toSet (a.1.code env.oc h₁)).iter.upToNone := by
    intro x hx
    have : (a.2.toSet (a.1.code env.oc h₁)).iter = (a.2.entries.map (·.1)).map some := by
      simp [UMap.toSet]
    rw [this, hup]
    exact ha.2.2.mem_iff.2 hx
  have ub : ∀ x ∈ payload₂, x ∈ (b.2.toSet (b.1.code env.oc h₂)).iter.upToNone := by
    intro x hx
    have : (b.2.toSet (b.1.code env.oc h₂)).iter = (b.2.entries.map (·.1)).map some := by
      simp [UMap.toSet]
    rw [this, hup]
    exact hb.2.2.mem_iff.2 hx
  have key := C59_predicates _ _ sa sb _ _ _ _ ca cb
  cases pred with
  | isSubset => exact key.1.mono False.elim Or.inl (fun r hr h x hx => hr h x (ua x hx))
  | isSuperset => exact key.2.1.mono False.elim Or.inl (fun r hr h x hx => hr h x (ub x hx))
  | isDisjoint => exact key.2.2.2.mono False.elim Or.inl (fun r hr h => trivial)
  | eq =>
    have hlen : Behaves True True ((a.2.toSet (a.1.code env.oc h₁)).eq (b.2.toSet (b.1.code env.oc h₂)))
        (fun r => r = true → payload₁.length = payload₂.length) := by
      have e1 : a.2.len = payload₁.length := by simpa [UMap.len] using ha.2.2.length_eq
      have e2 : b.2.len = payload₂.length := by simpa [UMap.len] using hb.2.2.length_eq
      unfold USet.eq
      refine (Behaves.pure (a := a.2.len) (post := fun n => n = a.2.len) rfl).bind (fun x hx => ?_)
      refine (Behaves.pure (a := b.2.len) (post := fun n => n = b.2.len) rfl).bind (fun y hy => ?_)
      subst hx hy
      exact .ite (fun _ => .pure (by simp)) (fun h => (Behaves.any _).mono id id
        (fun _ _ _ => by rw [← e1, ← e2]; exact not_not.1 h))
    exact (key.2.2.1.and' hlen).mono False.elim Or.inl
      (fun r hr h => ⟨hr.2 h, fun x hx => hr.1 h x (ua x hx)⟩)

/-! ### Non-vacuity -/

/-- A hashed set of an element type that lets a counter decide every answer (`moodyCode_safe`): it
misses elements, and finds 21 when asked for 9. -/
example : UMap.setSession moodyCode (UMap.setFacade checkedEnv moodyCode [3, 5, 8, 13, 21])
    [.contains 5, .contains 5, .get 8, .get 9, .len, .isEmpty, .iter] 0
    = .ok ([.bool false, .bool false, .element none, .element (some 21), .number 5, .bool false,
        .items [3, 13, 8, 21, 5]], 15) := by decide +kernel

example : SetMayShow moodyCode.MayMatch [3, 5, 8, 13, 21]
    [.contains 5, .contains 5, .get 8, .get 9, .len, .isEmpty, .iter]
    [.bool false, .bool false, .element none, .element (some 21), .number 5, .bool false,
        .items [3, 13, 8, 21, 5]] := by
  have h := C71_frozen_set checkedEnv moodyCode moodyCode_safe [3, 5, 8, 13, 21] (by decide)
    [.contains 5, .contains 5, .get 8, .get 9, .len, .isEmpty, .iter] 0
  rwa [show UMap.setSession moodyCode (UMap.setFacade checkedEnv moodyCode [3, 5, 8, 13, 21])
    [.contains 5, .contains 5, .get 8, .get 9, .len, .isEmpty, .iter] 0
    = .ok ([.bool false, .bool false, .element none, .element (some 21), .number 5, .bool false,
        .items [3, 13, 8, 21, 5]], 15) by decide +kernel] at h

/-- What may be shown is not everything: no element that was not given, no other length. -/
example : ¬ SetMayShow moodyCode.MayMatch [3, 5] [.get 3] [.element (some 8)] ∧
    ¬ SetMayShow moodyCode.MayMatch [3, 5] [SetAsk.len] [.number 1] := by
  constructor
  · rintro ⟨d, h1, h2⟩
    cases h2 with
    | cons h _ => simpa using h1.mem_iff.1 (h 8 rfl).1
  · rintro ⟨d, h1, h2⟩
    cases h2 with
    | cons h _ => rw [SetAsk.May, h1.length_eq] at h; simp at h

/-- Six strings of one length with a hasher whose answers depend on how often it was asked: the same
question is answered no, yes and no. -/
example : UMap.stringSetSession checkedEnv moodyHasher (sameLenKeys.map (·.1))
    [.contains [1, 2, 9], .contains [1, 2, 9], .contains [1, 2, 9], .get [7], .len] 0
    = .ok ([.bool false, .bool true, .bool false, .element none, .number 6], 22) := by
  decide +kernel

/-- `==` of a set with itself says no, and `is_disjoint` says yes. -/
example : stringPredicateSession checkedEnv moodyHasher moodyHasher (sameLenKeys.map (·.1))
      (sameLenKeys.map (·.1)) .eq 0 = .ok (false, 37) ∧
    stringPredicateSession checkedEnv moodyHasher moodyHasher (sameLenKeys.map (·.1))
      (sameLenKeys.map (·.1)) .isDisjoint 0 = .ok (true, 42) := by
  constructor <;> decide +kernel

/-- The difference shows an element of both, which the second set denied; the intersection misses
two. -/
example : stringOperationSession checkedEnv moodyHasher moodyHasher
      [[1, 2, 9], [7, 7], [3, 4, 9]] (sameLenKeys.map (·.1)) .difference 4 0
      = .ok ([some [1, 2, 9], some [7, 7], some [3, 4, 9], none], 21) ∧
    stringOperationSession checkedEnv moodyHasher moodyHasher
      [[1, 2, 9], [7, 7], [3, 4, 9]] (sameLenKeys.map (·.1)) .intersection 2 0
      = .ok ([none, none], 21) := by
  constructor <;> decide +kernel

/-- The calls of a session: four elements hashed twice, `contains` and `get` one hash and the
comparisons of one slot each, `len` nothing. -/
example : (UMap.setSession moodyCode.logged (UMap.setFacade checkedEnv moodyCode.logged [3, 5, 8, 13])
    [.contains 5, .len, .get 9] (0, [])).map (·.2.2)
    = .ok [.sized 3 0, .sized 5 5, .sized 8 16, .sized 13 39, .placed 3 19, .placed 5 30,
        .placed 8 44, .placed 13 62, .hashed 5 13, .compared 5 3 false, .hashed 9 19,
        .compared 9 3 true] := by decide +kernel

/-! Each theorem at moody elements, or at strings hashed by a moody hasher. -/

example := C71_scanning_set moodyCode moodyCode_safe [3, 5, 8] [.contains 5, .get 8, .iter]
example := C71_hashed_set checkedEnv IdxTy.u8 moodyCode moodyCode_safe [3, 5, 8]
  (fun h => h ⟨255, by decide, by decide⟩) [.contains 5, .get 8, .iter]
example := C71_calls checkedEnv moodyCode [3, 5, 8, 13] (by decide) [.contains 5, .len, .get 9]
example := C71_string_set checkedEnv moodyHasher moodyHasher_safe (sameLenKeys.map (·.1)) (by decide) (by decide)
  [.contains [1, 2, 9], .get [7], .len]
example := C71_string_hashing checkedEnv moodyHasher (sameLenKeys.map (·.1)) (by decide)
  [.contains [1, 2, 9], .get [7], .len]
example := C71_string_operations checkedEnv moodyHasher moodyHasher moodyHasher_safe moodyHasher_safe
  [[1, 2, 9], [7, 7], [3, 4, 9]] (sameLenKeys.map (·.1)) (by decide) (by decide) (by decide) (by decide)
  .difference 4
example := C71_string_predicates checkedEnv moodyHasher moodyHasher moodyHasher_safe moodyHasher_safe
  [[1, 2, 9], [7, 7], [3, 4, 9]] (sameLenKeys.map (·.1)) (by decide) (by decide) (by decide) (by decide) .eq

end FC
