import Verif.Lemmas.IntTraits
import Verif.Lemmas.SessionAgree

/-
For the built-in integer types, Model/IntTraits.lean is Model/UserCode.lean and Model/Maps.lean.
-/

set_option autoImplicit false

namespace FC
variable {σ X M M' K V Q α : Type}

/-! ### The generic histories -/

theorem UMap.api_hasDup (u : UserCode σ K Q) (ks : List Q) :
    ∀ seen, (UMap.api (V := V) u).hasDup seen ks = UMap.hasDup u seen ks := by
  induction ks with
  | nil => exact fun _ => rfl
  | cons k ks ih =>
    intro seen
    unfold CallApi.hasDup UMap.hasDup
    rw [ih]
    rfl

theorem UMap.api_getAll (u : UserCode σ K Q) (m : UMap K V) (ks : List Q) :
    (UMap.api u).getAll m ks = UMap.getAll u m ks := by
  induction ks with
  | nil => rfl
  | cons k ks ih =>
    unfold CallApi.getAll UMap.getAll
    rw [ih]
    rfl

theorem UMap.api_step (u : UserCode σ K Q) (m : UMap K V) (op : MapOp V Q) :
    (UMap.api u).step m op = m.step u op := by
  cases op with
  | getManyMut qvs =>
    unfold CallApi.step UMap.step CallApi.getManyMut UMap.getManyMut
    simp only [UMap.api_hasDup, UMap.api_getAll]
    rfl
  | _ => rfl

theorem UMap.api_run (u : UserCode σ K Q) (ops : List (MapOp V Q)) :
    ∀ m : UMap K V, (UMap.api u).run m ops = m.run u ops := by
  induction ops with
  | nil => exact fun _ => rfl
  | cons op ops ih =>
    intro m
    unfold CallApi.run UMap.run
    rw [UMap.api_step]
    simp only [ih]

theorem UMap.api_session (u : UserCode σ K Q) (build : Call σ (UMap K V)) (ops : List (MapOp V Q)) :
    (UMap.api u).session build ops = UMap.session u build ops := by
  unfold CallApi.session UMap.session
  simp only [UMap.api_run]

/-- Two computations that end alike, in related maps. -/
def Alike (R : M → M' → Prop) (x : Res ((α × M) × σ)) (y : Res ((α × M') × σ)) : Prop :=
  match x with
  | .ok r => ∃ m', y = .ok ((r.1.1, m'), r.2) ∧ R r.1.2 m'
  | .panic => y = .panic
  | .ub => y = .ub

/-- Related maps look up alike. -/
structure CallApi.Sim (A : CallApi σ M K V Q) (B : CallApi σ M' K V Q) (R : M → M' → Prop) : Prop where
  lookup : ∀ m m', R m m' → A.lookup m = B.lookup m'
  same : A.same = B.same
  entries : ∀ m m', R m m' → A.entries m = B.entries m'
  write : ∀ m m' i v, R m m' → R (A.write m i v) (B.write m' i v)

section
variable {A : CallApi σ M K V Q} {B : CallApi σ M' K V Q} {R : M → M' → Prop}

theorem CallApi.Sim.hasDup (h : A.Sim B R) (ks : List Q) : ∀ seen, A.hasDup seen ks = B.hasDup seen ks := by
  induction ks with
  | nil => exact fun _ => rfl
  | cons k ks ih =>
    intro seen
    unfold CallApi.hasDup
    rw [ih, h.same]

theorem CallApi.Sim.getAll (h : A.Sim B R) {m : M} {m' : M'} (hR : R m m') (ks : List Q) :
    A.getAll m ks = B.getAll m' ks := by
  induction ks with
  | nil => rfl
  | cons k ks ih =>
    unfold CallApi.getAll
    rw [ih, h.lookup m m' hR]

theorem CallApi.Sim.getManyMut (h : A.Sim B R) {m : M} {m' : M'} (hR : R m m') (ks : List Q) :
    A.getManyMut m ks = B.getManyMut m' ks := by
  unfold CallApi.getManyMut
  rw [h.hasDup, h.getAll hR]

theorem CallApi.Sim.writes (h : A.Sim B R) (l : List (Ref V × V)) :
    ∀ {m : M} {m' : M'}, R m m' →
      R (l.foldl (fun m rv => A.write m rv.1.idx rv.2) m)
        (l.foldl (fun m rv => B.write m rv.1.idx rv.2) m') := by
  induction l with
  | nil => exact fun h => h
  | cons rv l ih => exact fun hR => ih (h.write _ _ _ _ hR)

theorem CallApi.Sim.step (h : A.Sim B R) {m : M} {m' : M'} (hR : R m m') (op : MapOp V Q) (s : σ) :
    Alike R (A.step m op s) (B.step m' op s) := by
  have hl := h.lookup m m' hR
  have he := h.entries m m' hR
  cases op with
  | get q =>
    unfold CallApi.step
    simp only
    rw [Call.bind_apply, Call.bind_apply, hl]
    cases B.lookup m' q s with
    | panic => rfl
    | ub => rfl
    | ok o => exact ⟨m', rfl, hR⟩
  | getKeyValue q =>
    unfold CallApi.step
    simp only
    rw [Call.bind_apply, Call.bind_apply, hl]
    cases B.lookup m' q s with
    | panic => rfl
    | ub => rfl
    | ok o => exact ⟨m', rfl, hR⟩
  | containsKey q =>
    unfold CallApi.step
    simp only
    rw [Call.bind_apply, Call.bind_apply, hl]
    cases B.lookup m' q s with
    | panic => rfl
    | ub => rfl
    | ok o => exact ⟨m', rfl, hR⟩
  | index q =>
    unfold CallApi.step
    simp only
    rw [Call.bind_apply, Call.bind_apply, hl]
    cases B.lookup m' q s with
    | panic => rfl
    | ub => rfl
    | ok o =>
      obtain ⟨_ | r, s'⟩ := o
      · rfl
      · exact ⟨m', rfl, hR⟩
  | len => exact ⟨m', by show _ = Res.ok _; rw [he]; rfl, hR⟩
  | iter => exact ⟨m', by show _ = Res.ok _; rw [he]; rfl, hR⟩
  | keys => exact ⟨m', by show _ = Res.ok _; rw [he]; rfl, hR⟩
  | values => exact ⟨m', by show _ = Res.ok _; rw [he]; rfl, hR⟩
  | getMut q v =>
    unfold CallApi.step
    simp only
    rw [Call.bind_apply, Call.bind_apply, hl]
    cases B.lookup m' q s with
    | panic => rfl
    | ub => rfl
    | ok o =>
      obtain ⟨_ | r, s'⟩ := o
      · exact ⟨m', rfl, hR⟩
      · exact ⟨_, rfl, h.write _ _ _ _ hR⟩
  | indexMut q v =>
    unfold CallApi.step
    simp only
    rw [Call.bind_apply, Call.bind_apply, hl]
    cases B.lookup m' q s with
    | panic => rfl
    | ub => rfl
    | ok o =>
      obtain ⟨_ | r, s'⟩ := o
      · rfl
      · exact ⟨_, rfl, h.write _ _ _ _ hR⟩
  | getManyMut qvs =>
    unfold CallApi.step
    simp only
    rw [Call.bind_apply, Call.bind_apply, h.getManyMut hR]
    cases B.getManyMut m' (qvs.map (·.1)) s with
    | panic => rfl
    | ub => rfl
    | ok o =>
      obtain ⟨_ | rs, s'⟩ := o
      · exact ⟨m', rfl, hR⟩
      · simp only [Res.ok_bind]
        split
        · exact ⟨_, rfl, h.writes _ hR⟩
        · rfl

theorem CallApi.Sim.run (h : A.Sim B R) (ops : List (MapOp V Q)) :
    ∀ {m : M} {m' : M'} (s : σ), R m m' → Alike R (A.run m ops s) (B.run m' ops s) := by
  induction ops with
  | nil => exact fun s hR => ⟨_, rfl, hR⟩
  | cons op ops ih =>
    intro m m' s hR
    have hs := h.step hR op s
    unfold CallApi.run
    rw [Call.bind_apply, Call.bind_apply]
    cases hstep : A.step m op s with
    | panic => rw [hstep] at hs; rw [show B.step m' op s = _ from hs]; rfl
    | ub => rw [hstep] at hs; rw [show B.step m' op s = _ from hs]; rfl
    | ok r =>
      rw [hstep] at hs
      obtain ⟨n, he, hR'⟩ := hs
      rw [he]
      simp only [Res.ok_bind]
      rw [Call.bind_apply, Call.bind_apply]
      have hr := ih r.2 hR'
      cases hrun : A.run r.1.2 ops r.2 with
      | panic => rw [hrun] at hr; rw [show B.run n ops r.2 = _ from hr]; rfl
      | ub => rw [hrun] at hr; rw [show B.run n ops r.2 = _ from hr]; rfl
      | ok rs =>
        rw [hrun] at hr
        obtain ⟨n', he', hR''⟩ := hr
        rw [he']
        exact ⟨n', rfl, hR''⟩

/-- Related builds. -/
def BuildAlike (R : M → M' → Prop) (x : Res (M × σ)) (y : Res (M' × σ)) : Prop :=
  match x with
  | .ok r => ∃ m', y = .ok (m', r.2) ∧ R r.1 m'
  | .panic => y = .panic
  | .ub => y = .ub

theorem CallApi.Sim.session (h : A.Sim B R) {build : Call σ M} {build' : Call σ M'}
    (hb : ∀ s, BuildAlike R (build s) (build' s)) (ops : List (MapOp V Q)) :
    A.session build ops = B.session build' ops := by
  funext s
  have hs := hb s
  unfold CallApi.session
  rw [Call.bind_apply, Call.bind_apply]
  cases he : build s with
  | panic => rw [he] at hs; rw [show build' s = _ from hs]; rfl
  | ub => rw [he] at hs; rw [show build' s = _ from hs]; rfl
  | ok r =>
    rw [he] at hs
    obtain ⟨m', he', hR⟩ := hs
    rw [he']
    simp only [Res.ok_bind]
    rw [Call.bind_apply, Call.bind_apply]
    have hr := h.run ops r.2 hR
    cases hrun : A.run r.1 ops r.2 with
    | panic => rw [hrun] at hr; rw [show B.run m' ops r.2 = _ from hr]; rfl
    | ub => rw [hrun] at hr; rw [show B.run m' ops r.2 = _ from hr]; rfl
    | ok rs =>
      rw [hrun] at hr
      obtain ⟨n', he', hR''⟩ := hr
      rw [he']
      rfl

end

/-! ### Built-in index types -/

section
variable [Target]

/-- A slot with the values of a built-in index type. -/
def Slot.pair (s : Slot) : Nat × Nat := (s.minIndex, s.maxIndex)

omit [Target] in
theorem map_pair_set (slots : List Slot) (i a b : Nat) :
    (slots.set i ⟨a, b⟩).map Slot.pair = (slots.map Slot.pair).set i (a, b) := by
  rw [List.map_set]
  rfl

theorem IdxTy.code_mk! (S : IdxTy) (oc : Bool) (n : Int) :
    (S.code oc : IdxCode σ Nat).mk! n = Call.lift (S.ofI32 n) := by
  unfold IdxCode.mk! IdxTy.ofI32
  show ((pure (if _ then _ else _) : Call σ (Option Nat)) >>= _) = _
  funext s
  rw [Call.pure_bind']
  split
  · rfl
  · rfl

theorem fillLoopS_code (oc : Bool) (S : IdxTy) (s : σ) :
    ∀ (m : Nat) (stack : List (PrepItem K V)), stack.length ≤ m →
    ∀ (slots : List Slot) (entries : List (K × V)) (idx : Int),
      fillLoopS oc (S.code oc) stack (slots.map Slot.pair) entries idx s
        = (fillLoop oc S stack slots entries idx).map (fun r => ((r.1.map Slot.pair, r.2), s)) := by
  intro m
  induction m with
  | zero =>
    intro stack hm slots entries idx
    obtain rfl : stack = [] := List.eq_nil_of_length_eq_zero (by omega)
    rw [fillLoopS, fillLoop]
    rfl
  | succ m ih =>
    intro stack hm slots entries idx
    cases stack with
    | nil => rw [fillLoopS, fillLoop]; rfl
    | cons item stack =>
      have hle := runLoop_stack_le item.slot item stack entries 0
      rw [fillLoopS, fillLoop]
      simp only [IdxTy.code_mk!]
      generalize runLoop item.slot item stack entries 0 = r at hle ⊢
      generalize IntTy.i32.arith oc = f
      simp only [List.length_cons] at hm
      rw [Call.lift_bind]
      cases f r.2.2 with
      | panic => rfl
      | ub => rfl
      | ok num =>
        simp only [Res.ok_bind]
        rw [Call.lift_bind]
        cases hidx : S.ofI32 idx with
        | panic => rfl
        | ub => rfl
        | ok mn =>
          simp only [Res.ok_bind]
          rw [Call.lift_bind]
          simp only [Res.ok_bind]
          rw [Call.lift_bind]
          cases S.ofI32 num with
          | panic => rfl
          | ub => rfl
          | ok cnt =>
            simp only [Res.ok_bind]
            rw [show (S.code oc : IdxCode σ Nat).add mn cnt = Call.lift (S.add oc mn cnt) from rfl,
              Call.lift_bind]
            cases S.add oc mn cnt with
            | panic => rfl
            | ub => rfl
            | ok mx =>
              simp only [Res.ok_bind, List.length_map]
              split
              · rw [Call.lift_bind]
                cases f (idx + num) with
                | panic => rfl
                | ub => rfl
                | ok next =>
                  simp only [Res.ok_bind]
                  rw [← map_pair_set]
                  exact ih r.1 (by omega) _ _ _
              · rfl

omit [Target] in
theorem IdxTy.ofI32_le {S : IdxTy} {n : Int} {x : Nat} (h : S.ofI32 n = .ok x) : x ≤ S.max := by
  unfold IdxTy.ofI32 at h
  split at h
  · cases h; omega
  · cases h

omit [Target] in
theorem IdxTy.add_le {S : IdxTy} {oc : Bool} {a b x : Nat} (h : S.add oc a b = .ok x) : x ≤ S.max := by
  unfold IdxTy.add at h
  split at h
  · cases h; omega
  · split at h
    · cases h
    · cases h
      unfold IdxTy.max
      have := Nat.mod_lt (a + b) (Nat.two_pow_pos S.bits)
      omega

omit [Target] in
/-- The values in the slots are values of the type. -/
theorem fillLoop_le (oc : Bool) (S : IdxTy) :
    ∀ (m : Nat) (stack : List (PrepItem K V)), stack.length ≤ m →
    ∀ (slots : List Slot) (entries : List (K × V)) (idx : Int) (r : List Slot × List (K × V)),
      (∀ s ∈ slots, s.minIndex ≤ S.max ∧ s.maxIndex ≤ S.max) →
      fillLoop oc S stack slots entries idx = .ok r →
      ∀ s ∈ r.1, s.minIndex ≤ S.max ∧ s.maxIndex ≤ S.max := by
  intro m
  induction m with
  | zero =>
    intro stack hm slots entries idx r hs h
    obtain rfl : stack = [] := List.eq_nil_of_length_eq_zero (by omega)
    rw [fillLoop] at h
    cases h
    exact hs
  | succ m ih =>
    intro stack hm slots entries idx r hs h
    cases stack with
    | nil => rw [fillLoop] at h; cases h; exact hs
    | cons item stack =>
      have hle := runLoop_stack_le item.slot item stack entries 0
      rw [fillLoop] at h
      generalize runLoop item.slot item stack entries 0 = q at hle h
      generalize IntTy.i32.arith oc = f at h
      simp only [List.length_cons] at hm
      cases h1 : f q.2.2 with
      | panic => simp only [h1] at h; cases h
      | ub => simp only [h1] at h; cases h
      | ok num =>
        cases hmn : S.ofI32 idx with
        | panic => simp only [h1, hmn] at h; cases h
        | ub => simp only [h1, hmn] at h; cases h
        | ok mn =>
          cases hc : S.ofI32 num with
          | panic => simp only [h1, hmn, hc] at h; cases h
          | ub => simp only [h1, hmn, hc] at h; cases h
          | ok cnt =>
            cases hmx : S.add oc mn cnt with
            | panic => simp only [h1, hmn, hc, hmx] at h; cases h
            | ub => simp only [h1, hmn, hc, hmx] at h; cases h
            | ok mx =>
              simp only [h1, hmn, hc, hmx] at h
              split at h
              · cases hn : f (idx + num) with
                | panic => rw [hn] at h; cases h
                | ub => rw [hn] at h; cases h
                | ok next =>
                  rw [hn] at h
                  refine ih q.1 (by omega) _ _ _ _ ?_ h
                  intro s hs'
                  rcases List.mem_or_eq_of_mem_set hs' with hs' | rfl
                  · exact hs s hs'
                  · exact ⟨IdxTy.ofI32_le hmn, IdxTy.add_le hmx⟩
              · cases h

/-- The table of Model/HashTable.lean behind a table whose index type is built in. -/
def Plain (T : STable Nat K V) (um : UMap K V) : Prop :=
  ∃ slots : List Slot, T.slots = slots.map Slot.pair ∧ um = .hashed ⟨T.numSlots, slots, T.entries⟩ ∧
    ∀ s ∈ slots, s.minIndex < usz ∧ s.maxIndex < usz

theorem IdxTy.code_size! (S : IdxTy) (oc : Bool) {x : Nat} (h : x < usz) :
    (S.code oc : IdxCode σ Nat).size! x = pure x := by
  unfold IdxCode.size!
  show ((pure (if x < usz then some x else none) : Call σ (Option Nat)) >>= _) = _
  rw [if_pos h]
  rfl

theorem IdxTy.code_empties (S : IdxTy) (oc : Bool) (n : Nat) (s : σ) :
    Call.mapList (fun _ => (S.code oc : IdxCode σ Nat).emptySlot) (List.replicate n ()) s
      = .ok ((List.replicate n (⟨0, 0⟩ : Slot)).map Slot.pair, s) := by
  induction n with
  | zero => rfl
  | succ n ih =>
    rw [List.replicate_succ, List.replicate_succ]
    unfold Call.mapList
    rw [Call.bind_apply]
    rw [show (S.code oc : IdxCode σ Nat).emptySlot s = .ok ((0, 0), s) from rfl]
    simp only [Res.ok_bind]
    rw [Call.bind_apply, ih]
    rfl

theorem IdxTy.code_max! (S : IdxTy) (oc : Bool) :
    (do (S.code oc : IdxCode σ Nat).size! (← (S.code oc : IdxCode σ Nat).maxValue))
      = (Call.lift (Res.unwrap S.maxUsize) : Call σ Nat) := by
  funext s
  unfold IdxCode.size! IdxTy.maxUsize
  rw [show (S.code oc : IdxCode σ Nat).maxValue = pure S.max from rfl, Call.pure_bind',
    show (S.code oc : IdxCode σ Nat).toUsize S.max
      = pure (if S.max < usz then some S.max else none) from rfl, Call.pure_bind']
  split
  · rfl
  · rfl

theorem STable.new_code (env : Env) (S : IdxTy) (payload : List (K × V)) (n : Nat)
    (hash : K → Call σ Nat) (s : σ) :
    BuildAlike Plain (STable.new env (S.code env.oc) payload n hash s)
      (((HashTable.newU env S payload n hash) >>= fun T => pure (UMap.hashed T) : Call σ _) s) := by
  have husz : 0 < usz := by have := usz_ge; omega
  rw [Call.bind_apply]
  unfold STable.new HashTable.newU
  split
  · refine ⟨_, rfl, [⟨0, 0⟩], rfl, rfl, ?_⟩
    intro s hs
    simp only [List.mem_singleton] at hs
    subst hs
    exact ⟨husz, husz⟩
  · have hassoc : ∀ (k : Nat → Call σ (STable Nat K V)) (s : σ),
        (do let mx ← (S.code env.oc : IdxCode σ Nat).maxValue
            let cap ← (S.code env.oc : IdxCode σ Nat).size! mx
            k cap) s = ((Call.lift (Res.unwrap S.maxUsize) : Call σ Nat) >>= k) s := by
      intro k s
      rw [← IdxTy.code_max! S env.oc]
      rfl
    rw [hassoc, Call.lift_bind, Call.lift_bind]
    cases hmax : S.maxUsize with
    | none => rfl
    | some cap =>
      have hcap : S.max < usz := by
        unfold IdxTy.maxUsize at hmax
        split at hmax
        · assumption
        · cases hmax
      show BuildAlike _ ((if payload.length > cap then _ else _ : Call σ (STable Nat K V)) s)
        ((if payload.length > cap then _ else _ : Call σ (HashTable K V)) s >>= _)
      split
      · rfl
      · rw [Call.bind_apply, Call.bind_apply]
        cases Call.mapList (fun e : K × V => do
            let code ← hash e.1
            let slot ← Call.lift (umod code n)
            return (⟨slot, e⟩ : PrepItem K V)) payload s with
        | panic => rfl
        | ub => rfl
        | ok prep =>
          simp only [Res.ok_bind]
          rw [Call.bind_apply, IdxTy.code_empties]
          simp only [Res.ok_bind]
          rw [Call.bind_apply, fillLoopS_code _ _ _ _ _ (Nat.le_refl _), Call.lift_bind]
          cases hf : fillLoop env.oc S (env.srt.run PrepItem.slot prep.1).reverse
              (List.replicate n ⟨0, 0⟩) [] 0 with
          | panic => rfl
          | ub => rfl
          | ok r =>
            simp only [Res.map_ok, Res.ok_bind, List.length_map]
            have hle := fillLoop_le env.oc S _ _ (Nat.le_refl _) _ _ _ _ (by
              intro s hs
              rw [List.eq_of_mem_replicate hs]
              exact ⟨Nat.zero_le _, Nat.zero_le _⟩) hf
            split
            · rfl
            · exact ⟨_, rfl, r.1, rfl, rfl, fun s hs => ⟨by have := hle s hs; omega,
                by have := hle s hs; omega⟩⟩

theorem STable.fromVec_code (env : Env) (S : IdxTy) (u : UserCode σ K Q) (payload : List (K × V))
    (s : σ) :
    BuildAlike Plain (STable.fromVec env (S.code env.oc) u payload s)
      (UMap.fromVec env S u payload s) := by
  unfold STable.fromVec UMap.fromVec
  rw [Call.bind_apply, Call.bind_apply]
  cases Call.mapList (fun e : K × V => u.sizeCode e.1) payload s with
  | panic => rfl
  | ub => rfl
  | ok codes =>
    simp only [Res.ok_bind]
    rw [Call.lift_bind, Call.lift_bind]
    cases analyzeHashCodes codes.1 with
    | panic => rfl
    | ub => rfl
    | ok a => exact STable.new_code env S payload _ _ _

theorem STable.sim_code (S : IdxTy) (oc : Bool) (u : UserCode σ K Q) :
    (STable.api (S.code oc) u : CallApi σ (STable Nat K V) K V Q).Sim (UMap.api u) Plain where
  lookup := by
    rintro T _ ⟨slots, hs, rfl, hlt⟩
    funext q s
    show STable.lookup _ u T q s = UMap.lookup u (.hashed _) q s
    unfold STable.lookup UMap.lookup
    simp only
    rw [Call.bind_apply, Call.bind_apply]
    cases u.probeCode q s with
    | panic => rfl
    | ub => rfl
    | ok code =>
      simp only [Res.ok_bind]
      have hinfo : T.getHashInfo (S.code oc) code.1
          = (Call.lift (HashTable.getHashInfo ⟨T.numSlots, slots, T.entries⟩ code.1) : Call σ _) := by
        unfold STable.getHashInfo HashTable.getHashInfo
        rw [hs, List.getElem?_map]
        cases hc : slots[code.1 % T.numSlots]? with
        | none => rfl
        | some sl =>
          obtain ⟨h1, h2⟩ := hlt sl (List.mem_of_getElem? hc)
          simp only [Option.map_some]
          rw [show sl.pair.1 = sl.minIndex from rfl, show sl.pair.2 = sl.maxIndex from rfl,
            IdxTy.code_size! S oc h1, IdxTy.code_size! S oc h2]
          rfl
      rw [hinfo]
  same := rfl
  entries := by
    rintro T _ ⟨slots, hs, rfl, hlt⟩
    rfl
  write := by
    rintro T _ i v ⟨slots, hs, rfl, hlt⟩
    exact ⟨slots, hs, rfl, hlt⟩

end

/-! ### Built-in integers in range maps -/

/-- `m'` is the map `m` seen through calls that are pure. -/
structure CallApi.Agrees (A : CallApi σ M' K V Q) (B : MapApi M K V Q) (eq : Q → Q → Bool)
    (R : M → M' → Prop) : Prop where
  same : ∀ a b, A.same a b = pure (eq a b)
  look : ∀ m m', R m m' → ∀ q s, A.lookup m' q s = (B.getKeyValue m q).map (fun o => (o, s))
  get : ∀ m m', R m m' → ∀ q, B.get m q = (B.getKeyValue m q).map (Option.map (·.2))
  getMut : ∀ m q, B.getMut m q = B.get m q
  contains : ∀ m q, B.containsKey m q = (B.get m q).map Option.isSome
  index : ∀ m q, B.index m q = indexOf (B.get m q)
  indexMut : ∀ m q, B.indexMut m q = indexOf (B.getMut m q)
  many : ∀ m qs, B.getManyMut m qs = FC.getManyMut eq (B.get m) qs
  nodup : ∀ m m', R m m' → ∀ qs rs, B.getManyMut m qs = .ok (some rs) → (rs.map Ref.idx).Nodup
  len : ∀ m m', R m m' → B.len m = (A.entries m').length
  iter : ∀ m m', R m m' → B.iter m = MapIter.new (A.entries m')
  keys : ∀ m m', R m m' → B.keys m = MapKeys.new (A.entries m')
  values : ∀ m m', R m m' → B.values m = MapValues.new (A.entries m')
  write : ∀ m m' i v, R m m' → R (B.write m i v) (A.write m' i v)

/-- Two computations that end alike, in related maps; the second leaves the state alone. -/
def FollowsOn (R : M → M' → Prop) (s : σ) (x : Res (α × M)) (y : Res ((α × M') × σ)) : Prop :=
  match x with
  | .ok r => ∃ m', y = .ok ((r.1, m'), s) ∧ R r.2 m'
  | .panic => y = .panic
  | .ub => y = .ub

section
variable {A : CallApi σ M' K V Q} {B : MapApi M K V Q} {eq : Q → Q → Bool} {R : M → M' → Prop}

theorem CallApi.Agrees.hasDup (h : A.Agrees B eq R) (s : σ) (ks : List Q) :
    ∀ seen, A.hasDup seen ks s = .ok (FC.hasDup eq seen ks, s) := by
  have hany : ∀ (k : Q) (l : List Q), Call.anyList (fun x => A.same x k) l s
      = .ok (l.any (fun x => eq x k), s) := by
    intro k l
    induction l with
    | nil => rfl
    | cons a l ih =>
      unfold Call.anyList
      rw [h.same, Call.pure_bind', List.any_cons]
      cases eq a k with
      | true => rfl
      | false => exact ih
  induction ks with
  | nil => exact fun _ => rfl
  | cons k ks ih =>
    intro seen
    unfold CallApi.hasDup FC.hasDup
    rw [Call.bind_apply, hany]
    simp only [Res.ok_bind]
    cases seen.any (fun x => eq x k) with
    | true => rfl
    | false => exact ih _

theorem CallApi.Agrees.getAll (h : A.Agrees B eq R) {m : M} {m' : M'} (hR : R m m') (s : σ)
    (ks : List Q) :
    A.getAll m' ks s = (FC.getAll (B.get m) ks).map (fun o => (o, s)) := by
  induction ks with
  | nil => rfl
  | cons k ks ih =>
    unfold CallApi.getAll FC.getAll
    rw [Call.bind_apply, h.look m m' hR, h.get m m' hR]
    cases B.getKeyValue m k with
    | panic => rfl
    | ub => rfl
    | ok o =>
      cases o with
      | none => rfl
      | some r =>
        simp only [Res.map_ok, Res.ok_bind, Option.map_some]
        rw [Call.bind_apply, ih]
        cases FC.getAll (B.get m) ks with
        | panic => rfl
        | ub => rfl
        | ok o => cases o <;> rfl

theorem CallApi.Agrees.getManyMut (h : A.Agrees B eq R) {m : M} {m' : M'} (hR : R m m') (s : σ)
    (ks : List Q) :
    A.getManyMut m' ks s = (B.getManyMut m ks).map (fun o => (o, s)) := by
  rw [h.many]
  unfold CallApi.getManyMut FC.getManyMut
  rw [Call.bind_apply, h.hasDup]
  simp only [Res.ok_bind]
  cases FC.hasDup eq [] ks with
  | true => rfl
  | false => exact h.getAll hR s ks

theorem CallApi.Agrees.writes (h : A.Agrees B eq R) (l : List (Ref V × V)) :
    ∀ {m : M} {m' : M'}, R m m' →
      R (l.foldl (fun m rv => B.write m rv.1.idx rv.2) m)
        (l.foldl (fun m rv => A.write m rv.1.idx rv.2) m') := by
  induction l with
  | nil => exact fun h => h
  | cons rv l ih => exact fun hR => ih (h.write _ _ _ _ hR)

theorem CallApi.Agrees.step (h : A.Agrees B eq R) {m : M} {m' : M'} (hR : R m m') (op : MapOp V Q)
    (s : σ) : FollowsOn R s (B.step m op) (A.step m' op s) := by
  have hl := h.look m m' hR
  have hg := h.get m m' hR
  cases op with
  | get q =>
    unfold MapApi.step CallApi.step
    simp only
    rw [Call.bind_apply, hl, hg]
    cases B.getKeyValue m q with
    | panic => rfl
    | ub => rfl
    | ok o => exact ⟨m', by cases o <;> rfl, hR⟩
  | getKeyValue q =>
    unfold MapApi.step CallApi.step
    simp only
    rw [Call.bind_apply, hl]
    cases B.getKeyValue m q with
    | panic => rfl
    | ub => rfl
    | ok o => exact ⟨m', rfl, hR⟩
  | containsKey q =>
    unfold MapApi.step CallApi.step
    simp only
    rw [Call.bind_apply, hl, h.contains, hg]
    cases B.getKeyValue m q with
    | panic => rfl
    | ub => rfl
    | ok o => exact ⟨m', by cases o <;> rfl, hR⟩
  | index q =>
    unfold MapApi.step CallApi.step
    simp only
    rw [Call.bind_apply, hl, h.index, hg]
    cases B.getKeyValue m q with
    | panic => rfl
    | ub => rfl
    | ok o =>
      cases o with
      | none => rfl
      | some r => exact ⟨m', rfl, hR⟩
  | len => exact ⟨m', by rw [h.len m m' hR]; rfl, hR⟩
  | iter =>
    refine ⟨m', ?_, hR⟩
    simp only [h.iter m m' hR]
    rw [MapIter.new, MapIter.fold_eq _ _ _ 0 _ rfl, List.drop_zero]
    have : ∀ (l acc : List (K × V)), l.foldl (fun l e => l ++ [e]) acc = acc ++ l := by
      intro l; induction l with
      | nil => simp
      | cons a l ih => intro acc; simp [ih]
    rw [this]
    rfl
  | keys =>
    refine ⟨m', ?_, hR⟩
    simp only [h.keys m m' hR]
    rw [MapKeys.fold, MapKeys.new, MapIter.new, MapIter.fold_eq _ _ _ 0 _ rfl, List.drop_zero]
    have : ∀ (l : List (K × V)) (acc : List K),
        l.foldl (fun l e => l ++ [e.1]) acc = acc ++ l.map (·.1) := by
      intro l; induction l with
      | nil => simp
      | cons a l ih => intro acc; simp [ih]
    rw [this]
    rfl
  | values =>
    refine ⟨m', ?_, hR⟩
    simp only [h.values m m' hR]
    rw [MapValues.fold, MapValues.new, MapIter.new, MapIter.fold_eq _ _ _ 0 _ rfl, List.drop_zero]
    have : ∀ (l : List (K × V)) (acc : List V),
        l.foldl (fun l e => l ++ [e.2]) acc = acc ++ l.map (·.2) := by
      intro l; induction l with
      | nil => simp
      | cons a l ih => intro acc; simp [ih]
    rw [this]
    rfl
  | getMut q v =>
    unfold MapApi.step CallApi.step
    simp only
    rw [Call.bind_apply, hl, h.getMut, hg]
    cases B.getKeyValue m q with
    | panic => rfl
    | ub => rfl
    | ok o =>
      cases o with
      | none => exact ⟨m', rfl, hR⟩
      | some r => exact ⟨_, rfl, h.write _ _ _ _ hR⟩
  | indexMut q v =>
    unfold MapApi.step CallApi.step
    simp only
    rw [Call.bind_apply, hl, h.indexMut, h.getMut, hg]
    cases B.getKeyValue m q with
    | panic => rfl
    | ub => rfl
    | ok o =>
      cases o with
      | none => rfl
      | some r => exact ⟨_, rfl, h.write _ _ _ _ hR⟩
  | getManyMut qvs =>
    unfold MapApi.step CallApi.step
    simp only
    rw [Call.bind_apply, h.getManyMut hR]
    cases hm : B.getManyMut m (qvs.map (·.1)) with
    | panic => rfl
    | ub => rfl
    | ok o =>
      cases o with
      | none => exact ⟨m', rfl, hR⟩
      | some rs =>
        have hnd := h.nodup m m' hR _ rs hm
        refine ⟨_, ?_, h.writes _ hR⟩
        simp only [Res.map_ok, Res.ok_bind]
        rw [if_pos hnd]
        rfl

theorem CallApi.Agrees.run (h : A.Agrees B eq R) (ops : List (MapOp V Q)) (s : σ) :
    ∀ {m : M} {m' : M'}, R m m' → FollowsOn R s (B.run m ops) (A.run m' ops s) := by
  induction ops with
  | nil => exact fun hR => ⟨_, rfl, hR⟩
  | cons op ops ih =>
    intro m m' hR
    have hs := h.step hR op s
    unfold MapApi.run CallApi.run
    rw [Call.bind_apply]
    cases hstep : B.step m op with
    | panic => rw [hstep] at hs; rw [show A.step m' op s = _ from hs]; rfl
    | ub => rw [hstep] at hs; rw [show A.step m' op s = _ from hs]; rfl
    | ok r =>
      rw [hstep] at hs
      obtain ⟨n, he, hR'⟩ := hs
      rw [he]
      simp only [Res.ok_bind]
      rw [Call.bind_apply]
      have hr := ih hR'
      cases hrun : B.run r.2 ops with
      | panic => rw [hrun] at hr; rw [show A.run n ops s = _ from hr]; rfl
      | ub => rw [hrun] at hr; rw [show A.run n ops s = _ from hr]; rfl
      | ok rs =>
        rw [hrun] at hr
        obtain ⟨n', he', hR''⟩ := hr
        rw [he']
        exact ⟨n', rfl, hR''⟩

theorem CallApi.Agrees.session (h : A.Agrees B eq R) {build : Call σ M'} {build' : Res M}
    (hb : ∀ s, (∃ m m', build' = .ok m ∧ build s = .ok (m', s) ∧ R m m') ∨
      (build' = .panic ∧ build s = .panic)) (ops : List (MapOp V Q)) :
    LeavesAlone (A.session build ops) (B.session build' ops) := by
  intro s
  unfold CallApi.session MapApi.session
  rw [Call.bind_apply]
  rcases hb s with ⟨m, m', h1, h2, hR⟩ | ⟨h1, h2⟩
  · rw [h1, h2]
    simp only [Res.ok_bind]
    rw [Call.bind_apply]
    have hr := h.run ops s hR
    cases hrun : B.run m ops with
    | panic => rw [hrun] at hr; rw [show A.run m' ops s = _ from hr]; rfl
    | ub => rw [hrun] at hr; rw [show A.run m' ops s = _ from hr]; rfl
    | ok rs =>
      rw [hrun] at hr
      obtain ⟨n', he', hR''⟩ := hr
      rw [he']
      rfl
  · rw [h1, h2]
    rfl

end

section
variable [Target]

/-- A range map over a built-in integer type, seen both ways. -/
def RSame (t : IntTy) (m : IntegerRangeMap V) (m' : RMap Int V) : Prop :=
  m' = ⟨m.min, m.max, m.entries⟩ ∧ t.InRange m.min ∧ t.InRange m.max

theorem IntTy.arith_exact {t : IntTy} (hb : 0 < t.bits) {oc : Bool} {x d : Int} {i : Nat}
    (h0 : 0 ≤ x) (h1 : x < 2 ^ t.bits) (h : t.arith oc x = .ok d) (hi : FC.toUsize d = some i) :
    (i : Int) = x := by
  have hd : 0 ≤ d ∧ (i : Int) = d := by
    unfold FC.toUsize at hi
    split at hi
    · next hd =>
      simp only [Option.some.injEq] at hi
      omega
    · cases hi
  unfold IntTy.arith at h
  split at h
  · cases h; exact hd.2
  · next hr =>
    split at h
    · cases h
    · exfalso
      simp only [Res.ok.injEq] at h
      unfold IntTy.InRange IntTy.lo IntTy.hi at hr
      unfold IntTy.wrap IntTy.lo at h
      cases hs : t.signed with
      | false => simp only [hs] at hr; simp at hr; omega
      | true =>
        simp only [hs, if_true] at hr h
        obtain ⟨b, hb'⟩ : ∃ b, t.bits = b + 1 := ⟨t.bits - 1, by omega⟩
        rw [hb'] at h1 hr h
        simp only [Nat.add_sub_cancel] at hr h
        have hpow : (2 : Int) ^ (b + 1) = 2 * 2 ^ b := by rw [pow_succ]; ring
        rw [hpow] at h1 h
        have hpos : (0 : Int) < 2 ^ b := by positivity
        generalize (2 : Int) ^ b = p at *
        have : (x - -p) % (2 * p) = x - p := by
          rw [show x - -p = (x - p) + 2 * p by ring, Int.add_emod_right]
          exact Int.emod_eq_of_lt (by omega) (by omega)
        omega

theorem IntegerRangeMap.position_exact {t : IntTy} (hb : 0 < t.bits) {oc : Bool}
    {m : IntegerRangeMap V} (h1 : t.InRange m.min) (h2 : t.InRange m.max) {q : Int} {i : Nat}
    (h : m.position oc t q = .ok (some i)) : (i : Int) = q - m.min := by
  unfold IntegerRangeMap.position at h
  split at h
  · next hq =>
    cases ha : t.arith oc (q - m.min) with
    | panic => rw [ha] at h; cases h
    | ub => rw [ha] at h; cases h
    | ok d =>
      rw [ha] at h
      simp only [Res.ok.injEq] at h
      refine IntTy.arith_exact hb (by omega) ?_ ha h
      unfold IntTy.InRange IntTy.lo IntTy.hi at h1 h2
      cases hs : t.signed with
      | false => simp only [hs] at h1 h2; simp at h1 h2; omega
      | true =>
        simp only [hs, if_true] at h1 h2
        obtain ⟨b, hb'⟩ : ∃ b, t.bits = b + 1 := ⟨t.bits - 1, by omega⟩
        rw [hb'] at h1 h2 ⊢
        simp only [Nat.add_sub_cancel] at h1 h2
        have hpow : (2 : Int) ^ (b + 1) = 2 * 2 ^ b := by rw [pow_succ]; ring
        rw [hpow]
        omega
  · cases h

theorem IntegerRangeMap.nodup {t : IntTy} (hb : 0 < t.bits) {oc : Bool} {m : IntegerRangeMap V}
    (h1 : t.InRange m.min) (h2 : t.InRange m.max) (qs : List Int) (rs : List (Ref V))
    (h : m.getManyMut oc t qs = .ok (some rs)) : (rs.map Ref.idx).Nodup := by
  unfold IntegerRangeMap.getManyMut FC.getManyMut at h
  split at h
  · cases h
  · next hd =>
    have hp := hasDup_pairwise qs [] .nil (by simpa using hd)
    simp only [List.nil_append] at hp
    have hf : List.Forall₂ (fun (q : Int) (r : Ref V) => (r.idx : Int) = q - m.min) qs rs := by
      clear hp hd
      induction qs generalizing rs with
      | nil =>
        simp only [FC.getAll, Res.ok.injEq, Option.some.injEq] at h
        subst h
        exact .nil
      | cons q qs ih =>
        unfold FC.getAll at h
        cases hg : m.get oc t q with
        | panic => rw [hg] at h; cases h
        | ub => rw [hg] at h; cases h
        | ok o =>
          rw [hg] at h
          cases o with
          | none => cases h
          | some r =>
            simp only at h
            cases hks : FC.getAll (m.get oc t) qs with
            | panic => rw [hks] at h; cases h
            | ub => rw [hks] at h; cases h
            | ok o =>
              rw [hks] at h
              cases o with
              | none => cases h
              | some rs' =>
                simp only [Res.ok.injEq, Option.some.injEq] at h
                subst h
                refine .cons ?_ (ih rs' hks)
                unfold IntegerRangeMap.get at hg
                simp only [Res.bind_eq_ok] at hg
                obtain ⟨o, ho, hg⟩ := hg
                cases o with
                | none => cases hg
                | some i =>
                  simp only [Res.bind_eq_ok, Res.pure_eq, Res.ok.injEq, Option.some.injEq] at hg
                  obtain ⟨e, he, hr⟩ := hg
                  subst hr
                  unfold IntegerRangeMap.entryAt at he
                  split at he
                  · cases he
                    exact IntegerRangeMap.position_exact hb h1 h2 ho
                  · cases he
    clear h hd
    induction hf with
    | nil => simp
    | @cons q r qs rs hq hf ih =>
      obtain ⟨hpq, hp⟩ := List.pairwise_cons.1 hp
      rw [List.map_cons, List.nodup_cons]
      refine ⟨?_, ih hp⟩
      intro hmem
      obtain ⟨r', hr', hidx⟩ := List.mem_map.1 hmem
      obtain ⟨q', hq', hc'⟩ := forall₂_mem_right hf hr'
      have := hpq q' hq'
      simp only [IntegerMap.ieq, decide_eq_false_iff_not] at this
      rw [hidx] at hc'
      omega

theorem RMap.agrees (oc : Bool) (t : IntTy) (hb : 0 < t.bits) :
    (RMap.api (t.rangeCode oc) : CallApi σ (RMap Int V) Int V Int).Agrees (rangeApi oc t)
      IntegerMap.ieq (RSame t) where
  same _ _ := rfl
  look := by
    rintro m _ ⟨rfl, h1, h2⟩ q s
    show RMap.lookup _ _ q s = (m.getKeyValue oc t q).map _
    unfold RMap.lookup IntegerRangeMap.getKeyValue IntegerRangeMap.position
    show ((pure (decide (m.min ≤ q)) : Call σ Bool) >>= _) s = _
    rw [Call.pure_bind']
    by_cases hge : m.min ≤ q
    · rw [if_pos (by simpa using hge)]
      show ((pure (decide (q ≤ m.max)) : Call σ Bool) >>= _) s = _
      rw [Call.pure_bind']
      by_cases hle : q ≤ m.max
      · rw [if_pos (by simpa using hle), if_pos ⟨hge, hle⟩]
        show ((Call.lift (t.arith oc (q - m.min)) : Call σ Int) >>= _) s = _
        rw [Call.lift_bind]
        cases t.arith oc (q - m.min) with
        | panic => rfl
        | ub => rfl
        | ok d =>
          simp only [Res.ok_bind]
          show ((pure (FC.toUsize d) : Call σ (Option Nat)) >>= _) s = _
          rw [Call.pure_bind']
          cases FC.toUsize d with
          | none => rfl
          | some i =>
            simp only
            unfold IntegerRangeMap.entryAt
            cases m.entries[i]? <;> rfl
      · rw [if_neg (by simpa using hle), if_neg (fun h => hle h.2)]
        rfl
    · rw [if_neg (by simpa using hge), if_neg (fun h => hge h.1)]
      rfl
  get m _ _ q := rangeGet_eq_kv m q
  getMut _ _ := rfl
  contains _ _ := rfl
  index _ _ := rfl
  indexMut _ _ := rfl
  many _ _ := rfl
  nodup := by
    rintro m _ ⟨rfl, h1, h2⟩ qs rs h
    exact IntegerRangeMap.nodup hb h1 h2 qs rs h
  len := by rintro m _ ⟨rfl, _⟩; rfl
  iter := by rintro m _ ⟨rfl, _⟩; rfl
  keys := by rintro m _ ⟨rfl, _⟩; rfl
  values := by rintro m _ ⟨rfl, _⟩; rfl
  write := by rintro m _ i v ⟨rfl, h1, h2⟩; exact ⟨rfl, h1, h2⟩

theorem RMap.fromVec_code (oc : Bool) (t : IntTy) (_hb : 0 < t.bits) (payload : List (Int × V))
    (hr : ∀ e ∈ payload, t.InRange e.1) (s : σ) :
    (∃ m m', IntegerRangeMap.fromVec oc t payload = .ok m ∧
      RMap.fromVec (t.rangeCode oc) payload s = .ok (m', s) ∧ RSame t m m') ∨
    (IntegerRangeMap.fromVec oc t payload = .panic ∧
      RMap.fromVec (t.rangeCode oc) payload s = .panic) := by
  have hz : t.InRange 0 := by
    unfold IntTy.InRange IntTy.lo IntTy.hi
    have h1 : (0 : Int) < 2 ^ (t.bits - 1) := by positivity
    have h2 : (0 : Int) < 2 ^ t.bits := by positivity
    split
    · omega
    · omega
  unfold IntegerRangeMap.fromVec RMap.fromVec
  by_cases he : payload = []
  · subst he
    exact Or.inl ⟨⟨0, 0, []⟩, ⟨0, 0, []⟩, rfl, rfl, rfl, hz, hz⟩
  · rw [if_neg (by simpa using he)]
    have hsort : ∀ e ∈ stableSortByKey (·.1) payload, t.InRange e.1 := fun e hmem =>
      hr e ((stableSort_perm _ _).mem_iff.1 hmem)
    have hne : stableSortByKey (·.1) payload ≠ [] := by
      intro h
      have := (stableSort_perm (·.1) payload).length_eq
      rw [h] at this
      exact he (List.eq_nil_of_length_eq_zero this.symm)
    show (∃ m m', _ ∧ ((pure (stableSortByKey (·.1) payload) : Call σ _) >>= _) s = _ ∧ _) ∨
      (_ ∧ ((pure (stableSortByKey (·.1) payload) : Call σ _) >>= _) s = _)
    rw [Call.pure_bind']
    cases hsorted : stableSortByKey (·.1) payload with
    | nil => exact absurd hsorted hne
    | cons first rest =>
      rw [hsorted] at hsort
      have hlast : (first :: rest).getLast? = some ((first :: rest).getLast (by simp)) :=
        List.getLast?_eq_some_getLast (by simp)
      have h1 : t.InRange first.1 := hsort first (by simp)
      have h2 : t.InRange ((first :: rest).getLast (by simp)).1 :=
        hsort _ (List.getLast_mem (by simp))
      simp only [List.head?_cons, hlast]
      generalize (first :: rest).getLast (by simp) = last at h2 ⊢
      generalize hn : (first :: rest).length - 1 = n
      show (∃ m m', _ ∧ ((Call.lift (t.arith oc (last.1 - first.1)) : Call σ _) >>= _) s = _ ∧ _) ∨
        (_ ∧ ((Call.lift (t.arith oc (last.1 - first.1)) : Call σ _) >>= _) s = _)
      rw [Call.lift_bind]
      have hub := IntTy.arith_ne_ub t oc (last.1 - first.1)
      cases ha : t.arith oc (last.1 - first.1) with
      | panic => exact Or.inr ⟨rfl, rfl⟩
      | ub => exact absurd ha hub
      | ok d =>
        simp only [Res.ok_bind]
        show (∃ m m', _ ∧ ((pure (FC.toUsize d) : Call σ _) >>= _) s = _ ∧ _) ∨
          (_ ∧ ((pure (FC.toUsize d) : Call σ _) >>= _) s = _)
        rw [Call.pure_bind']
        cases FC.toUsize d with
        | none => exact Or.inr ⟨rfl, rfl⟩
        | some k =>
          simp only [Res.unwrap, Res.ok_bind]
          by_cases hk : k = n
          · rw [if_pos hk, decide_eq_true hk]
            exact Or.inl ⟨_, _, rfl, rfl, rfl, h1, h2⟩
          · rw [if_neg hk, decide_eq_false hk]
            exact Or.inr ⟨rfl, rfl⟩

end

end FC
