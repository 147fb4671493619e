import Verif.Spec.EqCalls
import Verif.Lemmas.Calls

/-
Lemmas about the calls of `==`.
-/

set_option autoImplicit false

namespace FC
variable [Target]
variable {σ K V Q α β E E' : Type}

/-! ### Renaming the events of a log -/

/-- `c'` does what `c` does, and logs what `c` logs, renamed by `f`. -/
def Translates (f : E → E') (c' : Call (σ × List E') α) (c : Call (σ × List E) α) : Prop :=
  ∀ s log₀ log, c' (s, log₀ ++ log.map f)
    = (c (s, log)).map (fun r => (r.1, (r.2.1, log₀ ++ r.2.2.map f)))

variable {f : E → E'}

omit [Target] in
theorem Translates.pure {a : α} : Translates f (pure a : Call (σ × List E') α) (pure a) :=
  fun _ _ _ => rfl

omit [Target] in
theorem Translates.lift {r : Res α} :
    Translates f (Call.lift r : Call (σ × List E') α) (Call.lift r) := by
  intro s log₀ log
  cases r <;> rfl

omit [Target] in
theorem Translates.noted (g : α → E) (c : Call σ α) :
    Translates f (c.noted (fun a => f (g a))) (c.noted g) := by
  intro s log₀ log
  unfold Call.noted
  cases c s with
  | ok r => simp
  | panic => rfl
  | ub => rfl

omit [Target] in
theorem Translates.bind {c' : Call (σ × List E') α} {c : Call (σ × List E) α}
    {g' : α → Call (σ × List E') β} {g : α → Call (σ × List E) β} (hc : Translates f c' c)
    (hg : ∀ a, Translates f (g' a) (g a)) : Translates f (c' >>= g') (c >>= g) := by
  intro s log₀ log
  rw [Call.bind_apply, Call.bind_apply, hc s log₀ log]
  cases c (s, log) with
  | ok r => exact hg r.1 r.2.1 log₀ r.2.2
  | panic => rfl
  | ub => rfl

omit [Target] in
theorem Translates.ite {P : Prop} [Decidable P] {c' d' : Call (σ × List E') α}
    {c d : Call (σ × List E) α} (hc : Translates f c' c) (hd : Translates f d' d) :
    Translates f (if P then c' else d') (if P then c else d) := by
  by_cases h : P
  · simp only [if_pos h]; exact hc
  · simp only [if_neg h]; exact hd

omit [Target] in
theorem Translates.mapList {g' : α → Call (σ × List E') β} {g : α → Call (σ × List E) β}
    (hg : ∀ a, Translates f (g' a) (g a)) (l : List α) :
    Translates f (Call.mapList g' l) (Call.mapList g l) := by
  induction l with
  | nil => exact .pure
  | cons a l ih => exact (hg a).bind (fun b => ih.bind (fun bs => .pure))

omit [Target] in
theorem Translates.anyList {g' : α → Call (σ × List E') Bool} {g : α → Call (σ × List E) Bool}
    (hg : ∀ a, Translates f (g' a) (g a)) (l : List α) :
    Translates f (Call.anyList g' l) (Call.anyList g l) := by
  induction l with
  | nil => exact .pure
  | cons a l ih => exact (hg a).bind (fun b => .ite .pure ih)

omit [Target] in
/-- What is known of one log is known of the other. -/
theorem Translates.logs {c' : Call (σ × List E') α} {c : Call (σ × List E) α}
    (h : Translates f c' c) {P : α → List E → Prop} (hc : Logs c P) :
    Logs c' (fun a ev => ∃ ev₀, ev = ev₀.map f ∧ P a ev₀) := by
  intro s log a s' log' he
  have h0 := h s log []
  simp only [List.map_nil, List.append_nil] at h0
  rw [h0] at he
  cases hcs : c (s, []) with
  | ok r =>
    rw [hcs] at he
    obtain ⟨b, t, l⟩ := r
    obtain ⟨ev, h1, h2⟩ := hc _ _ _ _ _ hcs
    cases he
    exact ⟨_, rfl, l, rfl, by simpa [h1] using h2⟩
  | panic => rw [hcs] at he; cases he
  | ub => rw [hcs] at he; cases he

theorem HashTable.newU_translates (env : Env) (S : IdxTy) (payload : List (K × V)) (n : Nat)
    {hash' : K → Call (σ × List E') Nat} {hash : K → Call (σ × List E) Nat}
    (hh : ∀ k, Translates f (hash' k) (hash k)) :
    Translates f (HashTable.newU env S payload n hash') (HashTable.newU env S payload n hash) := by
  unfold HashTable.newU
  refine .ite .pure (Translates.lift.bind (fun cap => .ite .lift ((Translates.mapList (fun e =>
    (hh e.1).bind (fun c => Translates.lift.bind (fun s => .pure))) payload).bind (fun prep =>
    Translates.lift.bind (fun r => .ite .lift .pure)))))

/-- Call by call, `u'` logs what `u` logs, renamed. -/
structure UserCode.Translates (f : E → E') (u' : UserCode (σ × List E') K Q) (u : UserCode (σ × List E) K Q) : Prop where
  sizeCode : ∀ k, FC.Translates f (u'.sizeCode k) (u.sizeCode k)
  slotCode : ∀ k, FC.Translates f (u'.slotCode k) (u.slotCode k)
  probeCode : ∀ q, FC.Translates f (u'.probeCode q) (u.probeCode q)
  isMatch : ∀ q k, FC.Translates f (u'.isMatch q k) (u.isMatch q k)
  isSame : ∀ a b, FC.Translates f (u'.isSame a b) (u.isSame a b)

theorem UMap.fromVec_translates (env : Env) (S : IdxTy) {u' : UserCode (σ × List E') K Q}
    {u : UserCode (σ × List E) K Q} (hu : UserCode.Translates f u' u) (payload : List (K × V)) :
    Translates f (UMap.fromVec env S u' payload) (UMap.fromVec env S u payload) := by
  unfold UMap.fromVec
  refine (Translates.mapList (fun e => ?_) payload).bind (fun codes =>
    Translates.lift.bind (fun r => (HashTable.newU_translates env S payload _
      (fun k => hu.slotCode k)).bind (fun T => .pure)))
  exact hu.sizeCode e.1

theorem UMap.facade_translates (env : Env) {u' : UserCode (σ × List E') K Q}
    {u : UserCode (σ × List E) K Q} (hu : UserCode.Translates f u' u) (payload : List (K × V)) :
    Translates f (UMap.facade env u' payload) (UMap.facade env u payload) :=
  .ite .pure (.ite (UMap.fromVec_translates _ _ hu _) (UMap.fromVec_translates _ _ hu _))

omit [Target] in
theorem UMap.scan_translates {u' : UserCode (σ × List E') K Q}
    {u : UserCode (σ × List E) K Q} (hu : UserCode.Translates f u' u) (q : Q) (es : List (K × V)) : ∀ i,
    Translates f (UMap.scan u' q i es) (UMap.scan u q i es) := by
  induction es with
  | nil => exact fun i => .pure
  | cons e es ih =>
    exact fun i => (hu.isMatch q e.1).bind (fun b => .ite .pure (ih (i + 1)))

omit [Target] in
theorem UMap.lookup_translates {u' : UserCode (σ × List E') K Q}
    {u : UserCode (σ × List E) K Q} (hu : UserCode.Translates f u' u) (m : UMap K V) (q : Q) :
    Translates f (m.lookup u' q) (m.lookup u q) := by
  cases m with
  | scanning es => exact UMap.scan_translates hu q es 0
  | hashed T =>
    exact (hu.probeCode q).bind (fun c => Translates.lift.bind (fun r =>
      Translates.lift.bind (fun es => UMap.scan_translates hu q es r.1)))

omit [Target] in
theorem UMap.hasDup_translates {u' : UserCode (σ × List E') K Q}
    {u : UserCode (σ × List E) K Q} (hu : UserCode.Translates f u' u) (ks : List Q) : ∀ seen : List Q,
    Translates f (UMap.hasDup u' seen ks) (UMap.hasDup u seen ks) := by
  induction ks with
  | nil => exact fun seen => .pure
  | cons k ks ih =>
    exact fun seen => (Translates.anyList (fun s => hu.isSame s k) seen).bind
      (fun b => .ite .pure (ih (seen ++ [k])))

omit [Target] in
theorem UMap.getAll_translates {u' : UserCode (σ × List E') K Q}
    {u : UserCode (σ × List E) K Q} (hu : UserCode.Translates f u' u) (m : UMap K V) (qs : List Q) :
    Translates f (m.getAll u' qs) (m.getAll u qs) := by
  induction qs with
  | nil => exact .pure
  | cons q qs ih =>
    refine (UMap.lookup_translates hu m q).bind (fun o => ?_)
    cases o with
    | none => exact .pure
    | some r =>
      refine ih.bind (fun o => ?_)
      cases o <;> exact .pure

omit [Target] in
theorem UMap.step_translates {u' : UserCode (σ × List E') K Q}
    {u : UserCode (σ × List E) K Q} (hu : UserCode.Translates f u' u) (m : UMap K V) (op : MapOp V Q) :
    Translates f (m.step u' op) (m.step u op) := by
  have hl := UMap.lookup_translates hu m
  cases op with
  | get q => exact (hl q).bind (fun _ => .pure)
  | getKeyValue q => exact (hl q).bind (fun _ => .pure)
  | containsKey q => exact (hl q).bind (fun _ => .pure)
  | index q => exact (hl q).bind (fun o => by cases o <;> first | exact .pure | exact .lift)
  | len => exact .pure
  | iter => exact .pure
  | keys => exact .pure
  | values => exact .pure
  | getMut q v => exact (hl q).bind (fun o => by cases o <;> exact .pure)
  | indexMut q v => exact (hl q).bind (fun o => by cases o <;> first | exact .pure | exact .lift)
  | getManyMut qvs =>
    refine Translates.bind ((UMap.hasDup_translates hu _ []).bind (fun b =>
      .ite .pure (UMap.getAll_translates hu m _))) (fun o => ?_)
    cases o with
    | none => exact .pure
    | some rs => exact .ite .pure .lift

omit [Target] in
theorem UMap.run_translates {u' : UserCode (σ × List E') K Q}
    {u : UserCode (σ × List E) K Q} (hu : UserCode.Translates f u' u) (ops : List (MapOp V Q)) : ∀ m : UMap K V,
    Translates f (m.run u' ops) (m.run u ops) := by
  induction ops with
  | nil => exact fun m => .pure
  | cons op ops ih =>
    exact fun m => (UMap.step_translates hu m op).bind (fun r => (ih r.2).bind (fun rs => .pure))

omit [Target] in
theorem UserCode.loggedEq_translates (u : UserCode σ K K) :
    UserCode.Translates (EqEvent.key (V := V)) u.loggedEq u.logged :=
  ⟨fun _ => .noted _ _, fun _ => .noted _ _, fun _ => .noted _ _, fun _ _ => .noted _ _,
    fun _ _ => .noted _ _⟩

/-! ### Histories, with what the map is afterwards -/

omit [Target] in
theorem UMap.run_logs_after (u : UserCode σ K Q) {lay : Option Layout} (ops : List (MapOp V Q)) :
    ∀ {m : UMap K V}, m.Laid lay → Logs (m.run u.logged ops)
      (fun r ev => CallsAll (m.entries.map (·.1)) lay ops r.1 ev ∧
        r.2.entries.map (·.1) = m.entries.map (·.1) ∧ r.2.Laid lay) := by
  induction ops with
  | nil => exact fun hm => .pure ⟨.nil, rfl, hm⟩
  | cons op ops ih =>
    intro m hm
    unfold UMap.run
    refine (UMap.step_logs u hm op).bind (fun r ev hr =>
      (ih hr.2.2).bind (fun rs ev' hrs => .pure ?_))
    obtain ⟨h1, h2, h3⟩ := hrs
    rw [hr.2.1] at h1 h2
    exact ⟨by simpa using .cons m.entries op ops _ _ ev ev' rfl hr.1 h1, h2, h3⟩

/-! ### `==` -/

omit [Target] in
theorem UMap.agrees_logs (u : UserCode σ K K) (veq : V → V → Call σ Bool) {m : UMap K V}
    {lay : Option Layout} (hm : m.Laid lay) (es : List (K × V)) :
    Logs (Call.allList (fun e : K × V => do
      match ← m.lookup (u.loggedEq (V := V)) e.1 with
      | none => return false
      | some r => loggedVals veq e.2 r.2.val) es) (Agrees m.entries lay es) := by
  induction es with
  | nil => exact .pure .done
  | cons e es ih =>
    unfold Call.allList
    have hl := (UMap.lookup_translates (u.loggedEq_translates (V := V)) m e.1).logs
      (UMap.lookup_logs u hm e.1)
    refine (hl.bind (R := fun b ev => ∀ (b' : Bool) (ev' : List (EqEvent K V)),
      (if b then Agrees m.entries lay es b' ev' else b' = false ∧ ev' = []) →
      Agrees m.entries lay (e :: es) b' (ev ++ ev')) (fun o ev hev => ?_)).bind
      (fun b ev hev => ?_)
    · obtain ⟨ev₀, rfl, h0⟩ := hev
      cases o with
      | none =>
        refine .pure (fun b' ev' h => ?_)
        obtain ⟨rfl, rfl⟩ : b' = false ∧ ev' = [] := by simpa using h
        simpa using .missing e es ev₀ h0
      | some r =>
        refine (Logs.noted _ (veq e.2 r.2.val)).mono (fun b ev h => ?_)
        subst h
        intro b' ev' h'
        cases b with
        | true =>
          have h' : Agrees m.entries lay es b' ev' := by simpa using h'
          simpa using Agrees.same e (r.1, r.2.val) es b' ev₀ ev' h0 h'
        | false =>
          obtain ⟨rfl, rfl⟩ : b' = false ∧ ev' = [] := by simpa using h'
          simpa using Agrees.differ e (r.1, r.2.val) es ev₀ h0
    · cases b with
      | true => exact ih.mono (fun b' ev' h => hev b' ev' (by simpa using h))
      | false => exact .pure (hev false [] (by simp))

omit [Target] in
theorem UMap.partialEq_logs (u : UserCode σ K K) (veq : V → V → Call σ Bool) (m₁ : UMap K V)
    {m : UMap K V} {lay : Option Layout} (hm : m.Laid lay) :
    Logs (m₁.partialEq u.loggedEq (loggedVals veq) m) (EqCalls m₁.entries m.entries lay) := by
  unfold UMap.partialEq
  refine .ite (fun h => .pure ?_) (fun h => (UMap.agrees_logs u veq hm m₁.entries).mono
    (fun b ev hb => ?_))
  · unfold EqCalls
    rw [if_neg (by simpa [UMap.len] using h)]
    exact ⟨rfl, rfl⟩
  · unfold EqCalls
    rw [if_pos (by simpa [UMap.len] using h)]
    exact hb

/-! ### The log of `==` changes nothing -/

omit [Target] in
theorem UserCode.loggedEq_forgets (u : UserCode σ K K) : (u.loggedEq (V := V)).Forgets u :=
  ⟨fun k => Forgets.noted (E := EqEvent K V) (fun c => .key (.sized k c)) (u.sizeCode k),
    fun k => Forgets.noted (E := EqEvent K V) (fun c => .key (.placed k c)) (u.slotCode k),
    fun q => Forgets.noted (E := EqEvent K V) (fun c => .key (.hashed q c)) (u.probeCode q),
    fun q k => Forgets.noted (E := EqEvent K V) (fun b => .key (.compared q k b)) (u.isMatch q k),
    fun a b => Forgets.noted (E := EqEvent K V) (fun c => .key (.paired a b c)) (u.isSame a b)⟩

omit [Target] in
theorem Forgets.allList {g' : α → Call (σ × List E) Bool} {g : α → Call σ Bool}
    (hg : ∀ a, Forgets (g' a) (g a)) (l : List α) :
    Forgets (Call.allList g' l) (Call.allList g l) := by
  induction l with
  | nil => exact .pure
  | cons a l ih => exact (hg a).bind (fun b => .ite ih .pure)

omit [Target] in
theorem UMap.partialEq_forgets (u : UserCode σ K K) (veq : V → V → Call σ Bool) (m₁ m : UMap K V) :
    Forgets (m₁.partialEq u.loggedEq (loggedVals veq) m) (m₁.partialEq u veq m) := by
  unfold UMap.partialEq
  refine .ite .pure (Forgets.allList (fun e => ?_) _)
  refine (UMap.lookup_forgets u.loggedEq_forgets m e.1).bind (fun o => ?_)
  cases o with
  | none => exact .pure
  | some r => exact .noted _ _

end FC
