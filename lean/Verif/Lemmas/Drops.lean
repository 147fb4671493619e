import Verif.Spec.Drops
import Verif.Spec.Clone
import Verif.Spec.StringCode
import Verif.Spec.SetLookups
import Verif.Lemmas.UserCode
import Verif.Lemmas.IntTraits
import Verif.Lemmas.IntTraitsAgree

set_option autoImplicit false

namespace FC
variable [Target]
variable {σ M K V Q α β : Type}

instance Res.lawfulMonad : LawfulMonad Res := LawfulMonad.mk' Res
  (id_map := fun x => by cases x <;> rfl)
  (pure_bind := fun _ _ => rfl)
  (bind_assoc := fun x _ _ => by cases x <;> rfl)

omit [Target] in
theorem droppedIn_append (a b : List (Fact K V)) :
    droppedIn (a ++ b) = droppedIn a ++ droppedIn b := List.filterMap_append

omit [Target] in
theorem clonedIn_append (a b : List (Fact K V)) :
    clonedIn (a ++ b) = clonedIn a ++ clonedIn b := List.filterMap_append

omit [Target] in
theorem droppedIn_map (ts : List (Thing K V)) : droppedIn (ts.map .dropped) = ts := by
  induction ts with
  | nil => rfl
  | cons t ts ih => exact congrArg (t :: ·) ih

omit [Target] in
theorem clonedIn_map (ts : List (Thing K V)) : clonedIn (ts.map .dropped) = [] := by
  induction ts with
  | nil => rfl
  | cons t ts ih => exact ih

/-- `o` does what `c` does, and keeps account of the things `given`. -/
def Tallies (o : Own σ K V α) (c : Call σ α) (given : List (Thing K V))
    (held : α → List (Thing K V)) (post : α → Prop) : Prop :=
  ∀ s log, match o s log with
    | .done a s' log' => c s = .ok (a, s') ∧ post a ∧
        ∃ ev, log' = log ++ ev ∧ (droppedIn ev ++ held a).Perm (given ++ clonedIn ev)
    | .unwound log' => c s = .panic ∧
        ∃ ev, log' = log ++ ev ∧ (droppedIn ev).Perm (given ++ clonedIn ev)
    | .ub => c s = .ub

omit [Target] in
theorem Own.bind_apply (o : Own σ K V α) (f : α → Own σ K V β) (s : σ) (log : List (Fact K V)) :
    (o >>= f) s log = match o s log with
      | .done a s' log' => f a s' log'
      | .unwound log' => .unwound log'
      | .ub => .ub := rfl

omit [Target] in
/-- Balancing two accounts. -/
theorem perm_balance {d₁ h g m₁ d₂ r m₂ : List (Thing K V)} (h₁ : (d₁ ++ h).Perm (g ++ m₁))
    (h₂ : (d₂ ++ r).Perm (h ++ m₂)) : (d₁ ++ d₂ ++ r).Perm (g ++ (m₁ ++ m₂)) := by
  refine (List.append_assoc d₁ d₂ r ▸ List.Perm.append_left d₁ h₂).trans ?_
  rw [← List.append_assoc, ← List.append_assoc]
  exact h₁.append_right m₂

omit [Target] in
theorem Tallies.bind {o : Own σ K V α} {c : Call σ α} {given : List (Thing K V)}
    {held : α → List (Thing K V)} {post : α → Prop} {f : α → Own σ K V β} {g : α → Call σ β}
    {held' : β → List (Thing K V)} {post' : β → Prop} (ho : Tallies o c given held post)
    (hf : ∀ a, post a → Tallies (f a) (g a) (held a) held' post') :
    Tallies (o >>= f) (c >>= g) given held' post' := by
  intro s log
  have h := ho s log
  rw [Own.bind_apply, Call.bind_apply]
  cases e : o s log with
  | done a s' log' =>
    rw [e] at h
    obtain ⟨hc, hp, ev, rfl, hev⟩ := h
    have h' := hf a hp s' (log ++ ev)
    rw [hc]
    simp only
    cases e' : f a s' (log ++ ev) with
    | done b s'' log'' =>
      rw [e'] at h'
      obtain ⟨hg, hp', ev', rfl, hev'⟩ := h'
      refine ⟨hg, hp', ev ++ ev', List.append_assoc .., ?_⟩
      rw [droppedIn_append, clonedIn_append]
      exact perm_balance hev hev'
    | unwound log'' =>
      rw [e'] at h'
      obtain ⟨hg, ev', rfl, hev'⟩ := h'
      refine ⟨hg, ev ++ ev', List.append_assoc .., ?_⟩
      rw [droppedIn_append, clonedIn_append]
      have := perm_balance (r := []) hev (by simpa using hev')
      simpa using this
    | ub => rw [e'] at h'; exact h'
  | unwound log' =>
    rw [e] at h
    obtain ⟨hc, ev, rfl, hev⟩ := h
    rw [hc]
    exact ⟨rfl, ev, rfl, hev⟩
  | ub =>
    rw [e] at h
    have h : c s = .ub := h
    rw [h]
    rfl

omit [Target] in
theorem Tallies.pure {a : α} {given : List (Thing K V)} {held : α → List (Thing K V)}
    {post : α → Prop} (hp : post a) (h : (held a).Perm given) :
    Tallies (Pure.pure a : Own σ K V α) (Pure.pure a) given held post :=
  fun _ _ => ⟨rfl, hp, [], (List.append_nil _).symm, by simpa [droppedIn, clonedIn] using h⟩

omit [Target] in
theorem Tallies.mono {o : Own σ K V α} {c : Call σ α} {given given' : List (Thing K V)}
    {held held' : α → List (Thing K V)} {post post' : α → Prop} (h : Tallies o c given held post)
    (hg : given.Perm given') (hh : ∀ a, post a → (held' a).Perm (held a))
    (hp : ∀ a, post a → post' a) : Tallies o c given' held' post' := by
  intro s log
  have h' := h s log
  cases e : o s log with
  | done a s' log' =>
    rw [e] at h'
    obtain ⟨hc, hpa, ev, rfl, hev⟩ := h'
    exact ⟨hc, hp a hpa, ev, rfl, ((hh a hpa).append_left _).trans (hev.trans (hg.append_right _))⟩
  | unwound log' =>
    rw [e] at h'
    obtain ⟨hc, ev, rfl, hev⟩ := h'
    exact ⟨hc, ev, rfl, hev.trans (hg.append_right _)⟩
  | ub => rw [e] at h'; exact h'

omit [Target] in
theorem Tallies.holding {o : Own σ K V α} {c : Call σ α} {given : List (Thing K V)}
    {held : α → List (Thing K V)} {post : α → Prop} (h : Tallies o c given held post)
    (ts : List (Thing K V)) :
    Tallies (Own.holding ts o) c (given ++ ts) (fun a => held a ++ ts) post := by
  intro s log
  have h' := h s log
  unfold Own.holding
  cases e : o s log with
  | done a s' log' =>
    rw [e] at h'
    obtain ⟨hc, hpa, ev, rfl, hev⟩ := h'
    refine ⟨hc, hpa, ev, rfl, ?_⟩
    have := hev.append_right ts
    rw [List.append_assoc] at this
    refine this.trans ?_
    rw [List.append_assoc, List.append_assoc]
    exact List.perm_append_comm.append_left _
  | unwound log' =>
    rw [e] at h'
    obtain ⟨hc, ev, rfl, hev⟩ := h'
    refine ⟨hc, ev ++ ts.map .dropped, List.append_assoc .., ?_⟩
    rw [droppedIn_append, clonedIn_append, droppedIn_map, clonedIn_map, List.append_nil]
    refine (hev.append_right ts).trans ?_
    rw [List.append_assoc, List.append_assoc]
    exact List.perm_append_comm.append_left _
  | ub => rw [e] at h'; exact h'

omit [Target] in
theorem Tallies.call {c : Call σ α} {post : α → Prop} (h : Behaves True True c post) :
    Tallies (Own.call c : Own σ K V α) c [] (fun _ => []) post := by
  intro s log
  have h' := h s
  unfold Own.call
  cases e : c s with
  | ok r =>
    rw [e] at h'
    exact ⟨rfl, h', [], (List.append_nil _).symm, .refl _⟩
  | panic => exact ⟨rfl, [], (List.append_nil _).symm, .refl _⟩
  | ub => rfl

omit [Target] in
theorem behaves_any (c : Call σ α) : Behaves True True c (fun _ => True) := by
  intro s
  cases c s <;> trivial

omit [Target] in
/-- Borrowing code run by a function that owns `ts`. -/
theorem Tallies.held {c : Call σ α} {post : α → Prop} (h : Behaves True True c post)
    (ts : List (Thing K V)) :
    Tallies (Own.holding ts (Own.call c)) c ts (fun _ => ts) post :=
  (Tallies.call h).holding ts

omit [Target] in
theorem Tallies.drop (ts : List (Thing K V)) :
    Tallies (Own.drop ts : Own σ K V Unit) (Pure.pure ()) ts (fun _ => []) (fun _ => True) := by
  intro s log
  refine ⟨rfl, trivial, ts.map .dropped, rfl, ?_⟩
  rw [droppedIn_map, clonedIn_map]

omit [Target] in
/-- Dropping, then going on with what is left. -/
theorem Tallies.dropThen {f : Unit → Own σ K V α} {c : Call σ α} {rest : List (Thing K V)}
    {held : α → List (Thing K V)} {post : α → Prop} (h : Tallies (f ()) c rest held post)
    (ts : List (Thing K V)) :
    Tallies (Own.drop ts >>= f) c (ts ++ rest) held post := by
  have e : c = (Pure.pure () : Call σ Unit) >>= fun _ => c := rfl
  rw [e]
  refine Tallies.bind (held := fun _ => rest) (post := fun _ => True) ?_ (fun _ _ => h)
  exact (Tallies.drop ts).holding rest

omit [Target] in
theorem Tallies.cloning (t : α → Thing K V) (c : Call σ α) :
    Tallies (Own.cloning t c) c [] (fun a => [t a]) (fun _ => True) := by
  intro s log
  unfold Own.cloning
  cases e : c s with
  | ok r => exact ⟨rfl, trivial, [.cloned (t r.1)], rfl, .refl _⟩
  | panic => exact ⟨rfl, [], (List.append_nil _).symm, .refl _⟩
  | ub => rfl

omit [Target] in
theorem Tallies.panic (ts : List (Thing K V)) (held : α → List (Thing K V)) (post : α → Prop) :
    Tallies (Own.holding ts (Own.call (Call.lift .panic))) (Call.lift .panic : Call σ α) ts held
      post := by
  intro s log
  refine ⟨rfl, ts.map .dropped, rfl, ?_⟩
  rw [droppedIn_map, clonedIn_map, List.append_nil]

omit [Target] in
theorem Tallies.ub (given : List (Thing K V)) (held : α → List (Thing K V)) (post : α → Prop) :
    Tallies (Own.call (Call.lift .ub)) (Call.lift .ub : Call σ α) given held post := fun _ _ => rfl

omit [Target] in
theorem Tallies.accounts {o : Own σ K V α} {c : Call σ α} {given : List (Thing K V)}
    {held : α → List (Thing K V)} {post : α → Prop} (h : Tallies o c given held post) :
    Accounts o given held := by
  intro s
  have h' := h s []
  cases e : o s [] with
  | done a s' log =>
    rw [e] at h'
    obtain ⟨_, _, ev, rfl, hev⟩ := h'
    exact hev
  | unwound log =>
    rw [e] at h'
    obtain ⟨_, ev, rfl, hev⟩ := h'
    exact hev
  | ub => trivial

omit [Target] in
theorem Tallies.forget {o : Own σ K V α} {c : Call σ α} {given : List (Thing K V)}
    {held : α → List (Thing K V)} {post : α → Prop} (h : Tallies o c given held post) :
    o.forget = c := by
  funext s
  have h' := h s []
  unfold Own.forget
  cases e : o s [] with
  | done a s' log => rw [e] at h'; exact h'.1.symm
  | unwound log => rw [e] at h'; exact h'.1.symm
  | ub => rw [e] at h'; exact h'.symm

/-! ### Construction -/

omit [Target] in
theorem things_append (a b : List (K × V)) : things (a ++ b) = things a ++ things b :=
  List.flatMap_append

omit [Target] in
theorem things_perm {a b : List (K × V)} (h : a.Perm b) : (things a).Perm (things b) :=
  h.flatMap_right _

omit [Target] in
theorem prepLoopO_tracks (n : Nat) (hash : K → Call σ Nat) (rest : List (K × V))
    (prep : List (PrepItem K V)) :
    Tallies (prepLoopO n hash rest prep)
      (do
        let bs ← Call.mapList (fun e : K × V => do
          let code ← hash e.1
          let slot ← Call.lift (umod code n)
          return (⟨slot, e⟩ : PrepItem K V)) rest
        return prep ++ bs)
      (things rest ++ prepThings prep) prepThings (fun _ => True) := by
  induction rest generalizing prep with
  | nil =>
    have e : (do
        let bs ← Call.mapList (fun e : K × V => (do
          let code ← hash e.1
          let slot ← Call.lift (umod code n)
          return (⟨slot, e⟩ : PrepItem K V) : Call σ (PrepItem K V))) []
        return prep ++ bs : Call σ (List (PrepItem K V))) = pure prep := by
      simp [Call.mapList]
    rw [e]
    exact Tallies.pure trivial (by simp [things])
  | cons e rest ih =>
    have e' : (do
        let bs ← Call.mapList (fun e : K × V => (do
          let code ← hash e.1
          let slot ← Call.lift (umod code n)
          return (⟨slot, e⟩ : PrepItem K V) : Call σ (PrepItem K V))) (e :: rest)
        return prep ++ bs : Call σ (List (PrepItem K V)))
      = (do
        let slot ← (do
          let code ← hash e.1
          Call.lift (umod code n))
        let bs ← Call.mapList (fun e : K × V => (do
          let code ← hash e.1
          let slot ← Call.lift (umod code n)
          return (⟨slot, e⟩ : PrepItem K V) : Call σ (PrepItem K V))) rest
        return (prep ++ [⟨slot, e⟩]) ++ bs) := by
      simp [Call.mapList]
    rw [e']
    refine Tallies.bind ((Tallies.held (behaves_any _) _).mono ?_ (fun _ _ => .refl _)
      (fun _ _ => trivial)) (fun slot _ => (ih (prep ++ [⟨slot, e⟩])).mono ?_ (fun _ _ => .refl _)
      (fun _ _ => trivial))
    · simp [things]
    · simp only [prepThings, List.map_append, things_append, List.map_cons, List.map_nil]
      rw [← List.append_assoc]
      refine List.perm_append_comm.trans ?_
      rw [List.append_assoc]

omit [Target] in
theorem runLoop_perm (slot : Nat) (item : PrepItem K V) (stack : List (PrepItem K V))
    (entries : List (K × V)) (n : Nat) :
    (runLoop slot item stack entries n).2.1 ++ ((runLoop slot item stack entries n).1).map PrepItem.entry
      = entries ++ item.entry :: stack.map PrepItem.entry := by
  induction stack generalizing item entries n with
  | nil => simp [runLoop]
  | cons next stack ih =>
    unfold runLoop
    split
    · simp
    · rw [ih]
      simp

omit [Target] in
theorem fillLoop_cons (oc : Bool) (S : IdxTy) (item : PrepItem K V) (stack : List (PrepItem K V))
    (slots : List Slot) (entries : List (K × V)) (i : Int) :
    fillLoop oc S (item :: stack) slots entries i
      = (slotOf oc S item.slot (runLoop item.slot item stack entries 0).2.2 slots i).bind fun p =>
        fillLoop oc S (runLoop item.slot item stack entries 0).1 p.1
          (runLoop item.slot item stack entries 0).2.1 p.2 := by
  rw [fillLoop]
  unfold slotOf
  simp only [Bind.bind, Pure.pure]
  rcases h₁ : IntTy.i32.arith oc ((runLoop item.slot item stack entries 0).2.2 : Int) with ne | _ | _
    <;> simp only [Res.bind]
  rcases h₂ : S.ofI32 i with mn | _ | _ <;> simp only [Res.bind]
  rcases h₃ : S.ofI32 ne with cnt | _ | _ <;> simp only [Res.bind]
  rcases h₄ : S.add oc mn cnt with mx | _ | _ <;> simp only [Res.bind]
  by_cases hs : item.slot < slots.length
  · simp only [hs, if_true]
    rcases IntTy.i32.arith oc (i + ne) with _ | _ | _ <;> simp only [Res.bind]
  · simp only [hs, if_false]

omit [Target] in
theorem fillLoopO_tracks (oc : Bool) (S : IdxTy) (stack : List (PrepItem K V)) (slots : List Slot)
    (entries : List (K × V)) (i : Int) :
    Tallies (σ := σ) (fillLoopO oc S stack slots entries i)
      (Call.lift (fillLoop oc S stack slots entries i))
      (things entries ++ prepThings stack) (fun r => things r.2) (fun _ => True) := by
  induction h : stack.length using Nat.strong_induction_on generalizing stack slots entries i with
  | _ n ih =>
    cases stack with
    | nil =>
      rw [fillLoopO, fillLoop]
      exact Tallies.pure trivial (by simp [prepThings, things])
    | cons item stack =>
      rw [fillLoopO, fillLoop_cons]
      have e : (Call.lift ((slotOf oc S item.slot (runLoop item.slot item stack entries 0).2.2 slots
            i).bind fun p => fillLoop oc S (runLoop item.slot item stack entries 0).1 p.1
            (runLoop item.slot item stack entries 0).2.1 p.2) : Call σ _)
          = Call.lift (slotOf oc S item.slot (runLoop item.slot item stack entries 0).2.2 slots i)
            >>= fun p => Call.lift (fillLoop oc S (runLoop item.slot item stack entries 0).1 p.1
              (runLoop item.slot item stack entries 0).2.1 p.2) := by
        funext s
        rw [Call.bind_apply]
        unfold Call.lift
        cases slotOf oc S item.slot (runLoop item.slot item stack entries 0).2.2 slots i <;> rfl
      rw [e]
      have hr := runLoop_perm item.slot item stack entries 0
      have hle := runLoop_stack_le item.slot item stack entries 0
      refine Tallies.bind ((Tallies.held (behaves_any _) _).mono ?_ (fun _ _ => .refl _)
        (fun _ _ => trivial)) (fun p _ => (ih _ ?_ _ p.1 _ p.2 rfl).mono ?_ (fun _ _ => .refl _)
        (fun _ _ => trivial))
      · simp only [prepThings, ← things_append]
        refine things_perm ?_
        rw [List.map_cons, ← hr, List.map_reverse]
        exact (List.reverse_perm _).append_left _
      · rw [← h, List.length_cons]
        omega
      · simp only [prepThings, ← things_append]
        refine things_perm ?_
        rw [List.map_reverse]
        exact (List.reverse_perm _).symm.append_left _

theorem HashTable.newO_tracks (env : Env) (S : IdxTy) (payload : List (K × V)) (n : Nat)
    (hash : K → Call σ Nat) :
    Tallies (HashTable.newO env S payload n hash) (HashTable.newU env S payload n hash)
      (things payload) (fun t => things t.entries) (fun _ => True) := by
  unfold HashTable.newO HashTable.newU
  split
  · rename_i he
    have := (Tallies.drop (σ := σ) (things payload)).bind (f := fun _ => pure (⟨1, [⟨0, 0⟩], []⟩ : HashTable K V))
      (g := fun _ => pure (⟨1, [⟨0, 0⟩], []⟩ : HashTable K V)) (held' := fun t => things t.entries)
      (post' := fun _ => True) (fun _ _ => Tallies.pure trivial (.refl _))
    exact this
  · refine Tallies.bind (Tallies.held (behaves_any _) _) (fun cap _ => ?_)
    split
    · exact Tallies.panic _ _ _
    · have := (prepLoopO_tracks n hash payload [])
      simp only [List.nil_append, bind_pure] at this
      refine Tallies.bind (this.mono (by simp [prepThings, things]) (fun _ _ => .refl _) fun _ _ => trivial)
        (fun prep _ => ?_)
      refine Tallies.bind ((fillLoopO_tracks env.oc S _ _ [] 0).mono ?_ (fun _ _ => .refl _)
        fun _ _ => trivial) (fun r _ => ?_)
      · simp only [things, List.flatMap_nil, List.nil_append]
        refine things_perm ?_
        rw [List.map_reverse]
        exact (List.reverse_perm _).trans ((env.srt.perm _ _).map _)
      · obtain ⟨slots, entries⟩ := r
        show Tallies (if slots.length = 0 then _ else _) (if slots.length = 0 then _ else _) _ _ _
        split
        · exact Tallies.panic _ _ _
        · exact Tallies.pure trivial (.refl _)

theorem UMap.fromVecO_tracks (env : Env) (S : IdxTy) (u : UserCode σ K Q) (payload : List (K × V)) :
    Tallies (UMap.fromVecO env S u payload) (UMap.fromVec env S u payload) (things payload)
      (fun m => things m.entries) (fun _ => True) := by
  have e : UMap.fromVec env S u payload = (do
      let n ← (do
        let codes ← Call.mapList (fun e : K × V => u.sizeCode e.1) payload
        let analysis ← Call.lift (analyzeHashCodes codes)
        return analysis.numHashSlots)
      let table ← HashTable.newU env S payload n u.slotCode
      return .hashed table) := by
    simp [UMap.fromVec]
  rw [e]
  exact Tallies.bind (Tallies.held (behaves_any _) _) fun n _ =>
    (HashTable.newO_tracks env S payload n u.slotCode).bind fun t _ =>
      Tallies.pure trivial (.refl _)

theorem UMap.facadeO_tracks (env : Env) (u : UserCode σ K Q) (payload : List (K × V)) :
    Tallies (UMap.facadeO env u payload) (UMap.facade env u payload) (things payload)
      (fun m => things m.entries) (fun _ => True) := by
  unfold UMap.facadeO UMap.facade
  split
  · exact Tallies.pure trivial (.refl _)
  · split
    · exact UMap.fromVecO_tracks env _ u payload
    · exact UMap.fromVecO_tracks env _ u payload

theorem UMap.stringFacadeO_tracks (env : Env) (h : HasherCode σ) (payload : List (Bytes × V)) :
    Tallies (UMap.stringFacadeO env h payload) (UMap.stringFacade env h payload) (things payload)
      (fun m => things m.2.entries) (fun _ => True) := by
  unfold UMap.stringFacadeO UMap.stringFacade
  split
  · exact Tallies.pure trivial (.refl _)
  · refine Tallies.bind (Tallies.held (behaves_any _) _) fun verdict _ => ?_
    split
    · exact (UMap.fromVecO_tracks env _ _ payload).bind fun t _ => Tallies.pure trivial (.refl _)
    · exact (UMap.fromVecO_tracks env _ _ payload).bind fun t _ => Tallies.pure trivial (.refl _)

omit [Target] in
theorem Source.vecO_tracks (src : Source (K × V)) :
    Tallies (src.vecO : Own σ K V _) (Call.lift src.vec)
      (things src.items) things
      (fun _ => True) := by
  cases src with
  | ends items => exact Tallies.pure trivial (.refl _)
  | panics items => exact Tallies.panic _ _ _

/-! ### Clones -/

omit [Target] in
theorem cloneEntriesO_tracks (ck : K → Call σ K) (cv : V → Call σ V) (es made : List (K × V)) :
    Tallies (cloneEntriesO ck cv es made)
      (do
        let bs ← Call.mapList (fun e : K × V => do return (← ck e.1, ← cv e.2)) es
        return made ++ bs)
      (things made) things (fun _ => True) := by
  induction es generalizing made with
  | nil =>
    have e : (do
        let bs ← Call.mapList (fun e : K × V => (do return (← ck e.1, ← cv e.2) : Call σ (K × V))) []
        return made ++ bs : Call σ (List (K × V))) = pure made := by
      simp [Call.mapList]
    rw [e]
    exact Tallies.pure trivial (.refl _)
  | cons x es ih =>
    have e : (do
        let bs ← Call.mapList (fun e : K × V => (do return (← ck e.1, ← cv e.2) : Call σ (K × V)))
          (x :: es)
        return made ++ bs : Call σ (List (K × V)))
      = (do
        let k ← ck x.1
        let v ← cv x.2
        let bs ← Call.mapList (fun e : K × V => (do return (← ck e.1, ← cv e.2) : Call σ (K × V))) es
        return (made ++ [(k, v)]) ++ bs) := by
      simp [Call.mapList]
    rw [e]
    refine Tallies.bind ((Tallies.cloning .key (ck x.1)).holding _) fun k _ => ?_
    refine Tallies.bind (((Tallies.cloning .value (cv x.2)).holding _).mono (by simp)
      (fun _ _ => .refl _) (fun _ _ => trivial)) fun v _ => ?_
    refine (ih (made ++ [(k, v)])).mono ?_ (fun _ _ => .refl _) (fun _ _ => trivial)
    rw [things_append]
    refine List.perm_append_comm.trans ?_
    exact List.Perm.swap _ _ _

omit [Target] in
omit [Target] in
theorem UMap.cloneO_tracks (ck : K → Call σ K) (cv : V → Call σ V) (m : UMap K V) :
    Tallies (m.cloneO ck cv) (m.clone ck cv) [] (fun c => things c.entries) (fun _ => True) := by
  cases m with
  | scanning es =>
    have := cloneEntriesO_tracks ck cv es []
    simp only [List.nil_append, bind_pure] at this
    exact this.bind fun t _ => Tallies.pure trivial (.refl _)
  | hashed t =>
    have := cloneEntriesO_tracks ck cv t.entries []
    simp only [List.nil_append, bind_pure] at this
    exact this.bind fun t _ => Tallies.pure trivial (.refl _)

/-! ### Use -/

omit [Target] in
theorem UMap.scan_inside (u : UserCode σ K Q) (q : Q) (es : List (K × V)) (i : Nat) :
    Behaves True True (UMap.scan u q i es)
      (fun o => ∀ r ∈ o, ∃ j, r.2.idx = i + j ∧ es[j]? = some (r.1, r.2.val)) := by
  induction es generalizing i with
  | nil => exact .pure (fun r hr => by cases hr)
  | cons e es ih =>
    refine (behaves_any _).bind (fun b _ => .ite (fun _ => .pure ?_) (fun _ => ?_))
    · rintro r hr
      cases hr
      exact ⟨0, rfl, rfl⟩
    · refine (ih (i + 1)).mono id id (fun o ho r hr => ?_)
      obtain ⟨j, hj, hr⟩ := ho r hr
      exact ⟨j + 1, by omega, by simpa using hr⟩

omit [Target] in
theorem UMap.lookup_inside (u : UserCode σ K Q) (m : UMap K V) (q : Q) :
    Behaves True True (m.lookup u q)
      (fun o => ∀ r ∈ o, m.entries[r.2.idx]? = some (r.1, r.2.val)) := by
  unfold UMap.lookup
  cases m with
  | scanning es =>
    refine (UMap.scan_inside u q es 0).mono id id (fun o ho r hr => ?_)
    obtain ⟨j, hj, hr⟩ := ho r hr
    rw [hj, Nat.zero_add]
    exact hr
  | hashed T =>
    refine (behaves_any _).bind (fun code _ => (behaves_any _).bind (fun ab _ => ?_))
    refine Behaves.bind (post := fun es => es = (T.entries.drop ab.1).take (ab.2 - ab.1)) ?_ (fun es hes => ?_)
    · intro s
      unfold Call.lift sliceUnchecked
      by_cases hb : ab.1 ≤ ab.2 ∧ ab.2 ≤ T.entries.length
      · rw [if_pos hb]
        exact rfl
      · rw [if_neg hb]
        trivial
    · refine (UMap.scan_inside u q es ab.1).mono id id (fun o ho r hr => ?_)
      obtain ⟨j, hj, hr⟩ := ho r hr
      rw [hes, List.getElem?_take] at hr
      rw [hj]
      split at hr
      · rw [List.getElem?_drop] at hr
        exact hr
      · cases hr

/-- Lookups hand out references to entries of the map, and a write changes that entry's value. -/
structure CallApi.Inside (A : CallApi σ M K V Q) : Prop where
  lookup : ∀ m q, Behaves True True (A.lookup m q)
    (fun o => ∀ r ∈ o, (A.entries m)[r.2.idx]? = some (r.1, r.2.val))
  write : ∀ m i v, A.entries (A.write m i v) = setVal (A.entries m) i v

omit [Target] in
theorem UMap.api_inside (u : UserCode σ K Q) : (UMap.api u : CallApi σ (UMap K V) K V Q).Inside :=
  ⟨fun m q => UMap.lookup_inside u m q, fun m i v => UMap.write_entries m i v⟩

omit [Target] in
theorem RMap.api_inside (c : RangeCode σ K V Q) : (RMap.api c).Inside := by
  refine ⟨fun m q => ?_, fun _ _ _ => rfl⟩
  show Behaves True True (RMap.lookup c m q) _
  unfold RMap.lookup
  refine (behaves_any _).bind fun b _ => .ite (fun _ => ?_) (fun _ => .pure (fun r hr => by cases hr))
  refine (behaves_any _).bind fun b _ => .ite (fun _ => ?_) (fun _ => .pure (fun r hr => by cases hr))
  refine (behaves_any _).bind fun d _ => (behaves_any _).bind fun o _ => ?_
  cases o with
  | none => exact .pure (fun r hr => by cases hr)
  | some i =>
    simp only
    cases h : m.entries[i]? with
    | none => exact .lift_panic trivial
    | some e => exact .pure (fun r hr => by cases hr; exact h)

omit [Target] in
theorem CallApi.getAll_inside {A : CallApi σ M K V Q} (hA : A.Inside) (m : M) (qs : List Q) :
    Behaves True True (A.getAll m qs)
      (fun o => ∀ rs ∈ o, rs.length = qs.length ∧ ∀ r ∈ rs, r.idx < (A.entries m).length) := by
  induction qs with
  | nil =>
    refine .pure ?_
    rintro rs hrs
    cases hrs
    exact ⟨rfl, by simp⟩
  | cons q qs ih =>
    refine (hA.lookup m q).bind (fun o ho => ?_)
    cases o with
    | none => exact .pure (fun r hr => by cases hr)
    | some r =>
      refine ih.bind (fun o' ho' => ?_)
      cases o' with
      | none => exact .pure (fun r hr => by cases hr)
      | some rs =>
        refine .pure ?_
        rintro rs' hrs'
        cases hrs'
        obtain ⟨hl, hrs⟩ := ho' rs rfl
        refine ⟨by simp [hl], ?_⟩
        intro r' hr'
        rcases List.mem_cons.1 hr' with rfl | hr'
        · exact (List.getElem?_eq_some_iff.1 (ho r rfl)).1
        · exact hrs r' hr'

omit [Target] in
theorem CallApi.getManyMut_inside {A : CallApi σ M K V Q} (hA : A.Inside) (m : M) (qs : List Q) :
    Behaves True True (A.getManyMut m qs)
      (fun o => ∀ rs ∈ o, rs.length = qs.length ∧ ∀ r ∈ rs, r.idx < (A.entries m).length) := by
  unfold CallApi.getManyMut
  refine (behaves_any _).bind (fun b _ => .ite (fun _ => .pure (fun r hr => by cases hr))
    (fun _ => CallApi.getAll_inside hA m qs))

omit [Target] in
theorem setVal_things {es : List (K × V)} {i : Nat} {e : K × V} (v : V) (h : es[i]? = some e) :
    (.value e.2 :: things (setVal es i v)).Perm (.value v :: things es) := by
  induction es generalizing i with
  | nil => cases h
  | cons x es ih =>
    cases i with
    | zero =>
      cases h
      simp only [setVal, List.modify_zero_cons, things, List.flatMap_cons, List.cons_append,
        List.nil_append]
      exact (List.Perm.swap _ _ _).trans (((List.Perm.swap _ _ _).cons _).trans
        (List.Perm.swap _ _ _))
    | succ i =>
      have := ih (i := i) (by simpa using h)
      simp only [setVal, List.modify_succ_cons, things, List.flatMap_cons, List.cons_append,
        List.nil_append] at this ⊢
      refine (List.Perm.swap _ _ _).trans (List.Perm.trans ?_ (List.Perm.swap _ _ _))
      refine List.Perm.cons _ ?_
      refine (List.Perm.swap _ _ _).trans (List.Perm.trans ?_ (List.Perm.swap _ _ _))
      exact List.Perm.cons _ this

omit [Target] in
theorem CallApi.assignO_tracks {A : CallApi σ M K V Q} (hA : A.Inside) (m : M) (i : Nat) (v : V) (h : i < (A.entries m).length) :
    Tallies (A.assignO m i v : Own σ K V _) (pure (A.write m i v)) (.value v :: things (A.entries m))
      (fun m' => things (A.entries m')) (fun m' => m' = A.write m i v) := by
  unfold CallApi.assignO
  obtain ⟨e, he⟩ : ∃ e, (A.entries m)[i]? = some e := ⟨_, List.getElem?_eq_getElem h⟩
  rw [he]
  have hp := setVal_things v he
  have := ((Tallies.drop (σ := σ) [.value e.2]).holding (things (A.entries (A.write m i v)))).mono
    (given' := .value v :: things (A.entries m)) (by rw [hA.write]; exact hp)
    (fun _ _ => .refl _) (fun _ _ => trivial)
  refine Tallies.bind (c := pure ()) (g := fun _ => pure (A.write m i v)) (post := fun _ => True)
    (held := fun _ => things (A.entries (A.write m i v))) ?_ (fun _ _ => Tallies.pure rfl (.refl _))
  exact this

omit [Target] in
theorem CallApi.write_length {A : CallApi σ M K V Q} (hA : A.Inside) (m : M) (i : Nat) (v : V) :
    (A.entries (A.write m i v)).length = (A.entries m).length := by
  rw [hA.write]
  exact List.length_modify ..

omit [Target] in
theorem CallApi.assignAllO_tracks {A : CallApi σ M K V Q} (hA : A.Inside) (m : M) (rvs : List (Ref V × V))
    (h : ∀ rv ∈ rvs, rv.1.idx < (A.entries m).length) :
    Tallies (A.assignAllO m rvs : Own σ K V _)
      (pure (rvs.foldl (fun m rv => A.write m rv.1.idx rv.2) m))
      (rvs.map (fun rv => .value rv.2) ++ things (A.entries m))
      (fun m' => things (A.entries m')) (fun _ => True) := by
  induction rvs generalizing m with
  | nil => exact Tallies.pure trivial (.refl _)
  | cons rv rvs ih =>
    refine Tallies.bind (c := pure (A.write m rv.1.idx rv.2))
      (g := fun m' => pure (rvs.foldl (fun m rv => A.write m rv.1.idx rv.2) m'))
      (((CallApi.assignO_tracks hA m rv.1.idx rv.2 (h rv List.mem_cons_self)).holding
        (rvs.map (fun rv => .value rv.2))).mono ?_ (fun _ _ => .refl _) (fun _ h => h)) ?_
    · simp only [List.map_cons, List.cons_append]
      exact List.Perm.cons _ List.perm_append_comm
    · rintro _ rfl
      refine (ih (A.write m rv.1.idx rv.2) (fun rv' h' => ?_)).mono List.perm_append_comm
        (fun _ _ => .refl _) (fun _ _ => trivial)
      rw [CallApi.write_length hA]
      exact h rv' (List.mem_cons_of_mem _ h')

omit [Target] in
theorem CallApi.step_reads (A : CallApi σ M K V Q) (m : M) (op : MapOp V Q)
    (h : match op with
      | .getMut .. | .indexMut .. | .getManyMut .. => False
      | _ => True) :
    Behaves True True (A.step m op) (fun r => r.2 = m) := by
  cases op <;> first
    | exact h.elim
    | exact .pure rfl
    | exact (behaves_any _).bind fun _ _ => .pure rfl
    | (refine (behaves_any _).bind fun o _ => ?_
       cases o
       · exact .lift_panic trivial
       · exact .pure rfl)

omit [Target] in
theorem CallApi.stepO_tracks {A : CallApi σ M K V Q} (hA : A.Inside) (m : M) (op : MapOp V Q) :
    Tallies (A.stepO m op) (A.step m op) (op.brings ++ things (A.entries m))
      (fun r => things (A.entries r.2)) (fun _ => True) := by
  have reads : ∀ h, Tallies (Own.holding (things (A.entries m)) (Own.call (A.step m op)))
      (A.step m op) ([] ++ things (A.entries m)) (fun r => things (A.entries r.2)) (fun _ => True) :=
    fun h => (Tallies.held (CallApi.step_reads A m op h) _).mono (.refl _)
      (fun r hr => by rw [hr]) (fun _ _ => trivial)
  cases op with
  | getMut q v =>
    refine Tallies.bind (Tallies.held (hA.lookup m q) _) (fun o ho => ?_)
    cases o with
    | none => exact Tallies.dropThen (Tallies.pure (held := fun r : Out K V × M => things (A.entries r.2))
        (post := fun _ => True) trivial (.refl _)) _
    | some r =>
      exact Tallies.bind (g := fun m' => pure (Out.value (some r.2.val), m'))
        (CallApi.assignO_tracks hA m r.2.idx v (List.getElem?_eq_some_iff.1 (ho r rfl)).1)
        fun m' _ => Tallies.pure (held := fun r : Out K V × M => things (A.entries r.2)) (post := fun _ => True) trivial
          (.refl _)
  | indexMut q v =>
    refine Tallies.bind (Tallies.held (hA.lookup m q) _) (fun o ho => ?_)
    cases o with
    | none => exact Tallies.panic _ _ _
    | some r =>
      exact Tallies.bind (g := fun m' => pure (Out.value (some r.2.val), m'))
        (CallApi.assignO_tracks hA m r.2.idx v (List.getElem?_eq_some_iff.1 (ho r rfl)).1)
        fun m' _ => Tallies.pure (held := fun r : Out K V × M => things (A.entries r.2)) (post := fun _ => True) trivial
          (.refl _)
  | getManyMut qvs =>
    refine Tallies.bind (Tallies.held (CallApi.getManyMut_inside hA m _) _) (fun o ho => ?_)
    cases o with
    | none => exact Tallies.dropThen (Tallies.pure (held := fun r : Out K V × M => things (A.entries r.2))
        (post := fun _ => True) trivial (.refl _)) _
    | some rs =>
      obtain ⟨hl, hrs⟩ := ho rs rfl
      show Tallies (if (rs.map Ref.idx).Nodup then _ else _) (if (rs.map Ref.idx).Nodup then _ else _)
        _ _ _
      by_cases hn : (rs.map Ref.idx).Nodup
      · rw [if_pos hn, if_pos hn]
        have := CallApi.assignAllO_tracks hA (σ := σ) m (rs.zip (qvs.map (·.2)))
          (fun rv hrv => hrs rv.1 (List.of_mem_zip hrv).1)
        refine (this.mono (given' := MapOp.brings (.getManyMut qvs) ++ things (A.entries m)) ?_
          (fun _ _ => .refl _) (fun _ _ => trivial)).bind
            (g := fun m' => pure (Out.many (some (rs.map Ref.val)), m')) fun m' _ =>
              Tallies.pure (held := fun r : Out K V × M => things (A.entries r.2)) (post := fun _ => True) trivial
                (.refl _)
        have e : (rs.zip (qvs.map (·.2))).map (fun rv => (Thing.value rv.2 : Thing K V))
            = qvs.map (fun qv => .value qv.2) := by
          have e2 : (rs.zip (qvs.map (·.2))).map Prod.snd = qvs.map (·.2) :=
            List.map_snd_zip (by simpa using hl.ge)
          calc _ = ((rs.zip (qvs.map (·.2))).map Prod.snd).map Thing.value := by
                rw [List.map_map]; rfl
            _ = _ := by rw [e2, List.map_map]; rfl
        rw [e]
        exact .refl _
      · rw [if_neg hn, if_neg hn]
        exact Tallies.ub _ _ _
  | _ => exact reads trivial

omit [Target] in
theorem CallApi.runO_tracks {A : CallApi σ M K V Q} (hA : A.Inside) (m : M) (ops : List (MapOp V Q)) :
    Tallies (A.runO m ops) (A.run m ops) (things (A.entries m) ++ ops.flatMap MapOp.brings)
      (fun r => things (A.entries r.2)) (fun _ => True) := by
  induction ops generalizing m with
  | nil => exact Tallies.pure trivial (by simp)
  | cons op ops ih =>
    refine Tallies.bind (((CallApi.stepO_tracks hA m op).holding _).mono ?_ (fun _ _ => .refl _)
      (fun _ _ => trivial)) fun r _ => (ih r.2).bind fun rs _ => Tallies.pure trivial (.refl _)
    rw [List.flatMap_cons, ← List.append_assoc]
    exact List.perm_append_comm.append_right _

omit [Target] in
theorem CallApi.useO_tracks {A : CallApi σ M K V Q} (hA : A.Inside) {o : Own σ K V (M)} {c : Call σ (M)}
    {given : List (Thing K V)} (h : Tallies o c given (fun m => things (A.entries m)) (fun _ => True))
    (ops : List (MapOp V Q)) :
    Tallies (A.useO o ops) (c >>= fun m => A.run m ops) (given ++ ops.flatMap MapOp.brings)
      (fun r => things (A.entries r.2)) (fun _ => True) :=
  (h.holding _).bind fun m _ => CallApi.runO_tracks hA m ops

omit [Target] in
theorem CallApi.sessionO_tracks {A : CallApi σ M K V Q} (hA : A.Inside) {o : Own σ K V (M)} {c : Call σ (M)}
    {given : List (Thing K V)} (h : Tallies o c given (fun m => things (A.entries m)) (fun _ => True))
    (ops : List (MapOp V Q)) :
    Tallies (A.sessionO o ops) (A.session c ops) (given ++ ops.flatMap MapOp.brings)
      (fun _ => []) (fun _ => True) := by
  have e : A.session c ops = (c >>= fun m => A.run m ops) >>= fun r => pure r.1 := by
    simp [CallApi.session]
  rw [e]
  refine (CallApi.useO_tracks hA h ops).bind fun r _ => ?_
  have := Tallies.dropThen (σ := σ) (f := fun _ => pure r.1) (c := pure r.1) (rest := [])
    (held := fun _ => []) (post := fun _ => True) (Tallies.pure trivial (.refl _)) (things (A.entries r.2))
  rwa [List.append_nil] at this

omit [Target] in
theorem UMap.runO_tracks (u : UserCode σ K Q) (m : UMap K V) (ops : List (MapOp V Q)) :
    Tallies ((UMap.api u).runO m ops) (m.run u ops) (things m.entries ++ ops.flatMap MapOp.brings)
      (fun r => things r.2.entries) (fun _ => True) := by
  rw [← UMap.api_run]
  exact CallApi.runO_tracks (UMap.api_inside u) m ops

omit [Target] in
theorem UMap.sessionO_tracks (u : UserCode σ K Q) {o : Own σ K V (UMap K V)} {c : Call σ (UMap K V)}
    {given : List (Thing K V)} (h : Tallies o c given (fun m => things m.entries) (fun _ => True))
    (ops : List (MapOp V Q)) :
    Tallies ((UMap.api u).sessionO o ops) (UMap.session u c ops) (given ++ ops.flatMap MapOp.brings)
      (fun _ => []) (fun _ => True) := by
  rw [← UMap.api_session]
  exact CallApi.sessionO_tracks (UMap.api_inside u) h ops

omit [Target] in
theorem UMap.cloneSessionO_tracks (u : UserCode σ K Q) (ck : K → Call σ K) (cv : V → Call σ V)
    {o : Own σ K V (UMap K V)} {c : Call σ (UMap K V)} {given : List (Thing K V)}
    (h : Tallies o c given (fun m => things m.entries) (fun _ => True)) (ops ops' : List (MapOp V Q)) :
    Tallies (UMap.cloneSessionO u ck cv o ops ops') (UMap.cloneSession u ck cv c ops ops')
      (given ++ (ops.flatMap MapOp.brings ++ ops'.flatMap MapOp.brings))
      (fun _ => []) (fun _ => True) := by
  refine (h.holding _).bind fun m _ => ?_
  refine Tallies.bind (((UMap.cloneO_tracks ck cv m).holding _).mono (by simp)
    (fun _ _ => .refl _) (fun _ _ => trivial)) fun c _ => ?_
  refine Tallies.bind (((UMap.runO_tracks u c ops).holding _).mono ?_ (fun _ _ => .refl _)
    (fun _ _ => trivial)) fun r _ => ?_
  · simp only [List.append_assoc]
    refine List.Perm.append_left _ ?_
    exact List.perm_append_comm_assoc _ _ _
  · refine Tallies.bind (((UMap.runO_tracks u m ops').holding _).mono ?_ (fun _ _ => .refl _)
      (fun _ _ => trivial)) fun r' _ => ?_
    · exact List.perm_append_comm
    · have := Tallies.dropThen (σ := σ) (f := fun _ => pure (r.1, r'.1)) (c := pure (r.1, r'.1))
        (rest := []) (held := fun _ => []) (post := fun _ => True) (Tallies.pure trivial (.refl _))
        (things r'.2.entries)
      rw [List.append_nil] at this
      exact (Tallies.dropThen this (things r.2.entries)).mono List.perm_append_comm
        (fun _ _ => .refl _) (fun _ _ => trivial)

theorem UMap.stringSessionO_tracks (env : Env) (h : HasherCode σ) (payload : List (Bytes × V))
    (ops : List (MapOp V Bytes)) :
    Tallies (UMap.stringSessionO env h payload ops) (UMap.stringSession env h payload ops)
      (things payload ++ ops.flatMap MapOp.brings) (fun _ => []) (fun _ => True) := by
  refine ((UMap.stringFacadeO_tracks env h payload).holding _).bind fun m _ => ?_
  refine (UMap.runO_tracks (m.1.code env.oc h) m.2 ops).bind fun r _ => ?_
  have := Tallies.dropThen (σ := σ) (f := fun _ => pure r.1) (c := pure r.1) (rest := [])
    (held := fun _ => []) (post := fun _ => True) (Tallies.pure trivial (.refl _)) (things r.2.entries)
  rwa [List.append_nil] at this

omit [Target] in
theorem UMap.setSessionO_tracks (u : UserCode σ K Q) {o : Own σ K Unit (UMap K Unit)}
    {c : Call σ (UMap K Unit)} {given : List (Thing K Unit)}
    (h : Tallies o c given (fun m => things m.entries) (fun _ => True)) (asks : List (SetAsk Q)) :
    Tallies (UMap.setSessionO u o asks) (UMap.setSession u c asks) given (fun _ => []) (fun _ => True) := by
  refine h.bind fun m _ => ?_
  have e : m.asks u asks = m.asks u asks >>= fun outs => pure outs := by simp
  conv => arg 2; rw [e]
  refine (Tallies.held (behaves_any _) _).bind fun outs _ => ?_
  have := Tallies.dropThen (σ := σ) (f := fun _ => pure outs) (c := pure outs) (rest := [])
    (held := fun _ => []) (post := fun _ => True) (Tallies.pure trivial (.refl _)) (things m.entries)
  rwa [List.append_nil] at this

omit [Target] in
theorem RMap.fromVecO_tracks {c : RangeCode σ K V Q} (hc : c.Safe) (payload : List (K × V)) :
    Tallies (RMap.fromVecO c payload) (RMap.fromVec c payload) (things payload)
      (fun m => things m.entries) (fun _ => True) :=
  (Tallies.held ((RMap.fromVec_behaves hc payload).mono (fun _ => trivial) (fun _ => trivial)
    (fun _ h => h)) (things payload)).mono (.refl _) (fun _ h => things_perm h) (fun _ _ => trivial)

omit [Target] in
/-- With what is known of the run without a log. -/
theorem Tallies.dropsOnce {o : Own σ K V α} {c : Call σ α} {given : List (Thing K V)}
    {post : α → Prop} (h : Tallies o c given (fun _ => []) post) {u p : Prop} {post' : α → Prop}
    (hc : Behaves u p c post') : DropsOnce u p o given := by
  intro s
  have h' := h s []
  have hc' := hc s
  cases e : o s [] with
  | done a s' log =>
    rw [e] at h'
    obtain ⟨_, _, ev, rfl, hev⟩ := h'
    simpa using hev
  | unwound log =>
    rw [e] at h'
    obtain ⟨hp, ev, rfl, hev⟩ := h'
    rw [hp] at hc'
    exact ⟨hc', hev⟩
  | ub =>
    rw [e] at h'
    have h' : c s = .ub := h'
    rw [h'] at hc'
    exact hc'

/-! ### What is dropped on the way -/

/-- `DropsOnly`, whatever was logged before. -/
def Spares (P : Thing K V → Prop) (o : Own σ K V α) : Prop :=
  ∀ s log, match o s log with
    | .done _ _ log' => ∃ ev, log' = log ++ ev ∧ (∀ t ∈ droppedIn ev, P t) ∧ clonedIn ev = []
    | _ => True

omit [Target] in
theorem Spares.dropsOnly {P : Thing K V → Prop} {o : Own σ K V α} (h : Spares P o) :
    DropsOnly P o := by
  intro s
  have h' := h s []
  cases e : o s [] with
  | done a s' log => rw [e] at h'; obtain ⟨ev, rfl, h1⟩ := h'; exact h1
  | _ => trivial

omit [Target] in
theorem Spares.bind {P : Thing K V → Prop} {o : Own σ K V α} {f : α → Own σ K V β}
    (ho : Spares P o) (hf : ∀ a, Spares P (f a)) : Spares P (o >>= f) := by
  intro s log
  have h := ho s log
  rw [Own.bind_apply]
  cases e : o s log with
  | done a s' log' =>
    rw [e] at h
    obtain ⟨ev, rfl, h1, h2⟩ := h
    have h' := hf a s' (log ++ ev)
    simp only
    cases e' : f a s' (log ++ ev) with
    | done b s'' log'' =>
      rw [e'] at h'
      obtain ⟨ev', rfl, h1', h2'⟩ := h'
      refine ⟨ev ++ ev', List.append_assoc .., ?_, ?_⟩
      · rw [droppedIn_append]
        intro t ht
        exact (List.mem_append.1 ht).elim (h1 t) (h1' t)
      · rw [clonedIn_append, h2, h2']; rfl
    | _ => trivial
  | _ => trivial

omit [Target] in
theorem Spares.pure {P : Thing K V → Prop} (a : α) : Spares P (Pure.pure a : Own σ K V α) :=
  fun _ _ => ⟨[], (List.append_nil _).symm, by simp [droppedIn], rfl⟩

omit [Target] in
theorem Spares.call {P : Thing K V → Prop} (c : Call σ α) : Spares P (Own.call c : Own σ K V α) := by
  intro s log
  unfold Own.call
  cases c s with
  | ok r => exact ⟨[], (List.append_nil _).symm, by simp [droppedIn], rfl⟩
  | _ => trivial

omit [Target] in
theorem Spares.holding {P : Thing K V → Prop} {o : Own σ K V α} (h : Spares P o)
    (ts : List (Thing K V)) : Spares P (Own.holding ts o) := by
  intro s log
  have h' := h s log
  unfold Own.holding
  cases e : o s log with
  | done a s' log' => rw [e] at h'; exact h'
  | _ => trivial

omit [Target] in
theorem Spares.drop {P : Thing K V → Prop} {ts : List (Thing K V)} (h : ∀ t ∈ ts, P t) :
    Spares P (Own.drop ts : Own σ K V Unit) := by
  intro s log
  refine ⟨ts.map .dropped, rfl, ?_, clonedIn_map ts⟩
  rw [droppedIn_map]
  exact h

omit [Target] in
theorem prepLoopO_spares {P : Thing K V → Prop} (n : Nat) (hash : K → Call σ Nat)
    (rest : List (K × V)) (prep : List (PrepItem K V)) : Spares P (prepLoopO n hash rest prep) := by
  induction rest generalizing prep with
  | nil => exact .pure _
  | cons e rest ih => exact Spares.bind ((Spares.call _).holding _) fun _ => ih _

omit [Target] in
theorem fillLoopO_spares {P : Thing K V → Prop} (oc : Bool) (S : IdxTy) (stack : List (PrepItem K V))
    (slots : List Slot) (entries : List (K × V)) (i : Int) :
    Spares P (fillLoopO (σ := σ) oc S stack slots entries i) := by
  induction h : stack.length using Nat.strongRecOn generalizing stack slots entries i with
  | _ n ih =>
    cases stack with
    | nil => rw [fillLoopO]; exact .pure _
    | cons item stack =>
      rw [fillLoopO]
      refine Spares.bind ((Spares.call _).holding _) fun p => ih _ ?_ _ _ _ _ rfl
      have := runLoop_stack_le item.slot item stack entries 0
      rw [← h, List.length_cons]
      omega

theorem UMap.fromVecO_spares {P : Thing K V → Prop} (env : Env) (S : IdxTy) (u : UserCode σ K Q)
    (payload : List (K × V)) : Spares P (UMap.fromVecO env S u payload) := by
  refine Spares.bind ((Spares.call _).holding _) fun n => Spares.bind ?_ fun t => .pure _
  unfold HashTable.newO
  split
  · next h =>
    obtain rfl : payload = [] := by simpa using h
    exact Spares.bind (.drop (by simp [things])) fun _ => .pure _
  · refine Spares.bind ((Spares.call _).holding _) fun cap => ?_
    split
    · exact (Spares.call _).holding _
    · refine Spares.bind (prepLoopO_spares _ _ _ _) fun prep => Spares.bind (fillLoopO_spares _ _ _ _ _ _) fun r => ?_
      split
      · exact (Spares.call _).holding _
      · exact .pure _

theorem UMap.facadeO_spares {P : Thing K V → Prop} (env : Env) (u : UserCode σ K Q)
    (payload : List (K × V)) : Spares P (UMap.facadeO env u payload) := by
  unfold UMap.facadeO
  split
  · exact .pure _
  · split <;> exact UMap.fromVecO_spares _ _ _ _

theorem UMap.stringFacadeO_spares {P : Thing Bytes V → Prop} (env : Env) (h : HasherCode σ)
    (payload : List (Bytes × V)) : Spares P (UMap.stringFacadeO env h payload) := by
  unfold UMap.stringFacadeO
  split
  · exact .pure _
  · refine Spares.bind ((Spares.call _).holding _) fun v => ?_
    split <;> exact Spares.bind (UMap.fromVecO_spares _ _ _ _) fun _ => .pure _

omit [Target] in
theorem CallApi.assignO_spares (A : CallApi σ M K V Q) (m : M) (i : Nat) (v : V) :
    Spares Thing.IsValue (A.assignO m i v) := by
  unfold CallApi.assignO
  split
  · exact Spares.bind (.drop (by simp [Thing.IsValue])) fun _ => .pure _
  · exact .call _

omit [Target] in
theorem CallApi.assignAllO_spares (A : CallApi σ M K V Q) (m : M) (rvs : List (Ref V × V)) :
    Spares Thing.IsValue (A.assignAllO m rvs) := by
  induction rvs generalizing m with
  | nil => exact .pure _
  | cons rv rvs ih => exact Spares.bind ((CallApi.assignO_spares _ _ _ _).holding _) fun m' => ih m'

omit [Target] in
theorem CallApi.stepO_spares (A : CallApi σ M K V Q) (m : M) (op : MapOp V Q) :
    Spares Thing.IsValue (A.stepO m op) := by
  have hd : ∀ v : V, Spares Thing.IsValue (Own.drop [.value v] : Own σ K V Unit) :=
    fun v => .drop (by simp [Thing.IsValue])
  cases op with
  | getMut q v =>
    refine Spares.bind ((Spares.call _).holding _) fun o => ?_
    cases o with
    | none => exact (hd v).bind fun _ => .pure _
    | some r => exact (CallApi.assignO_spares _ _ _ _).bind fun _ => .pure _
  | indexMut q v =>
    refine Spares.bind ((Spares.call _).holding _) fun o => ?_
    cases o with
    | none => exact (Spares.call _).holding _
    | some r => exact (CallApi.assignO_spares _ _ _ _).bind fun _ => .pure _
  | getManyMut qvs =>
    refine Spares.bind ((Spares.call _).holding _) fun o => ?_
    cases o with
    | none =>
      refine (Spares.drop ?_).bind fun _ => .pure _
      intro t ht
      obtain ⟨qv, _, rfl⟩ := List.mem_map.1 ht
      trivial
    | some rs =>
      show Spares _ (if _ then _ else _)
      split
      · exact (CallApi.assignAllO_spares _ _ _).bind fun _ => .pure _
      · exact .call _
  | len => exact Spares.holding (Spares.call (A.step m .len)) (things (A.entries m))
  | iter => exact Spares.holding (Spares.call (A.step m .iter)) (things (A.entries m))
  | keys => exact Spares.holding (Spares.call (A.step m .keys)) (things (A.entries m))
  | values => exact Spares.holding (Spares.call (A.step m .values)) (things (A.entries m))
  | _ => exact (Spares.call _).holding _

omit [Target] in
theorem CallApi.runO_spares (A : CallApi σ M K V Q) (m : M) (ops : List (MapOp V Q)) :
    Spares Thing.IsValue (A.runO m ops) := by
  induction ops generalizing m with
  | nil => exact .pure _
  | cons op ops ih =>
    exact Spares.bind ((CallApi.stepO_spares _ _ _).holding _) fun r => (ih r.2).bind fun _ => .pure _

end FC
