import Verif.Lemmas.Drops
import Verif.Lemmas.SetLookups
import Verif.Spec.Consume

/-
Lemmas for consuming iterators (C90).
-/

set_option autoImplicit false

namespace FC
variable {σ K Q : Type}

theorem SetIntoIter.cloneO_tracks (c : ElemCode σ K) (it : SetIntoIter K) :
    Tallies (it.cloneO c) (it.cloneU c) [] SetIntoIter.owned (fun _ => True) := by
  have := cloneEntriesO_tracks c.clone (fun _ => pure ()) it.rest []
  simp only [List.nil_append, bind_pure] at this
  exact this.bind fun t _ => Tallies.pure trivial (.refl _)

theorem listO_tracks (c : ElemCode σ K) (es : List (K × Unit)) (ok : Bool) :
    Tallies (listO c es ok) (c.list es ok) (things es) (fun _ => []) (fun _ => True) := by
  induction es generalizing ok with
  | nil => exact Tallies.pure trivial (.refl _)
  | cons e es ih =>
    have hmid : Tallies (if ok then Own.holding (.key e.1 :: things es) (Own.call (c.fmt e.1)) else pure false
        : Own σ K Unit Bool) (if ok then c.fmt e.1 else pure false) (.key e.1 :: things es)
        (fun _ => .key e.1 :: things es) (fun _ => True) := by
      cases ok
      · exact Tallies.pure trivial (.refl _)
      · exact Tallies.held (behaves_any _) _
    have := Tallies.dropThen (f := fun _ => (if ok then Own.holding (.key e.1 :: things es)
      (Own.call (c.fmt e.1)) else pure false : Own σ K Unit Bool) >>= fun ok' =>
        Own.drop [.key e.1] >>= fun _ => listO c es ok') (hmid.bind (fun ok' _ =>
      Tallies.dropThen (f := fun _ => listO c es ok') (ih ok') [.key e.1])) [.value e.2]
    have he : ([.value e.2] ++ .key e.1 :: things es : List (Thing K Unit)).Perm (things (e :: es)) :=
      List.Perm.swap _ _ _
    exact this.mono he (fun _ _ => .refl _) (fun _ _ => trivial)

theorem SetIntoIter.debugO_tracks (c : ElemCode σ K) (it : SetIntoIter K) :
    Tallies (it.debugO c) (do let copy ← it.cloneU c; c.list copy.rest true) [] (fun _ => [])
      (fun _ => True) :=
  (it.cloneO_tracks c).bind fun copy _ => listO_tracks c copy.rest true

/-- Changing one iterator changes what is owned by just that. -/
theorem owned_set {its : List (Option (SetIntoIter K))} {i : Nat} {o o' : Option (SetIntoIter K)}
    (h : its[i]? = some o) :
    (ownedBy o' ++ its.flatMap ownedBy).Perm (ownedBy o ++ (its.set i o').flatMap ownedBy) := by
  induction its generalizing i with
  | nil => simp at h
  | cons x its ih =>
    cases i with
    | zero =>
      simp only [List.getElem?_cons_zero, Option.some.injEq] at h
      subst h
      simp only [List.set_cons_zero, List.flatMap_cons, ← List.append_assoc]
      exact List.perm_append_comm.append_right _
    | succ i =>
      simp only [List.getElem?_cons_succ] at h
      simp only [List.set_cons_succ, List.flatMap_cons]
      have := (ih h).append_left (ownedBy x)
      refine (?_ : List.Perm _ _).trans (this.trans ?_)
      · simp only [← List.append_assoc]
        exact List.perm_append_comm.append_right _
      · simp only [← List.append_assoc]
        exact List.perm_append_comm.append_right _

theorem Takers.stepO_tracks (c : ElemCode σ K) (t : Takers K) (op : TakeOp) :
    Tallies (t.stepO c op) (t.step c op) t.owned (fun r => r.2.owned) (fun _ => True) := by
  have same : ∀ out, Tallies (pure (out, t) : Own σ K Unit (TakeOut K × Takers K)) (pure (out, t)) t.owned
      (fun r => r.2.owned) (fun _ => True) := fun out => Tallies.pure trivial (.refl _)
  have gone : ∀ {i : Nat} {it : SetIntoIter K} (out : TakeOut K), t.its[i]? = some (some it) →
      Tallies (do Own.drop it.owned; return (out, ⟨t.its.set i none, t.got⟩) :
          Own σ K Unit (TakeOut K × Takers K))
        (pure (out, (⟨t.its.set i none, t.got⟩ : Takers K))) t.owned (fun r => r.2.owned) (fun _ => True) := by
    intro i it out h
    refine (Tallies.dropThen (rest := (Takers.mk (t.its.set i none) t.got).owned)
      (f := fun _ => pure (out, (⟨t.its.set i none, t.got⟩ : Takers K)))
      (held := fun r => r.2.owned) (post := fun _ => True)
      (Tallies.pure trivial (.refl _)) it.owned).mono ?_ (fun _ _ => .refl _) (fun _ _ => trivial)
    have := (owned_set (o' := none) h).append_right (t.got.map .key)
    simp only [ownedBy, List.nil_append] at this
    simp only [Takers.owned, ← List.append_assoc]
    exact this.symm
  cases op with
  | next i =>
    simp only [stepO, step]
    cases h : t.its[i]? with
    | none => exact same _
    | some o =>
      cases o with
      | none => exact same _
      | some it =>
        obtain ⟨rest⟩ := it
        have hs := fun o' => (owned_set (o' := o') h).append_right (t.got.map .key)
        cases rest with
        | nil =>
          refine Tallies.pure trivial ?_
          have := hs (some ⟨[]⟩)
          simp only [ownedBy, SetIntoIter.owned, things, List.flatMap_nil, List.nil_append] at this
          exact this.symm
        | cons e es =>
          obtain ⟨x, y⟩ := e
          obtain rfl : y = () := rfl
          show Tallies (do Own.drop [.value ()]; return (_, _)) (pure _) _ _ _
          refine (Tallies.dropThen (rest := (Takers.mk (t.its.set i (some ⟨es⟩)) (t.got ++ [x])).owned)
            (f := fun _ => pure (TakeOut.item (some x),
              (⟨t.its.set i (some ⟨es⟩), t.got ++ [x]⟩ : Takers K)))
            (held := fun r => r.2.owned) (post := fun _ => True)
            (Tallies.pure trivial (.refl _)) [.value ()]).mono ?_ (fun _ _ => .refl _) (fun _ _ => trivial)
          have h1 := hs (some ⟨es⟩)
          simp only [ownedBy, SetIntoIter.owned, things, List.flatMap_cons] at h1
          simp only [Takers.owned, List.map_append, List.map_cons, List.map_nil]
          classical
          rw [List.perm_iff_count] at h1 ⊢
          intro a
          have := h1 a
          simp only [List.count_append, List.count_cons, List.count_nil] at this ⊢
          omega
  | len i =>
    simp only [stepO, step]
    rcases t.its[i]? with _ | _ | it <;> exact same _
  | debug i =>
    simp only [stepO, step]
    rcases t.its[i]? with _ | _ | it
    · exact same _
    · exact same _
    · have := (it.debugO_tracks c).holding t.owned
      have e : (do let copy ← it.cloneU c
                   let ok ← c.list copy.rest true
                   return (TakeOut.formatted ok, t) : Call σ (TakeOut K × Takers K))
            = (do let copy ← it.cloneU c; c.list copy.rest true) >>=
              fun ok => pure (TakeOut.formatted ok, t) := by
        simp
      show Tallies _ (do let copy ← it.cloneU c
                         let ok ← c.list copy.rest true
                         return (TakeOut.formatted ok, t)) _ _ _
      rw [e]
      exact this.bind fun ok _ => same _
  | clone i =>
    simp only [stepO, step]
    rcases t.its[i]? with _ | _ | it
    · exact same _
    · exact same _
    · refine ((it.cloneO_tracks c).holding t.owned).bind fun copy _ =>
        Tallies.pure (post := fun _ => True) trivial ?_
      simp only [Takers.owned, List.flatMap_append, List.flatMap_cons, List.flatMap_nil, List.append_nil,
        ownedBy]
      classical
      rw [List.perm_iff_count]
      intro a
      simp only [List.count_append]
      omega
  | count i =>
    simp only [stepO, step]
    rcases h : t.its[i]? with _ | _ | it
    · exact same _
    · exact same _
    · exact gone _ h
  | drop i =>
    simp only [stepO, step]
    rcases h : t.its[i]? with _ | _ | it
    · exact same _
    · exact same _
    · exact gone _ h
  | panic => exact Tallies.panic _ _ _

theorem Takers.runO_tracks (c : ElemCode σ K) (t : Takers K) (ops : List TakeOp) :
    Tallies (t.runO c ops) (t.run c ops) t.owned (fun r => r.2.owned) (fun _ => True) := by
  induction ops generalizing t with
  | nil => exact Tallies.pure trivial (.refl _)
  | cons op ops ih =>
    exact (t.stepO_tracks c op).bind fun r _ => (ih r.2).bind fun rs _ => Tallies.pure trivial (.refl _)

theorem UMap.takeSessionO_tracks (u : UserCode σ K Q) (c : ElemCode σ K) {o : Own σ K Unit (UMap K Unit)}
    {b : Call σ (UMap K Unit)} {given : List (Thing K Unit)}
    (h : Tallies o b given (fun m => things m.entries) (fun _ => True)) (asks : List (SetAsk Q))
    (ops : List TakeOp) :
    Tallies (UMap.takeSessionO u c o asks ops) (UMap.takeSession u c b asks ops) given
      (fun r => r.2.2.owned) (fun _ => True) := by
  refine h.bind fun m _ => ?_
  refine (Tallies.held (behaves_any _) _).bind fun outs _ => ?_
  refine ((m.intoTakers.runO_tracks c ops).mono ?_ (fun _ _ => .refl _) (fun _ _ => trivial)).bind
    fun r _ => Tallies.pure trivial (.refl _)
  simp [UMap.intoTakers, Takers.owned, ownedBy, SetIntoIter.owned, SetIntoIter.new]

theorem UMap.consumeSessionO_tracks (u : UserCode σ K Q) (c : ElemCode σ K) {o : Own σ K Unit (UMap K Unit)}
    {b : Call σ (UMap K Unit)} {given : List (Thing K Unit)}
    (h : Tallies o b given (fun m => things m.entries) (fun _ => True)) (asks : List (SetAsk Q))
    (ops : List TakeOp) :
    Tallies (UMap.consumeSessionO u c o asks ops)
      (do let r ← UMap.takeSession u c b asks ops; return (r.1, r.2.1)) given
      (fun _ => []) (fun _ => True) := by
  refine (UMap.takeSessionO_tracks u c h asks ops).bind fun r _ => ?_
  have := Tallies.dropThen (σ := σ) (f := fun _ => pure (r.1, r.2.1)) (c := pure (r.1, r.2.1)) (rest := [])
    (held := fun _ => []) (post := fun _ => True) (Tallies.pure trivial (.refl _)) r.2.2.owned
  rwa [List.append_nil] at this

/-! ### Panics -/

theorem ElemCode.Safe.list {p : Prop} {c : ElemCode σ K} (h : c.Safe p) (es : List (K × Unit)) (ok : Bool) :
    Behaves False p (c.list es ok) (fun _ => True) := by
  induction es generalizing ok with
  | nil => exact .pure trivial
  | cons e es ih =>
    show Behaves False p ((if ok then c.fmt e.1 else pure false) >>= c.list es) _
    refine Behaves.bind (post := fun _ => True) ?_ (fun ok' _ => ih ok')
    cases ok
    · exact .pure trivial
    · exact h.fmt e.1

theorem ElemCode.Safe.cloneU {p : Prop} {c : ElemCode σ K} (h : c.Safe p) (it : SetIntoIter K) :
    Behaves False p (it.cloneU c) (fun _ => True) := by
  refine (Behaves.mapList (R := fun _ _ => True) fun e _ => ?_).bind fun _ _ => .pure trivial
  exact (h.clone e.1).bind fun _ _ => (Behaves.pure (post := fun _ => True) trivial).bind
    fun _ _ => .pure trivial

theorem Takers.step_behaves {p : Prop} {c : ElemCode σ K} (h : c.Safe p) (t : Takers K) (op : TakeOp) :
    Behaves False (p ∨ op = .panic) (t.step c op) (fun _ => True) := by
  cases op with
  | next i =>
    simp only [step]
    split
    · split <;> exact .pure trivial
    · exact .pure trivial
  | len i => simp only [step]; split <;> exact .pure trivial
  | debug i =>
    simp only [step]
    split
    · exact Behaves.mono (post := fun _ => True)
        ((h.cloneU _).bind fun _ _ => (h.list _ _).bind fun _ _ => .pure trivial) id Or.inl
        fun _ _ => trivial
    · exact .pure trivial
  | clone i =>
    simp only [step]
    split
    · exact Behaves.mono (post := fun _ => True) ((h.cloneU _).bind fun _ _ => .pure trivial) id Or.inl
        fun _ _ => trivial
    · exact .pure trivial
  | count i => simp only [step]; split <;> exact .pure trivial
  | drop i => simp only [step]; split <;> exact .pure trivial
  | panic => exact .lift_panic (Or.inr rfl)

theorem Takers.run_behaves {p : Prop} {c : ElemCode σ K} (h : c.Safe p) (t : Takers K) (ops : List TakeOp) :
    Behaves False (p ∨ .panic ∈ ops) (t.run c ops) (fun _ => True) := by
  induction ops generalizing t with
  | nil => exact .pure trivial
  | cons op ops ih =>
    refine ((t.step_behaves h op).mono id ?_ fun _ h => h).bind fun r _ =>
      ((ih r.2).mono id ?_ fun _ h => h).bind fun _ _ => .pure trivial
    · rintro (h | rfl)
      · exact Or.inl h
      · exact Or.inr (by simp)
    · rintro (h | h)
      · exact Or.inl h
      · exact Or.inr (by simp [h])

theorem UMap.takeSession_behaves {p : Prop} {u : UserCode σ K Q} (hu : u.SafeLookup p) {c : ElemCode σ K}
    (hc : c.Safe p) {build : Call σ (UMap K Unit)} {payload : List K}
    (hb : Behaves False p build (fun m => m.OK ∧ m.entries.Perm (unitPayload payload)))
    (asks : List (SetAsk Q)) (ops : List TakeOp) :
    Behaves False (p ∨ .panic ∈ ops) (UMap.takeSession u c build asks ops) (fun _ => True) := by
  refine (hb.mono id Or.inl fun _ h => h).bind fun m hm => ?_
  refine ((UMap.asks_behave hu hm.1 asks).mono id Or.inl fun _ h => h).bind fun outs _ => ?_
  exact (m.intoTakers.run_behaves hc ops).bind fun _ _ => .pure trivial

theorem Takers.runO_spares (c : ElemCode σ K) (t : Takers K) (ops : List TakeOp)
    (hops : ∀ op ∈ ops, ∃ i, op = .next i ∨ op = .len i) : Spares Thing.IsValue (t.runO c ops) := by
  induction ops generalizing t with
  | nil => exact .pure _
  | cons op ops ih =>
    refine Spares.bind ?_ fun r => (ih r.2 fun o ho => hops o (.tail _ ho)).bind fun _ => .pure _
    obtain ⟨i, rfl | rfl⟩ := hops op (.head _)
    · simp only [stepO]
      split
      · split
        · exact Spares.bind (.drop (by simp [Thing.IsValue])) fun _ => .pure _
        · exact .pure _
      · exact .pure _
    · simp only [stepO]
      split <;> exact .pure _

theorem UMap.takeSessionO_spares (u : UserCode σ K Q) (c : ElemCode σ K) {o : Own σ K Unit (UMap K Unit)}
    (h : Spares Thing.IsValue o) (asks : List (SetAsk Q)) (ops : List TakeOp)
    (hops : ∀ op ∈ ops, ∃ i, op = .next i ∨ op = .len i) :
    Spares Thing.IsValue (UMap.takeSessionO u c o asks ops) :=
  h.bind fun _ => Spares.bind ((Spares.call _).holding _) fun _ =>
    (Takers.runO_spares c _ ops hops).bind fun _ => .pure _

/-! ### The answers -/

/-- What the iterators have left. -/
def Takers.lists (t : Takers K) : List (Option (List K)) := t.its.map (Option.map fun it => it.rest.map (·.1))

theorem Call.bind_ok {α β : Type} {c : Call σ α} {f : α → Call σ β} {s : σ} {r : β × σ} :
    (c >>= f) s = .ok r ↔ ∃ x, c s = .ok x ∧ f x.1 x.2 = .ok r := by
  rw [Call.bind_apply]
  cases c s <;> simp [Res.bind_eq_ok]

theorem ElemCode.Faithful.list {c : ElemCode σ K} (h : c.Faithful) {es : List (K × Unit)} {s : σ}
    {r : Bool × σ} (hr : c.list es true s = .ok r) : r.1 = true := by
  induction es generalizing s with
  | nil => obtain rfl := Res.ok.inj hr; rfl
  | cons e es ih =>
    simp only [ElemCode.list, if_true] at hr
    obtain ⟨⟨b, s1⟩, h1, h2⟩ := Call.bind_ok.1 hr
    obtain rfl : b = true := h.fmt _ _ _ h1
    exact ih h2

theorem ElemCode.Faithful.cloneU {c : ElemCode σ K} (h : c.Faithful) {it : SetIntoIter K} {s : σ}
    {r : SetIntoIter K × σ} (hr : it.cloneU c s = .ok r) : r.1 = it := by
  obtain ⟨es⟩ := it
  unfold SetIntoIter.cloneU at hr
  obtain ⟨⟨es', s1⟩, h1, h2⟩ := Call.bind_ok.1 hr
  obtain rfl := Res.ok.inj h2
  show (⟨es'⟩ : SetIntoIter K) = ⟨es⟩
  congr 1
  clear h2 hr
  induction es generalizing s es' s1 with
  | nil => obtain ⟨rfl, rfl⟩ := Prod.mk.inj (Res.ok.inj h1); rfl
  | cons e es ih =>
    simp only [Call.mapList] at h1
    obtain ⟨⟨e', s2⟩, h3, h4⟩ := Call.bind_ok.1 h1
    obtain ⟨⟨es2, s3⟩, h5, h6⟩ := Call.bind_ok.1 h4
    obtain ⟨⟨k, s4⟩, h7, h8⟩ := Call.bind_ok.1 h3
    obtain rfl := ih _ _ h5
    obtain ⟨rfl, rfl⟩ := Prod.mk.inj (Res.ok.inj h6)
    obtain ⟨rfl, rfl⟩ := Prod.mk.inj (Res.ok.inj h8)
    obtain rfl : k = e.1 := h.clone _ _ _ h7
    rfl

theorem Takers.step_answers {c : ElemCode σ K} (h : c.Faithful) {t : Takers K} {op : TakeOp} {s : σ}
    {r : (TakeOut K × Takers K) × σ} (hr : t.step c op s = .ok r) :
    r.1.1 = (listsStep t.lists op).1 ∧ r.1.2.lists = (listsStep t.lists op).2 ∧
      r.1.2.got = t.got ++ handedOut [r.1.1] := by
  have hget : ∀ i, t.lists[i]? = t.its[i]?.map (Option.map fun it : SetIntoIter K => it.rest.map (·.1)) := fun i =>
    List.getElem?_map
  cases op with
  | next i =>
    simp only [step] at hr
    simp only [listsStep, hget]
    cases e : t.its[i]? with
    | none => rw [e] at hr; obtain rfl := Res.ok.inj hr; simp [handedOut]
    | some o =>
      cases o with
      | none => rw [e] at hr; obtain rfl := Res.ok.inj hr; simp [handedOut]
      | some it =>
        obtain ⟨es⟩ := it
        cases es with
        | nil =>
          rw [e] at hr; obtain rfl := Res.ok.inj hr
          have : t.its.set i (some ⟨[]⟩) = t.its := by
            rw [List.getElem?_eq_some_iff] at e
            obtain ⟨hi, e⟩ := e
            rw [← e]; exact List.set_getElem_self hi
          simp [handedOut, lists, this]
        | cons x es =>
          rw [e] at hr; obtain rfl := Res.ok.inj hr
          simp [handedOut, lists, List.map_set]
  | len i =>
    simp only [step] at hr
    simp only [listsStep, hget]
    cases e : t.its[i]? with
    | none => rw [e] at hr; obtain rfl := Res.ok.inj hr; simp [handedOut]
    | some o =>
      cases o with
      | none => rw [e] at hr; obtain rfl := Res.ok.inj hr; simp [handedOut]
      | some it => rw [e] at hr; obtain rfl := Res.ok.inj hr; simp [handedOut, SetIntoIter.len]
  | debug i =>
    simp only [step] at hr
    simp only [listsStep, hget]
    cases e : t.its[i]? with
    | none => rw [e] at hr; obtain rfl := Res.ok.inj hr; simp [handedOut]
    | some o =>
      cases o with
      | none => rw [e] at hr; obtain rfl := Res.ok.inj hr; simp [handedOut]
      | some it =>
        rw [e] at hr
        obtain ⟨x, h1, h2⟩ := Call.bind_ok.1 hr
        obtain ⟨y, h3, h4⟩ := Call.bind_ok.1 h2
        have := h.list h3
        obtain rfl := Res.ok.inj h4
        simp [handedOut, this]
  | clone i =>
    simp only [step] at hr
    simp only [listsStep, hget]
    cases e : t.its[i]? with
    | none => rw [e] at hr; obtain rfl := Res.ok.inj hr; simp [handedOut]
    | some o =>
      cases o with
      | none => rw [e] at hr; obtain rfl := Res.ok.inj hr; simp [handedOut]
      | some it =>
        rw [e] at hr
        obtain ⟨x, h1, h2⟩ := Call.bind_ok.1 hr
        have := h.cloneU h1
        obtain rfl := Res.ok.inj h2
        simp [handedOut, this, lists]
  | count i =>
    simp only [step] at hr
    simp only [listsStep, hget]
    cases e : t.its[i]? with
    | none => rw [e] at hr; obtain rfl := Res.ok.inj hr; simp [handedOut]
    | some o =>
      cases o with
      | none => rw [e] at hr; obtain rfl := Res.ok.inj hr; simp [handedOut]
      | some it =>
        rw [e] at hr; obtain rfl := Res.ok.inj hr
        simp [handedOut, SetIntoIter.count, lists, List.map_set]
  | drop i =>
    simp only [step] at hr
    simp only [listsStep, hget]
    cases e : t.its[i]? with
    | none => rw [e] at hr; obtain rfl := Res.ok.inj hr; simp [handedOut]
    | some o =>
      cases o with
      | none => rw [e] at hr; obtain rfl := Res.ok.inj hr; simp [handedOut]
      | some it =>
        rw [e] at hr; obtain rfl := Res.ok.inj hr
        simp [handedOut, lists, List.map_set]
  | panic => cases hr

theorem Takers.run_answers {c : ElemCode σ K} (h : c.Faithful) {t : Takers K} {ops : List TakeOp} {s : σ}
    {r : (List (TakeOut K) × Takers K) × σ} (hr : t.run c ops s = .ok r) :
    r.1.1 = listsRun t.lists ops ∧ r.1.2.got = t.got ++ handedOut r.1.1 := by
  induction ops generalizing t s r with
  | nil => obtain rfl := Res.ok.inj hr; simp [listsRun, handedOut]
  | cons op ops ih =>
    simp only [run] at hr
    obtain ⟨x, h1, h2⟩ := Call.bind_ok.1 hr
    obtain ⟨y, h3, h4⟩ := Call.bind_ok.1 h2
    obtain rfl := Res.ok.inj h4
    obtain ⟨a1, a2, a3⟩ := step_answers h h1
    obtain ⟨b1, b2⟩ := ih h3
    refine ⟨?_, ?_⟩
    · show x.1.1 :: y.1.1 = _
      rw [b1, a1, a2, listsRun]
    · show y.1.2.got = _
      rw [b2, a3, List.append_assoc]
      congr 1
      simp only [handedOut, ← List.filterMap_append]
      rfl

theorem UMap.takeSession_answers {p : Prop} (u : UserCode σ K Q) {c : ElemCode σ K} (h : c.Faithful)
    {build : Call σ (UMap K Unit)} {payload : List K}
    (hb : Behaves False p build (fun m => m.OK ∧ m.entries.Perm (unitPayload payload)))
    {asks : List (SetAsk Q)} {ops : List TakeOp} {s : σ}
    {r : (List (SetAns K) × List (TakeOut K) × Takers K) × σ}
    (hr : UMap.takeSession u c build asks ops s = .ok r) :
    ∃ items : List K, items.Perm payload ∧ r.1.2.1 = listsRun [some items] ops ∧
      r.1.2.2.got = handedOut r.1.2.1 := by
  unfold UMap.takeSession at hr
  obtain ⟨m, h1, h2⟩ := Call.bind_ok.1 hr
  obtain ⟨outs, h3, h4⟩ := Call.bind_ok.1 h2
  obtain ⟨x, h5, h6⟩ := Call.bind_ok.1 h4
  obtain rfl := Res.ok.inj h6
  have hm := hb s
  rw [h1] at hm
  obtain ⟨a1, a2⟩ := Takers.run_answers h h5
  refine ⟨m.1.entries.map (fun e : K × Unit => e.1), ?_, a1, a2⟩
  simpa [unitPayload, Function.comp_def] using hm.2.map (·.1)

theorem UMap.scanning_takeSession_answers (u : UserCode σ K Q) {c : ElemCode σ K} (h : c.Faithful)
    {payload : List K} {asks : List (SetAsk Q)} {ops : List TakeOp} {s : σ}
    {r : (List (SetAns K) × List (TakeOut K) × Takers K) × σ}
    (hr : UMap.takeSession u c (pure (.scanning (unitPayload payload))) asks ops s = .ok r) :
    r.1.2.1 = listsRun [some payload] ops ∧ r.1.2.2.got = handedOut r.1.2.1 := by
  unfold UMap.takeSession at hr
  obtain ⟨m, h1, h2⟩ := Call.bind_ok.1 hr
  obtain rfl := Res.ok.inj h1
  obtain ⟨outs, h3, h4⟩ := Call.bind_ok.1 h2
  obtain ⟨x, h5, h6⟩ := Call.bind_ok.1 h4
  obtain rfl := Res.ok.inj h6
  obtain ⟨a1, a2⟩ := Takers.run_answers h h5
  refine ⟨?_, a2⟩
  have : (UMap.intoTakers (.scanning (unitPayload payload))).lists = [some payload] := by
    simp [UMap.intoTakers, Takers.lists, UMap.entries, SetIntoIter.new, unitPayload, Function.comp_def]
  rw [← this]
  exact a1

end FC
