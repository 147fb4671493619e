import Verif.Spec.Calls
import Verif.Lemmas.UserCode

/-
Lemmas about the log of calls.
-/

set_option autoImplicit false

namespace FC
variable [Target]
variable {σ K V Q α β E : Type}

omit [Target] in
theorem Logs.pure {a : α} {P : α → List E → Prop} (h : P a []) :
    Logs (pure a : Call (σ × List E) α) P := by
  intro s log a' s' log' he
  rw [Call.pure_apply] at he
  cases he
  exact ⟨[], by simp, h⟩

omit [Target] in
theorem Logs.bind {c : Call (σ × List E) α} {f : α → Call (σ × List E) β} {P : α → List E → Prop}
    {R : β → List E → Prop} (hc : Logs c P)
    (hf : ∀ a ev, P a ev → Logs (f a) (fun b ev' => R b (ev ++ ev'))) : Logs (c >>= f) R := by
  intro s log b s' log' he
  rw [Call.bind_apply] at he
  cases hcs : c (s, log) with
  | panic => rw [hcs] at he; cases he
  | ub => rw [hcs] at he; cases he
  | ok r =>
    rw [hcs] at he
    obtain ⟨a, s1, log1⟩ := r
    obtain ⟨ev, rfl, hP⟩ := hc _ _ _ _ _ hcs
    obtain ⟨ev', rfl, hR⟩ := hf a ev hP _ _ _ _ _ he
    exact ⟨ev ++ ev', by simp, hR⟩

omit [Target] in
theorem Logs.mono {c : Call (σ × List E) α} {P P' : α → List E → Prop} (h : Logs c P)
    (hP : ∀ a ev, P a ev → P' a ev) : Logs c P' := by
  intro s log a s' log' he
  obtain ⟨ev, h1, h2⟩ := h _ _ _ _ _ he
  exact ⟨ev, h1, hP _ _ h2⟩

omit [Target] in
theorem Logs.lift {r : Res α} {P : α → List E → Prop} (h : ∀ a, r = .ok a → P a []) :
    Logs (Call.lift r : Call (σ × List E) α) P := by
  intro s log a s' log' he
  cases r with
  | panic => cases he
  | ub => cases he
  | ok b => cases he; exact ⟨[], by simp, h _ rfl⟩

omit [Target] in
theorem Logs.ite {c d : Call (σ × List E) α} {P : α → List E → Prop} {p : Prop} [Decidable p]
    (h₁ : p → Logs c P) (h₂ : ¬ p → Logs d P) : Logs (if p then c else d) P := by
  by_cases h : p
  · rw [if_pos h]; exact h₁ h
  · rw [if_neg h]; exact h₂ h

omit [Target] in
theorem Logs.noted (f : α → E) (c : Call σ α) : Logs (c.noted f) (fun a ev => ev = [f a]) := by
  intro s log a s' log' he
  unfold Call.noted at he
  cases hc : c s with
  | panic => simp only [hc] at he; cases he
  | ub => simp only [hc] at he; cases he
  | ok r => simp only [hc] at he; cases he; exact ⟨_, rfl, rfl⟩

omit [Target] in
theorem Logs.mapList {f : α → Call (σ × List E) β} {g : α → Nat → E} {h : α → Nat → β} {C : Prop}
    {l : List α} (hf : ∀ a, Logs (f a) (fun b ev => ∃ c, ev = [g a c] ∧ b = h a c ∧ C)) :
    Logs (Call.mapList f l) (fun bs ev => ∃ cs : List Nat, cs.length = l.length ∧
      ev = List.zipWith g l cs ∧ bs = List.zipWith h l cs ∧ (l ≠ [] → C)) := by
  induction l with
  | nil => exact .pure ⟨[], rfl, rfl, rfl, fun h => absurd rfl h⟩
  | cons a l ih =>
    unfold Call.mapList
    refine (hf a).bind (fun b ev hb => ih.bind (fun bs ev' hbs => .pure ?_))
    obtain ⟨c, rfl, rfl, hC⟩ := hb
    obtain ⟨cs, h1, rfl, rfl, _⟩ := hbs
    exact ⟨c :: cs, by simp [h1], by simp, by simp, fun _ => hC⟩

/-! ### Tables whose entries carry their hash code -/

/-- Forget the code. -/
def PrepItem.bare (it : PrepItem K (Nat × V)) : PrepItem K V :=
  ⟨it.slot, (it.entry.1, it.entry.2.2)⟩

/-- Forget the code. -/
def bareEntry (e : K × (Nat × V)) : K × V := (e.1, e.2.2)

omit [Target] in
theorem runLoop_bare (slot : Nat) (stack : List (PrepItem K (Nat × V))) :
    ∀ (item : PrepItem K (Nat × V)) (entries : List (K × (Nat × V))) (n : Nat),
    runLoop slot item.bare (stack.map PrepItem.bare) (entries.map bareEntry) n
      = ((runLoop slot item stack entries n).1.map PrepItem.bare,
          (runLoop slot item stack entries n).2.1.map bareEntry,
          (runLoop slot item stack entries n).2.2) := by
  induction stack with
  | nil => intro item entries n; simp [runLoop, PrepItem.bare, bareEntry]
  | cons next stack ih =>
    intro item entries n
    rw [List.map_cons, runLoop, runLoop]
    by_cases h : next.slot ≠ slot
    · rw [if_pos h, if_pos (show next.bare.slot ≠ slot from h)]
      simp [PrepItem.bare, bareEntry]
    · rw [if_neg h, if_neg (show ¬ next.bare.slot ≠ slot from h), ← ih]
      simp [PrepItem.bare, bareEntry]

omit [Target] in
theorem fillLoop_bare (oc : Bool) (S : IdxTy) : ∀ (m : Nat) (stack : List (PrepItem K (Nat × V))),
    stack.length ≤ m → ∀ (slots : List Slot) (entries : List (K × (Nat × V))) (n : Int),
    fillLoop oc S (stack.map PrepItem.bare) slots (entries.map bareEntry) n
      = (fillLoop oc S stack slots entries n).map (fun r => (r.1, r.2.map bareEntry)) := by
  intro m
  induction m with
  | zero =>
    intro stack hm slots entries n
    obtain rfl : stack = [] := List.eq_nil_of_length_eq_zero (by omega)
    simp [fillLoop]
  | succ m ih =>
    intro stack hm slots entries n
    cases stack with
    | nil => simp [fillLoop]
    | cons item stack =>
      have hle := runLoop_stack_le item.slot item stack entries 0
      rw [List.map_cons, fillLoop, fillLoop]
      simp only [show item.bare.slot = item.slot from rfl, runLoop_bare]
      simp only [List.length_cons] at hm
      cases IntTy.i32.arith oc (runLoop item.slot item stack entries 0).2.2 with
      | ok num =>
        simp only
        cases S.ofI32 n with
        | ok mn =>
          simp only
          cases S.ofI32 num with
          | ok cnt =>
            simp only
            cases S.add oc mn cnt with
            | ok mx =>
              simp only
              by_cases h : item.slot < slots.length
              · simp only [if_pos h]
                cases IntTy.i32.arith oc (n + num) with
                | ok next => exact ih _ (by omega) _ _ _
                | panic => rfl
                | ub => rfl
              · simp only [if_neg h]; rfl
            | panic => rfl
            | ub => rfl
          | panic => rfl
          | ub => rfl
        | panic => rfl
        | ub => rfl
      | panic => rfl
      | ub => rfl

omit [Target] in
theorem perm_map_lift {f : α → β} {l l' : List β} (h : l.Perm l') :
    ∀ m : List α, m.map f = l' → ∃ m' : List α, m'.Perm m ∧ m'.map f = l := by
  induction h with
  | nil => exact fun m hm => ⟨m, .refl _, hm⟩
  | cons x h ih =>
    intro m hm
    cases m with
    | nil => cases hm
    | cons a m =>
      simp only [List.map_cons, List.cons.injEq] at hm
      obtain ⟨m', h1, h2⟩ := ih m hm.2
      exact ⟨a :: m', h1.cons a, by simp [h2, hm.1]⟩
  | swap x y l =>
    intro m hm
    cases m with
    | nil => cases hm
    | cons a m =>
      cases m with
      | nil => simp at hm
      | cons b m =>
        simp only [List.map_cons, List.cons.injEq] at hm
        exact ⟨b :: a :: m, .swap a b m, by simp [hm]⟩
  | trans _ _ ih1 ih2 =>
    intro m hm
    obtain ⟨m₁, h1, h2⟩ := ih2 m hm
    obtain ⟨m₂, h3, h4⟩ := ih1 m₁ h2
    exact ⟨m₂, h3.trans h1, h4⟩

/-- The slots of a table designate the entries placed in them. -/
structure HashTable.Laid (T : HashTable K V) (lay : Layout) : Prop where
  slots : lay.slots = T.numSlots
  places : lay.places.length = T.entries.length
  bounds : ∀ (i : Nat) (s : Slot), T.slots[i]? = some s →
    s.minIndex ≤ s.maxIndex ∧ s.maxIndex ≤ T.entries.length
  mem : ∀ (j c : Nat), lay.places[j]? = some c → ∀ (i : Nat) (s : Slot), T.slots[i]? = some s →
    (c % T.numSlots = i ↔ s.minIndex ≤ j ∧ j < s.maxIndex)

/-- The layout of a map. -/
def UMap.Laid : UMap K V → Option Layout → Prop
  | .scanning _, none => True
  | .hashed T, some lay => T.Laid lay
  | _, _ => False

/-! ### Construction -/

theorem HashTable.newU_logs (env : Env) (S : IdxTy) (payload : List (K × V)) (n : Nat)
    {hash : K → Call (σ × List E) Nat} {g : K → Nat → E}
    (hh : ∀ k, Logs (hash k) (fun c ev => ev = [g k c])) (h32 : payload.length < 2 ^ 32) :
    Logs (HashTable.newU env S payload n hash) (fun T ev => ∃ (cs : List Nat) (lay : Layout),
      cs.length = payload.length ∧ ev = List.zipWith (fun e c => g e.1 c) payload cs ∧
      T.Laid lay ∧ (T.entries.zip lay.places).Perm (payload.zip cs) ∧
      (payload ≠ [] → lay.slots = n)) := by
  unfold HashTable.newU
  refine .ite (fun he => .pure ?_) (fun he => ?_)
  · obtain rfl : payload = [] := by simpa using he
    refine ⟨[], ⟨1, []⟩, rfl, rfl, ⟨rfl, rfl, ?_, by simp⟩, .refl _, by simp⟩
    intro i s hs
    cases i with
    | zero => simp at hs; subst hs; simp
    | succ i => simp at hs
  · have hne : payload ≠ [] := by simpa using he
    refine (Logs.lift (P := fun c ev => ev = [] ∧ c = S.max) (fun c h => ⟨rfl, ?_⟩)).bind
      (fun cap ev hev => ?_)
    · cases hS : S.maxUsize with
      | none => rw [hS] at h; cases h
      | some cap =>
        rw [hS] at h
        cases h
        unfold IdxTy.maxUsize at hS
        split at hS
        · exact (Option.some.inj hS).symm
        · cases hS
    obtain ⟨rfl, rfl⟩ := hev
    refine .ite (fun _ => .lift (fun _ h => by cases h)) (fun hcap => ?_)
    refine (Logs.mapList (g := fun e c => g e.1 c) (h := fun e c => (⟨c % n, e⟩ : PrepItem K V))
      (C := n ≠ 0) (fun e => ?_)).bind (fun prep ev hev => ?_)
    · refine (hh e.1).bind (fun c ev hev => ?_)
      refine (Logs.lift (P := fun s ev => ev = [] ∧ s = c % n ∧ n ≠ 0) (fun s h => ?_)).bind
        (fun slot ev' hev' => .pure ?_)
      · unfold umod at h
        split at h
        · cases h
        · cases h; exact ⟨rfl, rfl, by assumption⟩
      · obtain ⟨rfl, rfl, hn⟩ := hev'
        exact ⟨c, by simp [hev], rfl, hn⟩
    · obtain ⟨cs, h1, rfl, rfl, hn⟩ := hev
      have hn0 := hn hne
      -- the same items with their codes
      let tagged : List (PrepItem K (Nat × V)) :=
        List.zipWith (fun e c => ⟨c % n, (e.1, (c, e.2))⟩) payload cs
      have hbare : tagged.map PrepItem.bare
          = List.zipWith (fun (e : K × V) c => (⟨c % n, e⟩ : PrepItem K V)) payload cs := by
        simp only [tagged, List.map_zipWith]
        rfl
      have hperm := env.srt.perm PrepItem.slot
        (List.zipWith (fun (e : K × V) c => (⟨c % n, e⟩ : PrepItem K V)) payload cs)
      have hsort := env.srt.sorted PrepItem.slot
        (List.zipWith (fun (e : K × V) c => (⟨c % n, e⟩ : PrepItem K V)) payload cs)
      generalize env.srt.run PrepItem.slot
        (List.zipWith (fun (e : K × V) c => (⟨c % n, e⟩ : PrepItem K V)) payload cs) = sorted at *
      obtain ⟨ts, ht1, rfl⟩ := perm_map_lift hperm tagged hbare
      have htag : ∀ it ∈ ts, it.slot = it.entry.2.1 % n := by
        intro it hit
        have := ht1.mem_iff.1 hit
        obtain ⟨j, hj⟩ := List.mem_iff_getElem?.1 this
        simp only [tagged, List.getElem?_zipWith] at hj
        split at hj
        · cases hj; rfl
        · cases hj
      have hlen : ts.length = payload.length := by
        rw [ht1.length_eq]; simp [tagged, h1]
      have hf' := fillLoop_bare env.oc S ts.reverse.length ts.reverse le_rfl
        (List.replicate n ⟨0, 0⟩) [] 0
      rcases fillLoop_spec env.oc S
        (fun e : K × (Nat × V) => e.2.1 % n) n ts.reverse.length ts.reverse le_rfl
        (List.replicate n ⟨0, 0⟩) [] 0
        (List.pairwise_reverse.2 (List.pairwise_map (f := PrepItem.bare).1 hsort))
        (fun it hit => ⟨htag it (by simpa using hit), by
          rw [htag it (by simpa using hit)]; exact Nat.mod_lt _ (by omega)⟩)
        (by simp)
        ⟨by
          intro i s hs
          rw [List.getElem?_replicate] at hs
          split at hs <;> simp at hs
          subst hs; simp, by intro j e he; simp at he⟩
        (by simp) (by simp [hlen]; omega) (by simp only [List.length_nil, List.length_reverse, hlen]; omega)
        (Or.inl rfl) with ⟨slots', hf, hl, hinv⟩ | ⟨hf, _⟩
      swap
      · rw [hf, List.map_reverse, List.map_nil] at hf'
        refine (Logs.lift (P := fun _ _ => False) (fun r h => ?_)).bind (fun _ _ h => h.elim)
        rw [hf'] at h
        cases h
      rw [hf, List.map_reverse] at hf'
      refine (Logs.lift (P := fun r ev => ev = [] ∧
          r = (slots', ([] ++ ts.reverse.map PrepItem.entry).map bareEntry))
        (fun r h => ⟨rfl, ?_⟩)).bind (fun r ev' hev' => ?_)
      · rw [List.map_nil] at hf'
        rw [hf'] at h
        cases h; rfl
      · obtain ⟨rfl, rfl⟩ := hev'
        simp only [List.nil_append] at hinv ⊢
        refine .ite (fun _ => .lift (fun _ h => by cases h)) (fun _ => .pure ?_)
        refine ⟨cs, ⟨n, ts.reverse.map (fun it => it.entry.2.1)⟩, h1, by simp, ⟨hl.symm, by simp, ?_, ?_⟩,
          ?_, fun _ => rfl⟩
        · intro i s hs
          have := hinv.bounds i s hs
          simpa using this
        · intro j c hc i s hs
          rw [List.getElem?_map] at hc
          cases hj : ts.reverse[j]? with
          | none => rw [hj] at hc; cases hc
          | some it =>
            rw [hj] at hc
            cases hc
            show _ % slots'.length = i ↔ _
            rw [hl]
            exact hinv.mem j it.entry (by rw [List.getElem?_map, hj]; rfl) i s hs
        · show (List.zip (List.map bareEntry (List.map PrepItem.entry ts.reverse)) _).Perm _
          rw [List.map_map, List.zip_map']
          have := (((List.reverse_perm ts).trans ht1).map
            (fun it => ((bareEntry it.entry), it.entry.2.1)))
          refine this.trans (.of_eq ?_)
          simp only [tagged, List.map_zipWith, List.zip]
          rfl

/-- The calls that build a hashed map from `payload`: each key is hashed once, in order, and then each
once more, in order. -/
theorem UMap.fromVec_logs (env : Env) (S : IdxTy) (u : UserCode σ K Q) (payload : List (K × V))
    (h32 : payload.length < 2 ^ 32) :
    Logs (UMap.fromVec env S u.logged payload) (fun m ev =>
      ∃ (lay : Layout) (sizes codes : List Nat),
        sizes.length = payload.length ∧ codes.length = payload.length ∧
        ev = List.zipWith (fun e c => .sized e.1 c) payload sizes ++
          List.zipWith (fun e c => .placed e.1 c) payload codes ∧
        m.Laid (some lay) ∧ (m.entries.zip lay.places).Perm (payload.zip codes) ∧
        (payload ≠ [] → ∃ r, analyzeHashCodes sizes = .ok r ∧ lay.slots = r.numHashSlots)) := by
  unfold UMap.fromVec
  refine (Logs.mapList (g := fun e c => CallEvent.sized e.1 c) (h := fun _ c => c) (C := True)
    (fun e => ?_)).bind (fun codes ev hev => ?_)
  · exact (Logs.noted _ (u.sizeCode e.1)).mono (fun c _ h => ⟨c, h, rfl, trivial⟩)
  · obtain ⟨sizes, h1, rfl, rfl, _⟩ := hev
    have hz : List.zipWith (fun (_ : K × V) (c : Nat) => c) payload sizes = sizes := by
      clear h32
      induction payload generalizing sizes with
      | nil => cases sizes with | nil => rfl | cons c cs => simp at h1
      | cons e es ih =>
        cases sizes with
        | nil => rfl
        | cons c cs => simp at h1; simp [ih _ h1]
    rw [hz]
    refine (Logs.lift (P := fun r ev => ev = [] ∧ analyzeHashCodes sizes = .ok r)
      (fun r h => ⟨rfl, h⟩)).bind (fun r ev' hev' => ?_)
    obtain ⟨rfl, hr⟩ := hev'
    refine (HashTable.newU_logs env S payload _ (g := fun k c => CallEvent.placed k c)
      (fun k => Logs.noted _ (u.slotCode k)) h32).bind (fun T ev' hev' => .pure ?_)
    obtain ⟨cs, lay, h2, rfl, h3, h4, h5⟩ := hev'
    exact ⟨lay, sizes, cs, h1, h2, by simp, h3, h4, fun hne => ⟨r, hr, h5 hne⟩⟩

/-! ### Lookups -/

omit [Target] in
theorem Layout.mates_slice {lay : Layout} {d : List (K × V)} {code lo hi : Nat}
    (hlen : lay.places.length = d.length) (h1 : lo ≤ hi)
    (hmem : ∀ (j c : Nat), lay.places[j]? = some c →
      (c % lay.slots = code % lay.slots ↔ lo ≤ j ∧ j < hi)) :
    lay.mates code d = (d.drop lo).take (hi - lo) := by
  have hz : d.zip lay.places = (d.zip lay.places).take lo ++
      (((d.zip lay.places).drop lo).take (hi - lo) ++ ((d.zip lay.places).drop lo).drop (hi - lo)) := by
    rw [List.take_append_drop, List.take_append_drop]
  have hget : ∀ (j : Nat) (x : (K × V) × Nat), (d.zip lay.places)[j]? = some x →
      (x.2 % lay.slots = code % lay.slots ↔ lo ≤ j ∧ j < hi) := by
    intro j x hx
    exact hmem j x.2 (List.getElem?_zip_eq_some.1 hx).2
  unfold Layout.mates
  rw [hz, List.filter_append, List.filter_append]
  have ha : ((d.zip lay.places).take lo).filter
      (fun x => x.2 % lay.slots = code % lay.slots) = [] := by
    rw [List.filter_eq_nil_iff]
    intro x hx
    obtain ⟨j, hj⟩ := List.mem_iff_getElem?.1 hx
    rw [List.getElem?_take] at hj
    split at hj
    · have := hget j x hj
      simp; omega
    · cases hj
  have hb : (((d.zip lay.places).drop lo).drop (hi - lo)).filter
      (fun x => x.2 % lay.slots = code % lay.slots) = [] := by
    rw [List.filter_eq_nil_iff]
    intro x hx
    obtain ⟨j, hj⟩ := List.mem_iff_getElem?.1 hx
    rw [List.getElem?_drop, List.getElem?_drop] at hj
    have := hget _ x hj
    simp; omega
  have hc : (((d.zip lay.places).drop lo).take (hi - lo)).filter
      (fun x => x.2 % lay.slots = code % lay.slots) = ((d.zip lay.places).drop lo).take (hi - lo) := by
    rw [List.filter_eq_self]
    intro x hx
    obtain ⟨j, hj⟩ := List.mem_iff_getElem?.1 hx
    rw [List.getElem?_take] at hj
    split at hj
    · rw [List.getElem?_drop] at hj
      have := hget _ x hj
      simp; omega
    · cases hj
  rw [ha, hb, hc, List.nil_append, List.append_nil, List.map_take, List.map_drop,
    List.map_fst_zip (by omega)]

omit [Target] in
theorem UMap.scan_logs (u : UserCode σ K Q) (q : Q) (es : List (K × V)) : ∀ i,
    Logs (UMap.scan u.logged q i es)
      (fun o ev => Compares q es (o.map (fun r => (r.1, r.2.val))) ev) := by
  induction es with
  | nil => exact fun i => .pure .none
  | cons e es ih =>
    intro i
    unfold UMap.scan
    refine (Logs.noted _ (u.isMatch q e.1)).bind (fun b ev hev => ?_)
    subst hev
    cases b with
    | true => exact .pure (.hit e es)
    | false => exact (ih (i + 1)).mono (fun o ev h => .miss e es _ _ h)

omit [Target] in
theorem UMap.lookup_logs (u : UserCode σ K Q) {m : UMap K V} {lay : Option Layout}
    (hm : m.Laid lay) (q : Q) :
    Logs (m.lookup u.logged q)
      (fun o ev => Looks m.entries q lay (o.map (fun r => (r.1, r.2.val))) ev) := by
  cases m with
  | scanning es =>
    cases lay with
    | none => exact (UMap.scan_logs u q es 0).mono (fun o ev h => .scan _ _ h)
    | some lay => cases hm
  | hashed T =>
    cases lay with
    | none => cases hm
    | some lay =>
    have hT : T.Laid lay := hm
    refine (Logs.noted _ (u.probeCode q)).bind (fun code ev hev => ?_)
    subst hev
    refine (Logs.lift (P := fun r ev => ev = [] ∧ ∃ s, T.slots[code % T.numSlots]? = some s ∧
      r = (s.minIndex, s.maxIndex)) (fun r h => ⟨rfl, ?_⟩)).bind (fun r ev hev => ?_)
    · unfold HashTable.getHashInfo at h
      cases hs : T.slots[code % T.numSlots]? with
      | none => rw [hs] at h; cases h
      | some s => rw [hs] at h; cases h; exact ⟨s, rfl, rfl⟩
    obtain ⟨rfl, s, hs, rfl⟩ := hev
    have hb := hT.bounds _ s hs
    refine (Logs.lift (P := fun es ev => ev = [] ∧ es = lay.mates code T.entries)
      (fun es h => ⟨rfl, ?_⟩)).bind (fun es ev hev => ?_)
    · rw [Layout.mates_slice hT.places hb.1 (fun j c hc => by
        rw [hT.slots]; exact hT.mem j c hc _ s hs)]
      unfold sliceUnchecked at h
      split at h
      all_goals first | (cases h; rfl) | cases h
    · obtain ⟨rfl, rfl⟩ := hev
      exact (UMap.scan_logs u q _ s.minIndex).mono (fun o ev hs => .table lay code _ _ hs)

omit [Target] in
theorem UMap.anyList_logs (u : UserCode σ K Q) (k : Q) (rest : List (Q × Q)) (l : List Q) :
    Logs (Call.anyList (fun s => u.logged.isSame s k) l)
      (fun b ev => ∀ (b' : Bool) (ev' : List (CallEvent K Q)),
        (if b then b' = true ∧ ev' = [] else Pairs rest b' ev') →
        Pairs (l.map (fun s => (s, k)) ++ rest) b' (ev ++ ev')) := by
  induction l with
  | nil => exact .pure (fun b' ev' h => h)
  | cons a l ih =>
    unfold Call.anyList
    refine (Logs.noted _ (u.isSame a k)).bind (fun b ev hev => ?_)
    subst hev
    cases b with
    | true =>
      refine .pure (fun b' ev' h => ?_)
      obtain ⟨rfl, rfl⟩ : b' = true ∧ ev' = [] := h
      exact .same (a, k) _
    | false => exact ih.mono (fun b ev h b' ev' h' => .differ (a, k) _ _ _ (h b' ev' h'))

omit [Target] in
theorem UMap.hasDup_logs (u : UserCode σ K Q) (ks : List Q) : ∀ seen : List Q,
    Logs (UMap.hasDup u.logged seen ks) (fun b ev => Pairs (pairsFrom seen ks) b ev) := by
  induction ks with
  | nil => exact fun seen => .pure .distinct
  | cons k ks ih =>
    intro seen
    unfold UMap.hasDup
    refine (UMap.anyList_logs u k (pairsFrom (seen ++ [k]) ks) seen).bind (fun b ev hev => ?_)
    cases b with
    | true =>
      refine .pure ?_
      exact hev true [] ⟨rfl, rfl⟩
    | false => exact (ih (seen ++ [k])).mono (fun b ev' h => hev b ev' h)

omit [Target] in
theorem UMap.getAll_logs (u : UserCode σ K Q) {m : UMap K V} {lay : Option Layout}
    (hm : m.Laid lay) (qs : List Q) :
    Logs (m.getAll u.logged qs) (fun o ev => ∃ es : Option (List (K × V)),
      LooksAll m.entries lay qs es ev ∧
      o.map (fun rs => rs.map Ref.val) = es.map (fun es => es.map (·.2))) := by
  induction qs with
  | nil => exact .pure ⟨some [], .done, rfl⟩
  | cons q qs ih =>
    unfold UMap.getAll
    refine (UMap.lookup_logs u hm q).bind (fun o ev hev => ?_)
    cases o with
    | none => exact .pure ⟨none, .missing q qs _ (by simpa using hev), rfl⟩
    | some r =>
      refine ih.bind (fun o ev' hev' => ?_)
      obtain ⟨es, h1, h2⟩ := hev'
      have h := LooksAll.found q qs (r.1, r.2.val) es ev ev' hev h1
      cases o with
      | none =>
        refine .pure ⟨_, by simpa using h, ?_⟩
        cases es with
        | none => rfl
        | some es => cases h2
      | some rs =>
        refine .pure ⟨_, by simpa using h, ?_⟩
        cases es with
        | none => cases h2
        | some es => simp at h2; simp [h2]

omit [Target] in
theorem UMap.getManyMut_logs (u : UserCode σ K Q) {m : UMap K V} {lay : Option Layout}
    (hm : m.Laid lay) (qs : List Q) :
    Logs (m.getManyMut u.logged qs) (fun o ev =>
      (o = none ∧ Pairs (pairsFrom [] qs) true ev) ∨
      ∃ ev₁ ev₂ es, ev = ev₁ ++ ev₂ ∧ Pairs (pairsFrom [] qs) false ev₁ ∧
        LooksAll m.entries lay qs es ev₂ ∧
        o.map (fun rs => rs.map Ref.val) = es.map (fun es => es.map (·.2))) := by
  unfold UMap.getManyMut
  refine (UMap.hasDup_logs u qs []).bind (fun b ev hev => ?_)
  cases b with
  | true => exact .pure (Or.inl ⟨rfl, by simpa using hev⟩)
  | false =>
    exact (UMap.getAll_logs u hm qs).mono (fun o ev' ⟨es, h1, h2⟩ =>
      Or.inr ⟨ev, ev', es, rfl, hev, h1, h2⟩)

/-! ### Histories -/

omit [Target] in
theorem UMap.write_keys {m : UMap K V} {lay : Option Layout} (hm : m.Laid lay) (i : Nat) (v : V) :
    (m.write i v).entries.map (·.1) = m.entries.map (·.1) ∧ (m.write i v).Laid lay := by
  constructor
  · rw [UMap.write_entries]
    unfold Loose.assign
    apply List.ext_getElem?
    intro j
    rw [List.getElem?_map, List.getElem?_modify, List.getElem?_map]
    cases m.entries[j]? with
    | none => rfl
    | some e => by_cases h : i = j <;> simp [h]
  · cases m with
    | scanning es => cases lay with | none => trivial | some lay => cases hm
    | hashed T =>
      cases lay with
      | none => cases hm
      | some lay =>
        have hT : T.Laid lay := hm
        exact ⟨hT.slots, by simp [setVal, hT.places], by simpa [setVal] using hT.bounds, hT.mem⟩

omit [Target] in
theorem UMap.writes_keys {lay : Option Layout} (l : List (Ref V × V)) :
    ∀ {m : UMap K V}, m.Laid lay →
    (l.foldl (fun m rv => m.write rv.1.idx rv.2) m).entries.map (·.1) = m.entries.map (·.1) ∧
    (l.foldl (fun m rv => m.write rv.1.idx rv.2) m).Laid lay := by
  induction l with
  | nil => exact fun hm => ⟨rfl, hm⟩
  | cons rv l ih =>
    intro m hm
    have h := UMap.write_keys hm rv.1.idx rv.2
    rw [List.foldl_cons, (ih h.2).1]
    exact ⟨h.1, (ih h.2).2⟩

omit [Target] in
theorem UMap.step_logs (u : UserCode σ K Q) {m : UMap K V} {lay : Option Layout}
    (hm : m.Laid lay) (op : MapOp V Q) :
    Logs (m.step u.logged op) (fun r ev => Calls m.entries lay op r.1 ev ∧
      r.2.entries.map (·.1) = m.entries.map (·.1) ∧ r.2.Laid lay) := by
  have hl := UMap.lookup_logs u hm
  cases op with
  | get q =>
    refine (hl q).bind (fun o ev hev => .pure ⟨?_, rfl, hm⟩)
    have := Calls.get (h := lay) q _ ev hev
    cases o <;> simpa using this
  | getKeyValue q =>
    exact (hl q).bind (fun o ev hev => .pure ⟨by simpa using .getKeyValue q _ ev hev, rfl, hm⟩)
  | containsKey q =>
    refine (hl q).bind (fun o ev hev => .pure ⟨?_, rfl, hm⟩)
    have := Calls.containsKey (h := lay) q _ ev hev
    cases o <;> simpa using this
  | index q =>
    refine (hl q).bind (fun o ev hev => ?_)
    cases o with
    | none => exact .lift (fun _ h => by cases h)
    | some r => exact .pure ⟨by simpa using Calls.index q (r.1, r.2.val) ev hev, rfl, hm⟩
  | len => exact .pure ⟨.len _, rfl, hm⟩
  | iter => exact .pure ⟨.iter _, rfl, hm⟩
  | keys => exact .pure ⟨.keys _, rfl, hm⟩
  | values => exact .pure ⟨.values _, rfl, hm⟩
  | getMut q v =>
    refine (hl q).bind (fun o ev hev => ?_)
    have := Calls.getMut (h := lay) q v _ ev hev
    cases o with
    | none => exact .pure ⟨by simpa using this, rfl, hm⟩
    | some r => exact .pure ⟨by simpa using this, UMap.write_keys hm _ _⟩
  | indexMut q v =>
    refine (hl q).bind (fun o ev hev => ?_)
    cases o with
    | none => exact .lift (fun _ h => by cases h)
    | some r =>
      exact .pure ⟨by simpa using Calls.indexMut q v (r.1, r.2.val) ev hev, UMap.write_keys hm _ _⟩
  | getManyMut qvs =>
    refine (UMap.getManyMut_logs u hm _).bind (fun o ev hev => ?_)
    cases o with
    | none =>
      refine .pure ⟨?_, rfl, hm⟩
      rcases hev with ⟨_, h⟩ | ⟨ev₁, ev₂, es, rfl, h1, h2, h3⟩
      · simpa using .repeated qvs ev h
      · have := Calls.many (V := V) (h := lay) qvs es ev₁ ev₂ h1 h2
        rw [← h3] at this
        simpa using this
    | some rs =>
      refine .ite (fun _ => .pure ⟨?_, UMap.writes_keys _ hm⟩) (fun _ => .lift (fun _ h => by cases h))
      rcases hev with ⟨h, _⟩ | ⟨ev₁, ev₂, es, rfl, h1, h2, h3⟩
      · cases h
      · have := Calls.many (V := V) (h := lay) qvs es ev₁ ev₂ h1 h2
        rw [← h3] at this
        simpa using this

omit [Target] in
theorem UMap.run_logs (u : UserCode σ K Q) {lay : Option Layout} (ops : List (MapOp V Q)) :
    ∀ {m : UMap K V}, m.Laid lay → Logs (m.run u.logged ops)
      (fun r ev => CallsAll (m.entries.map (·.1)) lay ops r.1 ev) := by
  induction ops with
  | nil => exact fun _ => .pure .nil
  | cons op ops ih =>
    intro m hm
    unfold UMap.run
    refine (UMap.step_logs u hm op).bind (fun r ev hr =>
      (ih hr.2.2).bind (fun rs ev' hrs => .pure ?_))
    rw [hr.2.1] at hrs
    simpa using .cons m.entries op ops _ _ ev ev' rfl hr.1 hrs

/-! ### The log changes nothing -/

/-- Without its log, `c'` is `c`. -/
def Forgets (c' : Call (σ × List E) α) (c : Call σ α) : Prop :=
  ∀ s log, (c' (s, log)).map (fun r => (r.1, r.2.1)) = c s

omit [Target] in
theorem Forgets.pure {a : α} : Forgets (pure a : Call (σ × List E) α) (pure a) := fun _ _ => rfl

omit [Target] in
theorem Forgets.lift {r : Res α} : Forgets (Call.lift r : Call (σ × List E) α) (Call.lift r) := by
  intro s log
  cases r <;> rfl

omit [Target] in
theorem Forgets.noted (f : α → E) (c : Call σ α) : Forgets (c.noted f) c := by
  intro s log
  unfold Call.noted
  cases c s <;> rfl

omit [Target] in
theorem Forgets.bind {c' : Call (σ × List E) α} {c : Call σ α} {f' : α → Call (σ × List E) β}
    {f : α → Call σ β} (hc : Forgets c' c) (hf : ∀ a, Forgets (f' a) (f a)) :
    Forgets (c' >>= f') (c >>= f) := by
  intro s log
  rw [Call.bind_apply, Call.bind_apply, ← hc s log]
  cases c' (s, log) with
  | ok r => exact hf r.1 r.2.1 r.2.2
  | panic => rfl
  | ub => rfl

omit [Target] in
theorem Forgets.ite {P : Prop} [Decidable P] {c' d' : Call (σ × List E) α} {c d : Call σ α}
    (hc : Forgets c' c) (hd : Forgets d' d) :
    Forgets (if P then c' else d') (if P then c else d) := by
  by_cases h : P
  · simp only [if_pos h]; exact hc
  · simp only [if_neg h]; exact hd

omit [Target] in
theorem Forgets.mapList {f' : α → Call (σ × List E) β} {f : α → Call σ β}
    (hf : ∀ a, Forgets (f' a) (f a)) (l : List α) :
    Forgets (Call.mapList f' l) (Call.mapList f l) := by
  induction l with
  | nil => exact .pure
  | cons a l ih => exact (hf a).bind (fun b => ih.bind (fun bs => .pure))

omit [Target] in
theorem Forgets.anyList {f' : α → Call (σ × List E) Bool} {f : α → Call σ Bool}
    (hf : ∀ a, Forgets (f' a) (f a)) (l : List α) :
    Forgets (Call.anyList f' l) (Call.anyList f l) := by
  induction l with
  | nil => exact .pure
  | cons a l ih => exact (hf a).bind (fun b => .ite .pure ih)

theorem HashTable.newU_forgets (env : Env) (S : IdxTy) (payload : List (K × V)) (n : Nat)
    {hash' : K → Call (σ × List E) Nat} {hash : K → Call σ Nat}
    (hh : ∀ k, Forgets (hash' k) (hash k)) :
    Forgets (HashTable.newU env S payload n hash') (HashTable.newU env S payload n hash) := by
  unfold HashTable.newU
  refine .ite .pure (Forgets.lift.bind (fun cap => .ite .lift ((Forgets.mapList (fun e =>
    (hh e.1).bind (fun c => Forgets.lift.bind (fun s => .pure))) payload).bind (fun prep =>
    Forgets.lift.bind (fun r => .ite .lift .pure)))))

/-- Call by call, `u'` without its log is `u`. -/
structure UserCode.Forgets (u' : UserCode (σ × List E) K Q) (u : UserCode σ K Q) : Prop where
  sizeCode : ∀ k, FC.Forgets (u'.sizeCode k) (u.sizeCode k)
  slotCode : ∀ k, FC.Forgets (u'.slotCode k) (u.slotCode k)
  probeCode : ∀ q, FC.Forgets (u'.probeCode q) (u.probeCode q)
  isMatch : ∀ q k, FC.Forgets (u'.isMatch q k) (u.isMatch q k)
  isSame : ∀ a b, FC.Forgets (u'.isSame a b) (u.isSame a b)

omit [Target] in
theorem UserCode.logged_forgets (u : UserCode σ K Q) : u.logged.Forgets u :=
  ⟨fun _ => .noted _ _, fun _ => .noted _ _, fun _ => .noted _ _, fun _ _ => .noted _ _,
    fun _ _ => .noted _ _⟩

theorem UMap.fromVec_forgets (env : Env) (S : IdxTy) {u' : UserCode (σ × List E) K Q}
    {u : UserCode σ K Q} (hu : u'.Forgets u) (payload : List (K × V)) :
    Forgets (UMap.fromVec env S u' payload) (UMap.fromVec env S u payload) := by
  unfold UMap.fromVec
  refine (Forgets.mapList (fun e => ?_) payload).bind (fun codes =>
    Forgets.lift.bind (fun r => (HashTable.newU_forgets env S payload _
      (fun k => hu.slotCode k)).bind (fun T => .pure)))
  exact hu.sizeCode e.1

theorem UMap.facade_forgets (env : Env) {u' : UserCode (σ × List E) K Q}
    {u : UserCode σ K Q} (hu : u'.Forgets u) (payload : List (K × V)) :
    Forgets (UMap.facade env u' payload) (UMap.facade env u payload) :=
  .ite .pure (.ite (UMap.fromVec_forgets _ _ hu _) (UMap.fromVec_forgets _ _ hu _))

omit [Target] in
theorem UMap.scan_forgets {u' : UserCode (σ × List E) K Q}
    {u : UserCode σ K Q} (hu : u'.Forgets u) (q : Q) (es : List (K × V)) : ∀ i,
    Forgets (UMap.scan u' q i es) (UMap.scan u q i es) := by
  induction es with
  | nil => exact fun i => .pure
  | cons e es ih =>
    exact fun i => (hu.isMatch q e.1).bind (fun b => .ite .pure (ih (i + 1)))

omit [Target] in
theorem UMap.lookup_forgets {u' : UserCode (σ × List E) K Q}
    {u : UserCode σ K Q} (hu : u'.Forgets u) (m : UMap K V) (q : Q) :
    Forgets (m.lookup u' q) (m.lookup u q) := by
  cases m with
  | scanning es => exact UMap.scan_forgets hu q es 0
  | hashed T =>
    exact (hu.probeCode q).bind (fun c => Forgets.lift.bind (fun r =>
      Forgets.lift.bind (fun es => UMap.scan_forgets hu q es r.1)))

omit [Target] in
theorem UMap.hasDup_forgets {u' : UserCode (σ × List E) K Q}
    {u : UserCode σ K Q} (hu : u'.Forgets u) (ks : List Q) : ∀ seen : List Q,
    Forgets (UMap.hasDup u' seen ks) (UMap.hasDup u seen ks) := by
  induction ks with
  | nil => exact fun seen => .pure
  | cons k ks ih =>
    exact fun seen => (Forgets.anyList (fun s => hu.isSame s k) seen).bind
      (fun b => .ite .pure (ih (seen ++ [k])))

omit [Target] in
theorem UMap.getAll_forgets {u' : UserCode (σ × List E) K Q}
    {u : UserCode σ K Q} (hu : u'.Forgets u) (m : UMap K V) (qs : List Q) :
    Forgets (m.getAll u' qs) (m.getAll u qs) := by
  induction qs with
  | nil => exact .pure
  | cons q qs ih =>
    refine (UMap.lookup_forgets hu m q).bind (fun o => ?_)
    cases o with
    | none => exact .pure
    | some r =>
      refine ih.bind (fun o => ?_)
      cases o <;> exact .pure

omit [Target] in
theorem UMap.step_forgets {u' : UserCode (σ × List E) K Q}
    {u : UserCode σ K Q} (hu : u'.Forgets u) (m : UMap K V) (op : MapOp V Q) :
    Forgets (m.step u' op) (m.step u op) := by
  have hl := UMap.lookup_forgets hu m
  cases op with
  | get q => exact (hl q).bind (fun _ => .pure)
  | getKeyValue q => exact (hl q).bind (fun _ => .pure)
  | containsKey q => exact (hl q).bind (fun _ => .pure)
  | index q => exact (hl q).bind (fun o => by cases o <;> first | exact .pure | exact .lift)
  | len => exact .pure
  | iter => exact .pure
  | keys => exact .pure
  | values => exact .pure
  | getMut q v => exact (hl q).bind (fun o => by cases o <;> exact .pure)
  | indexMut q v => exact (hl q).bind (fun o => by cases o <;> first | exact .pure | exact .lift)
  | getManyMut qvs =>
    refine Forgets.bind ((UMap.hasDup_forgets hu _ []).bind (fun b =>
      .ite .pure (UMap.getAll_forgets hu m _))) (fun o => ?_)
    cases o with
    | none => exact .pure
    | some rs => exact .ite .pure .lift

omit [Target] in
theorem UMap.run_forgets {u' : UserCode (σ × List E) K Q}
    {u : UserCode σ K Q} (hu : u'.Forgets u) (ops : List (MapOp V Q)) : ∀ m : UMap K V,
    Forgets (m.run u' ops) (m.run u ops) := by
  induction ops with
  | nil => exact fun m => .pure
  | cons op ops ih =>
    exact fun m => (UMap.step_forgets hu m op).bind (fun r => (ih r.2).bind (fun rs => .pure))

end FC
