import Verif.Spec.StringCalls
import Verif.Lemmas.Calls
import Verif.Lemmas.StringCode

/-
Lemmas about what a `FrozenMap` of strings hashes.
-/

set_option autoImplicit false

namespace FC
variable [Target]
variable {σ K V Q α β E : Type}

/-! ### The search -/

omit [Target] in
theorem repeatsIn_congr (codes : List Nat) : ∀ {s t : List Nat}, (∀ c, c ∈ s ↔ c ∈ t) →
    repeatsIn s codes = repeatsIn t codes := by
  induction codes with
  | nil => intros; rfl
  | cons c cs ih =>
    intro s t h
    unfold repeatsIn
    rw [ih (s := c :: s) (t := c :: t) (by simp [h])]
    simp [h]

theorem subSlice_of {oc : Bool} {p : Place} {k sub : Bytes} (h1 : 1 ≤ p.len)
    (h2 : p.idx + p.len ≤ k.length) (hs : subSlice oc k p.idx p.len (!p.fromEnd) = .ok sub) :
    sub = p.of k := by
  obtain ⟨idx, len, fe⟩ := p
  simp only at h1 h2
  unfold subSlice at hs
  unfold Place.of
  cases fe with
  | false =>
    simp only [Bool.not_false, if_true, sliceChecked] at hs
    split at hs
    · cases hs; simp
    · cases hs
  | true =>
    simp only [Bool.not_true, Bool.false_eq_true, if_false, usub, sliceChecked] at hs
    rw [if_pos (by omega)] at hs
    simp only [Res.ok_bind] at hs
    rw [if_pos (by omega)] at hs
    simp only [Res.ok_bind] at hs
    split at hs
    · cases hs
      simp only [if_true]
      rw [show k.length - idx - 1 + len - (k.length - idx - 1) = len by omega,
        show k.length - idx - 1 = k.length - (idx + 1) by omega]
    · cases hs

theorem uniqueLoopU_logs {oc : Bool} {h : HasherCode σ} {p : Place} (h1 : 1 ≤ p.len)
    (keys : List Bytes) (hk : ∀ k ∈ keys, p.idx + p.len ≤ k.length) : ∀ (set : List Nat) (tol : Nat),
    Logs (uniqueLoopU oc h.logged p.idx p.len (!p.fromEnd) keys set tol) (fun b ev =>
      ∃ codes, ev = trials p keys codes ∧
        match b with
        | true => codes.length = keys.length ∧ repeatsIn set codes ≤ tol
        | false => ∃ pre c, codes = pre ++ [c] ∧ pre.length < keys.length ∧
            repeatsIn set pre ≤ tol ∧ tol < repeatsIn set codes) := by
  induction keys with
  | nil => exact fun set tol => .pure ⟨[], rfl, rfl, by simp [repeatsIn]⟩
  | cons k keys ih =>
    intro set tol
    unfold uniqueLoopU
    refine (Logs.lift (P := fun sub ev => ev = [] ∧ sub = p.of k) (fun sub hs => ⟨rfl,
      subSlice_of h1 (hk k List.mem_cons_self) hs⟩)).bind (fun sub ev hev => ?_)
    obtain ⟨rfl, rfl⟩ := hev
    refine (Logs.noted (E := HashCall) (⟨.trial, p.of k, ·⟩) (h.hashSub (p.of k))).bind
      (fun c ev hev => ?_)
    subst hev
    have ih' := ih (fun k hk' => hk k (List.mem_cons_of_mem _ hk'))
    refine .ite (fun hc => .ite (fun h0 => .pure ?_) (fun h0 => ?_)) (fun hc => ?_)
    · refine ⟨[c], by simp [trials], [], c, rfl, by simp, by simp [repeatsIn], ?_⟩
      simp [repeatsIn, hc, h0]
    · refine (ih' set (tol - 1)).mono (fun b ev hb => ?_)
      obtain ⟨codes, rfl, hb⟩ := hb
      have hr : ∀ l, repeatsIn set (c :: l) = 1 + repeatsIn set l := by
        intro l
        rw [repeatsIn, if_pos hc, repeatsIn_congr l (s := c :: set) (t := set) (by
          intro x; simp only [List.mem_cons]; exact ⟨fun h => h.elim (fun h => h ▸ hc) id, Or.inr⟩)]
      refine ⟨c :: codes, by simp [trials], ?_⟩
      cases b with
      | true => refine ⟨by simp [hb.1], ?_⟩; have := hb.2; rw [hr]; omega
      | false =>
        obtain ⟨pre, d, rfl, h3, h4, h5⟩ := hb
        refine ⟨c :: pre, d, rfl, by simpa using h3, ?_, ?_⟩
        · rw [hr]; omega
        · rw [hr]; omega
    · refine (ih' (c :: set) tol).mono (fun b ev hb => ?_)
      obtain ⟨codes, rfl, hb⟩ := hb
      have hr : ∀ l, repeatsIn set (c :: l) = repeatsIn (c :: set) l := by
        intro l; rw [repeatsIn, if_neg hc]; omega
      refine ⟨c :: codes, by simp [trials], ?_⟩
      cases b with
      | true => refine ⟨by simp [hb.1], ?_⟩; have := hb.2; rw [hr]; omega
      | false =>
        obtain ⟨pre, d, rfl, h3, h4, h5⟩ := hb
        exact ⟨c :: pre, d, rfl, by simpa using h3, by rw [hr]; omega, by rw [hr]; omega⟩

theorem tries_logs {oc : Bool} {h : HasherCode σ} (p : Place) (h1 : 1 ≤ p.len)
    (keys : List Bytes) (hk : ∀ k ∈ keys, p.idx + p.len ≤ k.length) (tol : Nat) :
    Logs (uniqueLoopU oc h.logged p.idx p.len (!p.fromEnd) keys [] tol) (Tries tol keys p) := by
  refine (uniqueLoopU_logs h1 keys hk [] tol).mono (fun b ev hb => ?_)
  obtain ⟨codes, rfl, hb⟩ := hb
  cases b with
  | true => exact .accept codes hb.1 hb.2
  | false =>
    obtain ⟨pre, c, rfl, h3, h4, h5⟩ := hb
    exact .reject pre c h3 h4 h5

omit [Target] in
theorem Searches.append_none {tol : Nat} {keys : List Bytes} {ps qs : List Place} {o o' : Option Place}
    {ev ev' : List HashCall} (h : Searches tol keys ps o ev) (ho : o = none)
    (h' : Searches tol keys qs o' ev') : Searches tol keys (ps ++ qs) o' (ev ++ ev') := by
  induction h with
  | nothing => exact h'
  | found p ps ev h => cases ho
  | next p ps o ev ev'' h _ ih =>
    rw [List.append_assoc]
    exact .next p _ _ _ _ h (ih ho)

omit [Target] in
theorem Searches.append_some {tol : Nat} {keys : List Bytes} {ps : List Place} {o : Option Place}
    {ev : List HashCall} (h : Searches tol keys ps o ev) (ho : o ≠ none) (qs : List Place) :
    Searches tol keys (ps ++ qs) o ev := by
  induction h with
  | nothing => exact absurd rfl ho
  | found p ps ev h => exact .found p _ ev h
  | next p ps o ev ev'' h _ ih => exact .next p _ _ _ _ h (ih ho)

omit [Target] in
theorem Searches.mem {tol : Nat} {keys : List Bytes} {ps : List Place} {o : Option Place}
    {ev : List HashCall} (h : Searches tol keys ps o ev) {p : Place} (hp : o = some p) : p ∈ ps := by
  induction h with
  | nothing => cases hp
  | found p ps ev h => cases hp; simp
  | next p ps o ev ev'' h _ ih => exact List.mem_cons_of_mem _ (ih hp)

theorem findIndexU_logs {oc : Bool} {h : HasherCode σ} {len : Nat} {fe : Bool} {keys : List Bytes}
    (h1 : 1 ≤ len) {tol : Nat} : ∀ (count idx : Nat),
    (∀ k ∈ keys, idx + count + len ≤ k.length + 1) →
    Logs (findIndexU (fun i => uniqueLoopU oc h.logged i len (!fe) keys [] tol) idx count)
      (fun o ev => Searches tol keys ((List.range' idx count).map (⟨·, len, fe⟩))
        (o.map (⟨·, len, fe⟩)) ev) := by
  intro count
  induction count with
  | zero => exact fun _ _ => .pure .nothing
  | succ count ih =>
    intro idx hk
    unfold findIndexU
    refine (tries_logs ⟨idx, len, fe⟩ h1 keys (fun k hk' => by
      have := hk k hk'; simp only; omega) tol).bind (fun b ev hb => ?_)
    rw [List.range'_succ, List.map_cons]
    cases b with
    | true => exact .pure (by simpa using .found ⟨idx, len, fe⟩ _ ev hb)
    | false =>
      exact (ih (idx + 1) (fun k hk' => by have := hk k hk'; omega)).mono
        (fun o ev' h' => .next _ _ _ _ _ hb h')

/-- What the verdict says about the place accepted. -/
def verdictOf (hi : Nat) : Option Place → SliceVerdict
  | none => .normal
  | some p => if p.fromEnd then .right p.idx p.len else if p.len = hi then .normal else .left p.idx p.len

theorem subsliceLoopU_logs {oc : Bool} {h : HasherCode σ} {keys : List Bytes} {lo hi : Nat}
    (hlo : ∀ k ∈ keys, lo ≤ k.length) {tol : Nat} : ∀ (count len : Nat), 1 ≤ len →
    len + count ≤ lo + 1 →
    Logs (subsliceLoopU oc h.logged keys lo hi tol len count) (fun v ev => ∃ o,
      Searches tol keys ((List.range' len count).flatMap fun len =>
        placesOf lo len false ++ if lo = hi then [] else placesOf lo len true) o ev ∧
      v = verdictOf hi o) := by
  intro count
  induction count with
  | zero => exact fun _ _ _ => .pure ⟨none, .nothing, rfl⟩
  | succ count ih =>
    intro len h1 hle
    unfold subsliceLoopU
    have hb : ∀ k ∈ keys, 0 + (lo - len + 1) + len ≤ k.length + 1 := fun k hk => by
      have := hlo k hk; omega
    have hL := findIndexU_logs (oc := oc) (h := h) (fe := false) h1 (tol := tol) _ 0 hb
    have hR := findIndexU_logs (oc := oc) (h := h) (fe := true) h1 (tol := tol) _ 0 hb
    have hpl : ∀ fe, placesOf lo len fe = (List.range' 0 (lo - len + 1)).map (⟨·, len, fe⟩) := by
      intro fe; unfold placesOf; rw [List.range_eq_range']
    rw [List.range'_succ, List.flatMap_cons]
    refine hL.bind (fun o ev ho => ?_)
    rw [← hpl] at ho
    cases o with
    | some i =>
      have hs := (ho.append_some (by simp) (if lo = hi then [] else placesOf lo len true)).append_some
        (by simp) ((List.range' (len + 1) count).flatMap fun len =>
        placesOf lo len false ++ if lo = hi then [] else placesOf lo len true)
      refine .ite (fun he => .pure ⟨some ⟨i, len, false⟩, by rw [List.append_nil]; exact hs, ?_⟩)
        (fun he => .pure ⟨some ⟨i, len, false⟩, by rw [List.append_nil]; exact hs, ?_⟩)
      · simp [verdictOf, he]
      · simp [verdictOf, he]
    | none =>
      refine .ite (fun hne => ?_) (fun hne => ?_)
      · refine hR.bind (fun o ev' ho' => ?_)
        rw [← hpl] at ho'
        rw [if_neg hne]
        have hs := ho.append_none rfl ho'
        cases o with
        | some i =>
          refine .pure ⟨some ⟨i, len, true⟩, ?_, by simp [verdictOf]⟩
          rw [List.append_nil]
          exact hs.append_some (by simp) _
        | none =>
          refine (ih (len + 1) (by omega) (by omega)).mono (fun v ev'' hv => ?_)
          obtain ⟨o, h3, h4⟩ := hv
          refine ⟨o, ?_, h4⟩
          have := hs.append_none rfl h3
          rw [← List.append_assoc]
          exact this
      · push Not at hne
        refine (ih (len + 1) (by omega) (by omega)).mono (fun v ev'' hv => ?_)
        obtain ⟨o, h3, h4⟩ := hv
        refine ⟨o, ?_, h4⟩
        have := ho.append_none rfl h3
        rw [if_pos hne, List.append_nil]
        exact this

omit [Target] in
theorem mem_searchOrder {lo hi : Nat} {p : Place} (h : p ∈ searchOrder lo hi) :
    1 ≤ p.len ∧ p.len ≤ 16 ∧ p.idx + p.len ≤ lo := by
  unfold searchOrder at h
  obtain ⟨len, hl, hp⟩ := List.mem_flatMap.1 h
  rw [List.mem_range'_1] at hl
  have key : ∀ fe, p ∈ placesOf lo len fe → 1 ≤ p.len ∧ p.len ≤ 16 ∧ p.idx + p.len ≤ lo := by
    intro fe hp
    unfold placesOf at hp
    obtain ⟨i, hi, rfl⟩ := List.mem_map.1 hp
    rw [List.mem_range] at hi
    simp only
    omega
  rcases List.mem_append.1 hp with hp | hp
  · exact key _ hp
  · split at hp
    · cases hp
    · exact key _ hp

/-- The verdict, and the hashing done to reach it. -/
theorem analyzeSliceKeysU_logs {oc : Bool} {h : HasherCode σ} {keys : List Bytes}
    (h4 : 4 ≤ keys.length) (hlt : ∀ k ∈ keys, k.length < usz) :
    Logs (analyzeSliceKeysU oc h.logged keys) (fun v ev =>
      (∃ i l, v = .right i l ∧ 1 ≤ l ∧ ∀ k ∈ keys, i + l ≤ k.length) ∨ Chooses keys v.rep ev) := by
  have hne : keys ≠ [] := by rintro rfl; simp at h4
  unfold analyzeSliceKeysU
  refine .ite (fun hn => ?_) (fun hn => .pure (Or.inr ?_))
  · have hns : ¬ LengthsSpread keys := by
      unfold LengthsSpread
      rw [← analyzeLengths_iff, hn]
      simp
    have hlo : ∀ k ∈ keys, minLen keys ≤ k.length := fun k hk => minLen_le hk
    refine (subsliceLoopU_logs (hi := maxLen keys) hlo (min (minLen keys) 16) 1 le_rfl
      (by omega)).mono (fun v ev hv => ?_)
    obtain ⟨o, hs, rfl⟩ := hv
    have hs' : Searches (keys.length / 20) keys (searchOrder (minLen keys) (maxLen keys)) o ev := hs
    have hb : ∀ k ∈ keys, minLen keys ≤ k.length ∧ k.length ≤ maxLen keys := fun k hk =>
      ⟨hlo k hk, le_maxLen hk⟩
    have hmin := minLen_mem hne hlt
    have hmax := maxLen_mem hne
    cases o with
    | none => exact Or.inr (.whole _ _ none ev h4 hns hb hmin hmax hs' (by simp))
    | some p =>
      have hp := mem_searchOrder (hs'.mem rfl)
      unfold verdictOf
      by_cases hf : p.fromEnd = true
      · simp only [hf, if_true]
        exact Or.inl ⟨_, _, rfl, hp.1, fun k hk => by have := hlo k hk; omega⟩
      · simp only [hf]
        by_cases he : p.len = maxLen keys
        · simp only [he, if_true]
          refine Or.inr (.whole _ _ _ ev h4 hns hb hmin hmax hs' ?_)
          rintro q hq; cases hq; exact ⟨by simpa using hf, he⟩
        · simp only [he, if_false]
          refine Or.inr (.part _ _ p ev h4 hns hb hmin hmax hs' (by simpa using hf) ?_)
          obtain ⟨k, hk, hk'⟩ := hmin
          have := (hb k hk).2
          omega
  · have : analyzeLengths keys = .length := (analyzeLengths_cases keys).resolve_right hn
    rw [this]
    refine .lengths h4 ?_
    unfold LengthsSpread
    rw [← analyzeLengths_iff, this]

/-! ### Building -/

omit [Target] in
theorem Logs.mapList_many {f : α → Call (σ × List E) β} {g : α → Nat → List E} (l : List α)
    (hf : ∀ a, Logs (f a) (fun _ ev => ∃ c, ev = g a c)) :
    Logs (Call.mapList f l) (fun _ ev => ∃ cs : List Nat, cs.length = l.length ∧
      ev = (List.zipWith g l cs).flatten) := by
  induction l with
  | nil => exact .pure ⟨[], rfl, rfl⟩
  | cons a l ih =>
    unfold Call.mapList
    refine (hf a).bind (fun b ev hb => ih.bind (fun bs ev' hbs => .pure ?_))
    obtain ⟨c, rfl⟩ := hb
    obtain ⟨cs, h1, rfl⟩ := hbs
    exact ⟨c :: cs, by simp [h1], by simp⟩

omit [Target] in
theorem HasherCode.sliceHash_logs (h : HasherCode σ) (s : Bytes) (a b : Nat) :
    Logs (h.logged.sliceHash s a b) (fun c ev => a ≤ b ∧ b ≤ s.length ∧
      ev = [⟨.part, (s.drop a).take (b - a), c⟩]) := by
  unfold HasherCode.sliceHash
  refine (Logs.lift (P := fun sub ev => ev = [] ∧ a ≤ b ∧ b ≤ s.length ∧
    sub = (s.drop a).take (b - a)) (fun sub hs => ⟨rfl, ?_⟩)).bind (fun sub ev hev => ?_)
  · unfold sliceUnchecked at hs
    split at hs
    · rename_i hh; cases hs; exact ⟨hh.1, hh.2, rfl⟩
    · cases hs
  · obtain ⟨rfl, h1, h2, rfl⟩ := hev
    exact (Logs.noted _ (h.writeSub _)).mono (fun c ev he => ⟨h1, h2, by rw [List.nil_append, he]⟩)

/-- The kind of a map that looks strings up by hash code. -/
def StringRep.Hashes : StringRep → Prop
  | .scanning => False
  | .right _ _ => False
  | _ => True

theorem StringRep.code_logs (oc : Bool) (h : HasherCode σ) {rep : StringRep} (hr : rep.Hashes)
    (s : Bytes) :
    Logs ((rep.code oc h.logged).sizeCode s) (fun _ ev => ∃ c, ev = rep.calls s c) ∧
    Logs ((rep.code oc h.logged).slotCode s) (fun _ ev => ∃ c, ev = rep.calls s c) ∧
    Logs ((rep.code oc h.logged).probeCode s) (fun _ ev => ∃ c, ev = rep.calls s c) := by
  have hguard : ∀ i j, Logs (if s.length ≥ j then h.logged.sliceHash s i j else pure 0)
      (fun _ ev => ∃ c, ev = StringRep.calls (.left i j) s c) := by
    intro i j
    refine .ite (fun hj => (h.sliceHash_logs s i j).mono (fun c ev hc => ⟨c, ?_⟩))
      (fun hj => .pure ⟨0, ?_⟩)
    · rw [hc.2.2, StringRep.calls, if_pos hj]
    · rw [StringRep.calls, if_neg hj]
  cases rep with
  | scanning => cases hr
  | right i j => cases hr
  | length => exact ⟨.pure ⟨0, rfl⟩, .pure ⟨0, rfl⟩, .pure ⟨0, rfl⟩⟩
  | common =>
    have := Logs.noted (E := HashCall) (⟨.whole, s, ·⟩) (h.hashKey s)
    exact ⟨this.mono (fun c _ h => ⟨c, h⟩), this.mono (fun c _ h => ⟨c, h⟩),
      this.mono (fun c _ h => ⟨c, h⟩)⟩
  | left i j =>
    refine ⟨hguard i j, (h.sliceHash_logs s i j).mono (fun c ev hc => ⟨c, ?_⟩), hguard i j⟩
    rw [hc.2.2, StringRep.calls, if_pos hc.2.1]

theorem HashTable.newU_logs_many (env : Env) (S : IdxTy) (payload : List (K × V)) (n : Nat)
    {hash : K → Call (σ × List E) Nat} {g : K → Nat → List E}
    (hh : ∀ k, Logs (hash k) (fun _ ev => ∃ c, ev = g k c)) :
    Logs (HashTable.newU env S payload n hash) (fun _ ev => ∃ cs : List Nat,
      cs.length = (payload.map (·.1)).length ∧
      ev = (List.zipWith g (payload.map (·.1)) cs).flatten) := by
  unfold HashTable.newU
  refine .ite (fun he => .pure ?_) (fun _ => ?_)
  · obtain rfl : payload = [] := by simpa using he
    exact ⟨[], rfl, rfl⟩
  · refine (Logs.lift (P := fun _ ev => ev = []) (fun _ _ => rfl)).bind (fun cap ev hev => ?_)
    subst hev
    refine .ite (fun _ => .lift (fun _ h => by cases h)) (fun _ => ?_)
    refine (Logs.mapList_many (g := fun e c => g e.1 c) payload (fun e => ?_)).bind
      (fun prep ev hev => ?_)
    · refine (hh e.1).bind (fun c ev hev => ?_)
      exact (Logs.lift (P := fun _ ev => ev = []) (fun _ _ => rfl)).bind (fun _ ev' hev' =>
        .pure (by subst hev'; simpa using hev))
    · obtain ⟨cs, h1, rfl⟩ := hev
      refine (Logs.lift (P := fun _ ev => ev = []) (fun _ _ => rfl)).bind (fun r ev hev => ?_)
      subst hev
      refine .ite (fun _ => .lift (fun _ h => by cases h)) (fun _ => .pure ⟨cs, by simpa using h1, ?_⟩)
      simp [List.zipWith_map_left]

theorem UMap.fromVec_logs_many (env : Env) (S : IdxTy) {h : HasherCode σ} {rep : StringRep}
    (hr : rep.Hashes) (payload : List (Bytes × V)) :
    Logs (UMap.fromVec env S (rep.code env.oc h.logged) payload) (fun m ev =>
      (∃ T, m = .hashed T) ∧ ∃ ev₁ ev₂, rep.callsFor (payload.map (·.1)) ev₁ ∧
        rep.callsFor (payload.map (·.1)) ev₂ ∧ ev = ev₁ ++ ev₂) := by
  unfold UMap.fromVec
  refine (Logs.mapList_many (g := fun e c => rep.calls e.1 c) payload
    (fun e => (StringRep.code_logs env.oc h hr e.1).1)).bind (fun codes ev hev => ?_)
  obtain ⟨cs, h1, rfl⟩ := hev
  refine (Logs.lift (P := fun _ ev => ev = []) (fun _ _ => rfl)).bind (fun r ev hev => ?_)
  subst hev
  refine (HashTable.newU_logs_many env S payload _ (g := rep.calls)
    (fun k => (StringRep.code_logs env.oc h hr k).2.1)).bind (fun T ev hev => .pure ?_)
  refine ⟨⟨T, rfl⟩, _, ev, ⟨cs, by simpa using h1, rfl⟩, hev, ?_⟩
  simp [List.zipWith_map_left]

/-- Building a map that hashes the ends of strings never succeeds. -/
theorem UMap.fromVec_ends (env : Env) (S : IdxTy) {h : HasherCode σ} {i l : Nat} (h1 : 1 ≤ l)
    {payload : List (Bytes × V)} (hne : payload ≠ []) (hk : ∀ e ∈ payload, i + l ≤ e.1.length) :
    Logs (UMap.fromVec env S ((StringRep.right i (i + l)).code env.oc h.logged) payload)
      (fun _ _ => False) := by
  cases payload with
  | nil => exact absurd rfl hne
  | cons e es =>
    have hl := hk e List.mem_cons_self
    have hs : Logs (((StringRep.right i (i + l)).code env.oc h.logged).sizeCode e.1)
        (fun _ _ => False) := by
      show Logs (if e.1.length ≥ i + l then rightCall env.oc i (i + l) (fun k => pure k.length)
        h.logged.sliceHash e.1 else pure 0) _
      rw [if_pos hl]
      show Logs (Call.lift (usub env.oc e.1.length i) >>= fun lo =>
        Call.lift (usub env.oc e.1.length (i + l)) >>= fun hi => h.logged.sliceHash e.1 lo hi) _
      refine (Logs.lift (P := fun lo ev => lo = e.1.length - i) (fun lo hlo => ?_)).bind
        (fun lo ev hlo => ?_)
      · unfold usub at hlo; rw [if_pos (by omega)] at hlo; cases hlo; rfl
      subst hlo
      refine (Logs.lift (P := fun hi ev => hi = e.1.length - (i + l)) (fun hi hhi => ?_)).bind
        (fun hi ev hhi => ?_)
      · unfold usub at hhi; rw [if_pos (by omega)] at hhi; cases hhi; rfl
      subst hhi
      exact (h.sliceHash_logs _ _ _).mono (fun c ev hc => by omega)
    unfold UMap.fromVec Call.mapList
    refine Logs.bind (P := fun _ _ => False) ?_ (fun _ _ h => h.elim)
    exact hs.bind (fun _ _ h => h.elim)

theorem UMap.stringFacade_logs (env : Env) (h : HasherCode σ) {payload : List (Bytes × V)}
    (hlt : ∀ e ∈ payload, e.1.length < usz) :
    Logs (UMap.stringFacade env h.logged payload) (fun m ev =>
      (match m.2 with | .scanning _ => m.1 = .scanning | .hashed _ => m.1.Hashes) ∧
      ∃ choice pass₁ pass₂, Chooses (payload.map (·.1)) m.1 choice ∧
        m.1.callsFor (payload.map (·.1)) pass₁ ∧ m.1.callsFor (payload.map (·.1)) pass₂ ∧
        ev = choice ++ pass₁ ++ pass₂) := by
  unfold UMap.stringFacade
  by_cases h4 : payload.length < 4
  · simp only [if_pos h4]
    have hn : StringRep.callsFor .scanning (payload.map (·.1)) [] :=
      ⟨List.replicate payload.length 0, by simp, by
        symm
        rw [List.flatten_eq_nil_iff]
        intro l hl
        obtain ⟨j, hj⟩ := List.mem_iff_getElem?.1 hl
        rw [List.getElem?_zipWith] at hj
        split at hj
        · cases hj; rfl
        · cases hj⟩
    exact .pure ⟨rfl, [], [], [], .few (by simpa using h4), hn, hn, rfl⟩
  · simp only [if_neg h4]
    have hne : payload ≠ [] := by rintro rfl; simp at h4
    refine (analyzeSliceKeysU_logs (by simpa using h4) (by simpa using hlt)).bind
      (fun v ev hev => ?_)
    have hends : ∀ (S : IdxTy) (rep : StringRep) i l, rep = .right i (i + l) → 1 ≤ l →
        (∀ k ∈ payload.map (·.1), i + l ≤ k.length) →
        Logs (UMap.fromVec env S (rep.code env.oc h.logged) payload) (fun _ _ => False) := by
      rintro S rep i l rfl h1 hk
      exact UMap.fromVec_ends env S h1 hne (fun e he => hk e.1 (List.mem_map_of_mem he))
    have hch : ∀ rep, Chooses (payload.map (·.1)) rep ev → rep.Hashes := by
      intro rep hc
      cases hc with
      | few h => simp at h; omega
      | _ => trivial
    have hgo : ∀ (S : IdxTy) (rep : StringRep), Chooses (payload.map (·.1)) rep ev →
        Logs (do return (rep, ← UMap.fromVec env S (rep.code env.oc h.logged) payload) :
          Call (σ × List HashCall) (StringRep × UMap Bytes V)) (fun m ev' =>
          (match m.2 with | .scanning _ => m.1 = .scanning | .hashed _ => m.1.Hashes) ∧
          ∃ choice pass₁ pass₂, Chooses (payload.map (·.1)) m.1 choice ∧
            m.1.callsFor (payload.map (·.1)) pass₁ ∧ m.1.callsFor (payload.map (·.1)) pass₂ ∧
            ev ++ ev' = choice ++ pass₁ ++ pass₂) := by
      intro S rep hc
      refine (UMap.fromVec_logs_many env S (hch rep hc) payload).bind (fun m ev' hm => .pure ?_)
      obtain ⟨⟨T, rfl⟩, ev₁, ev₂, h1, h2, rfl⟩ := hm
      exact ⟨hch rep hc, ev, ev₁, ev₂, hc, h1, h2, by simp⟩
    refine .ite (fun h255 => ?_) (fun h255 => ?_)
    · rcases hev with ⟨i, l, rfl, h1, hk⟩ | hc
      · exact (hends _ _ i l rfl h1 hk).bind (fun _ _ h => h.elim)
      · exact hgo _ _ hc
    · rcases hev with ⟨i, l, rfl, h1, hk⟩ | hc
      · exact (hends _ _ i l rfl h1 hk).bind (fun _ _ h => h.elim)
      · have hvl : v ≠ .length := by
          rintro rfl
          have hc' : Chooses (payload.map (·.1)) .length ev := hc
          cases hc' with
          | lengths _ hs => have := hs.1; simp at this; omega
        simp only [if_neg hvl]
        exact hgo _ _ hc

/-! ### Operations -/

/-- The map is of this kind. -/
def UMap.OfKind (m : UMap Bytes V) (rep : StringRep) : Prop :=
  match m with
  | .scanning _ => rep = .scanning
  | .hashed _ => rep.Hashes

omit [Target] in
theorem UMap.scan_silent {u : UserCode (σ × List E) K Q}
    (hm : ∀ q k, Logs (u.isMatch q k) (fun _ ev => ev = [])) (q : Q) (es : List (K × V)) : ∀ i,
    Logs (UMap.scan u q i es) (fun _ ev => ev = []) := by
  induction es with
  | nil => exact fun i => .pure rfl
  | cons e es ih =>
    intro i
    unfold UMap.scan
    refine (hm q e.1).bind (fun b ev hev => ?_)
    subst hev
    exact .ite (fun _ => .pure rfl) (fun _ => ih (i + 1))

theorem StringRep.isMatch_silent (oc : Bool) (h : HasherCode σ) (rep : StringRep) (q k : Bytes) :
    Logs ((rep.code oc h.logged).isMatch q k) (fun _ ev => ev = []) := by
  cases rep <;> exact .pure rfl

theorem StringRep.isSame_silent (oc : Bool) (h : HasherCode σ) (rep : StringRep) (a b : Bytes) :
    Logs ((rep.code oc h.logged).isSame a b) (fun r ev => ev = [] ∧ (r = true ↔ a = b)) := by
  cases rep <;> exact .pure ⟨rfl, by simp [beq]⟩

theorem UMap.lookup_hashes {oc : Bool} {h : HasherCode σ} {rep : StringRep} {m : UMap Bytes V}
    (hm : m.OfKind rep) (q : Bytes) :
    Logs (m.lookup (rep.code oc h.logged) q) (fun _ ev => ∃ c, ev = rep.calls q c) := by
  cases m with
  | scanning es =>
    obtain rfl : rep = .scanning := hm
    exact (UMap.scan_silent (StringRep.isMatch_silent oc h _) q es 0).mono
      (fun _ ev hev => ⟨0, hev⟩)
  | hashed T =>
    refine (StringRep.code_logs oc h hm q).2.2.bind (fun code ev hev => ?_)
    refine (Logs.lift (P := fun _ ev => ev = []) (fun _ _ => rfl)).bind (fun r ev' hev' => ?_)
    subst hev'
    refine (Logs.lift (P := fun _ ev => ev = []) (fun _ _ => rfl)).bind (fun es ev' hev' => ?_)
    subst hev'
    refine (UMap.scan_silent (StringRep.isMatch_silent oc h _) q es r.1).mono
      (fun _ ev' hev' => ?_)
    subst hev'
    simpa using hev

theorem UMap.anyList_silent {oc : Bool} {h : HasherCode σ} {rep : StringRep} (k : Bytes)
    (l : List Bytes) :
    Logs (Call.anyList (fun s => (rep.code oc h.logged).isSame s k) l)
      (fun b ev => ev = [] ∧ (b = true ↔ k ∈ l)) := by
  induction l with
  | nil => exact .pure ⟨rfl, by simp⟩
  | cons a l ih =>
    unfold Call.anyList
    refine (StringRep.isSame_silent oc h rep a k).bind (fun b ev hev => ?_)
    obtain ⟨rfl, hb⟩ := hev
    refine .ite (fun ht => .pure ⟨rfl, ?_⟩) (fun hf => ih.mono (fun b' ev hev => ⟨hev.1, ?_⟩))
    · simp [hb.1 ht]
    · have : ¬ k = a := fun h => hf (hb.2 h.symm)
      simp [hev.2, this]

theorem UMap.hasDup_silent {oc : Bool} {h : HasherCode σ} {rep : StringRep} (ks : List Bytes) :
    ∀ seen : List Bytes, seen.Nodup →
    Logs (UMap.hasDup (rep.code oc h.logged) seen ks)
      (fun b ev => ev = [] ∧ (b = false ↔ (seen ++ ks).Nodup)) := by
  induction ks with
  | nil => exact fun seen hs => .pure ⟨rfl, by simpa using hs⟩
  | cons k ks ih =>
    intro seen hs
    unfold UMap.hasDup
    refine (UMap.anyList_silent k seen).bind (fun b ev hev => ?_)
    obtain ⟨rfl, hb⟩ := hev
    refine .ite (fun ht => .pure ⟨rfl, ?_⟩) (fun hf => ?_)
    · have hk := hb.1 ht
      simp only [Bool.true_eq_false, false_iff]
      intro hn
      exact (List.disjoint_of_nodup_append hn) hk List.mem_cons_self
    · have hk : k ∉ seen := fun h => hf (hb.2 h)
      refine (ih (seen ++ [k]) ?_).mono (fun b' ev hev => ?_)
      · rw [List.nodup_append]
        refine ⟨hs, by simp, ?_⟩
        intro a ha b hb
        simp at hb
        subst hb
        rintro rfl
        exact hk ha
      · simpa using hev

omit [Target] in
theorem StringRep.callsFor_nil (rep : StringRep) : rep.callsFor [] [] := ⟨[], rfl, rfl⟩

omit [Target] in
theorem StringRep.callsFor_cons {rep : StringRep} {q : Bytes} {qs : List Bytes} {c : Nat}
    {ev : List HashCall} (h : rep.callsFor qs ev) : rep.callsFor (q :: qs) (rep.calls q c ++ ev) := by
  obtain ⟨cs, h1, rfl⟩ := h
  exact ⟨c :: cs, by simp [h1], by simp⟩

theorem UMap.getAll_hashes {oc : Bool} {h : HasherCode σ} {rep : StringRep} {m : UMap Bytes V}
    (hm : m.OfKind rep) (qs : List Bytes) :
    Logs (m.getAll (rep.code oc h.logged) qs) (fun o ev => ∃ asked, asked <+: qs ∧
      (qs ≠ [] → asked ≠ []) ∧ (o ≠ none → asked = qs) ∧ rep.callsFor asked ev) := by
  induction qs with
  | nil => exact .pure ⟨[], by simp, by simp, by simp, rep.callsFor_nil⟩
  | cons q qs ih =>
    unfold UMap.getAll
    refine (UMap.lookup_hashes hm q).bind (fun o ev hev => ?_)
    obtain ⟨c, rfl⟩ := hev
    cases o with
    | none =>
      exact .pure ⟨[q], by simp, by simp, by simp, by simpa using StringRep.callsFor_cons (q := q) (c := c) rep.callsFor_nil⟩
    | some r =>
      refine ih.bind (fun o ev' hev' => ?_)
      obtain ⟨asked, h1, h2, h3, h4⟩ := hev'
      cases o with
      | none =>
        refine .pure ⟨q :: asked, ?_, by simp, by simp, by simpa using StringRep.callsFor_cons (q := q) (c := c) h4⟩
        obtain ⟨t, rfl⟩ := h1
        exact ⟨t, by simp⟩
      | some rs =>
        obtain rfl := h3 (by simp)
        exact .pure ⟨_, List.prefix_rfl, by simp, by simp, by simpa using StringRep.callsFor_cons (q := q) (c := c) h4⟩

theorem UMap.getManyMut_hashes {oc : Bool} {h : HasherCode σ} {rep : StringRep} {m : UMap Bytes V}
    (hm : m.OfKind rep) (qs : List Bytes) :
    Logs (m.getManyMut (rep.code oc h.logged) qs) (fun o ev => ∃ asked,
      (if qs.Nodup then asked <+: qs ∧ (qs ≠ [] → asked ≠ []) ∧ (o ≠ none → asked = qs)
        else o = none ∧ asked = []) ∧ rep.callsFor asked ev) := by
  unfold UMap.getManyMut
  refine (UMap.hasDup_silent qs [] List.nodup_nil).bind (fun b ev hev => ?_)
  obtain ⟨rfl, hb⟩ := hev
  simp only [List.nil_append] at hb ⊢
  refine .ite (fun ht => .pure ⟨[], ?_, by simpa using rep.callsFor_nil⟩) (fun hf => ?_)
  · have : ¬ qs.Nodup := fun h => by rw [hb.2 h] at ht; cases ht
    rw [if_neg this]
    exact ⟨rfl, rfl⟩
  · have : qs.Nodup := hb.1 (by simpa using hf)
    simp only [if_pos this]
    exact (UMap.getAll_hashes hm qs).mono (fun o ev ⟨a, h1, h2, h3, h4⟩ => ⟨a, ⟨h1, h2, h3⟩, h4⟩)

omit [Target] in
theorem UMap.OfKind.write {rep : StringRep} {m : UMap Bytes V} (hm : m.OfKind rep) (i : Nat) (v : V) :
    (m.write i v).OfKind rep := by cases m <;> exact hm

omit [Target] in
theorem UMap.OfKind.writes {rep : StringRep} (l : List (Ref V × V)) : ∀ {m : UMap Bytes V},
    m.OfKind rep → (l.foldl (fun m rv => m.write rv.1.idx rv.2) m).OfKind rep := by
  induction l with
  | nil => exact fun h => h
  | cons a l ih => exact fun h => ih (h.write _ _)

theorem UMap.step_hashes {oc : Bool} {h : HasherCode σ} {rep : StringRep} {m : UMap Bytes V}
    (hm : m.OfKind rep) (op : MapOp V Bytes) :
    Logs (m.step (rep.code oc h.logged) op) (fun r ev => r.2.OfKind rep ∧ ∃ qs, op.Asks r.1 qs ∧
      rep.callsFor qs ev) := by
  have hl : ∀ q, Logs (m.lookup (rep.code oc h.logged) q) (fun _ ev => rep.callsFor [q] ev) :=
    fun q => (UMap.lookup_hashes hm q).mono (fun _ ev ⟨c, hc⟩ => by
      rw [hc]; simpa using StringRep.callsFor_cons (q := q) (c := c) rep.callsFor_nil)
  cases op with
  | get q => exact (hl q).bind (fun o ev hev => .pure ⟨hm, _, rfl, by simpa using hev⟩)
  | getKeyValue q => exact (hl q).bind (fun o ev hev => .pure ⟨hm, _, rfl, by simpa using hev⟩)
  | containsKey q => exact (hl q).bind (fun o ev hev => .pure ⟨hm, _, rfl, by simpa using hev⟩)
  | index q =>
    refine (hl q).bind (fun o ev hev => ?_)
    cases o with
    | none => exact .lift (fun _ h => by cases h)
    | some r => exact .pure ⟨hm, _, rfl, by simpa using hev⟩
  | len => exact .pure ⟨hm, _, rfl, rep.callsFor_nil⟩
  | iter => exact .pure ⟨hm, _, rfl, rep.callsFor_nil⟩
  | keys => exact .pure ⟨hm, _, rfl, rep.callsFor_nil⟩
  | values => exact .pure ⟨hm, _, rfl, rep.callsFor_nil⟩
  | getMut q v =>
    refine (hl q).bind (fun o ev hev => ?_)
    cases o with
    | none => exact .pure ⟨hm, _, rfl, by simpa using hev⟩
    | some r => exact .pure ⟨hm.write _ _, _, rfl, by simpa using hev⟩
  | indexMut q v =>
    refine (hl q).bind (fun o ev hev => ?_)
    cases o with
    | none => exact .lift (fun _ h => by cases h)
    | some r => exact .pure ⟨hm.write _ _, _, rfl, by simpa using hev⟩
  | getManyMut qvs =>
    refine (UMap.getManyMut_hashes hm _).bind (fun o ev hev => ?_)
    obtain ⟨asked, h1, h2⟩ := hev
    have h1' : ∀ out : Out Bytes V, (o = none → out = .many none) →
        MapOp.Asks (.getManyMut qvs) out asked := by
      intro out ho
      unfold MapOp.Asks
      by_cases hd : (qvs.map (·.1)).Nodup
      · rw [if_pos hd] at h1
        simp only [if_pos hd]
        exact ⟨h1.1, fun hne => h1.2.1 (by simpa using hne),
          fun hne => h1.2.2 (fun h => hne (ho h))⟩
      · rw [if_neg hd] at h1
        simp only [if_neg hd]
        exact h1.2
    cases o with
    | none => exact .pure ⟨hm, asked, h1' _ (fun _ => rfl), by simpa using h2⟩
    | some rs =>
      exact .ite (fun _ => .pure ⟨UMap.OfKind.writes _ hm, asked, h1' _ (fun h => by cases h),
        by simpa using h2⟩) (fun _ => .lift (fun _ h => by cases h))

theorem UMap.run_hashes {oc : Bool} {h : HasherCode σ} {rep : StringRep}
    (ops : List (MapOp V Bytes)) : ∀ {m : UMap Bytes V}, m.OfKind rep →
    Logs (m.run (rep.code oc h.logged) ops) (fun r ev => HashesAll rep ops r.1 ev) := by
  induction ops with
  | nil => exact fun _ => .pure .nil
  | cons op ops ih =>
    intro m hm
    unfold UMap.run
    refine (UMap.step_hashes hm op).bind (fun r ev hr => (ih hr.1).bind (fun rs ev' hrs => .pure ?_))
    obtain ⟨_, qs, h1, h2⟩ := hr
    simpa using .cons op ops _ _ qs ev ev' h1 h2 hrs

/-! ### The log changes nothing -/

omit [Target] in
theorem HasherCode.sliceHash_forgets (h : HasherCode σ) (s : Bytes) (a b : Nat) :
    Forgets (h.logged.sliceHash s a b) (h.sliceHash s a b) :=
  Forgets.lift.bind (fun _ => Forgets.noted _ _)

theorem StringRep.code_forgets (oc : Bool) (h : HasherCode σ) (rep : StringRep) :
    (rep.code oc h.logged).Forgets (rep.code oc h) := by
  have hs := h.sliceHash_forgets
  cases rep with
  | scanning => exact ⟨fun _ => .noted _ _, fun _ => .noted _ _, fun _ => .noted _ _,
      fun _ _ => .pure, fun _ _ => .pure⟩
  | common => exact ⟨fun _ => .noted _ _, fun _ => .noted _ _, fun _ => .noted _ _,
      fun _ _ => .pure, fun _ _ => .pure⟩
  | length => exact ⟨fun _ => .pure, fun _ => .pure, fun _ => .pure, fun _ _ => .pure,
      fun _ _ => .pure⟩
  | left a b =>
    exact ⟨fun s => .bind .pure (fun _ => .ite (hs s a b) .pure), fun s => hs s a b,
      fun s => .bind .pure (fun _ => .ite (hs s a b) .pure), fun _ _ => .pure, fun _ _ => .pure⟩
  | right a b =>
    have hc : ∀ s : Bytes, FC.Forgets (rightCall oc a b (fun k => pure k.length) h.logged.sliceHash s)
        (rightCall oc a b (fun k => pure k.length) h.sliceHash s) := fun s =>
      .bind .pure (fun _ => .bind .lift (fun _ => .bind .pure (fun _ => .bind .lift (fun _ =>
        hs s _ _))))
    exact ⟨fun s => .bind .pure (fun _ => .ite (hc s) .pure), hc,
      fun s => .bind .pure (fun _ => .ite (hc s) .pure), fun _ _ => .pure, fun _ _ => .pure⟩

theorem uniqueLoopU_forgets (oc : Bool) (h : HasherCode σ) (idx len : Nat) (left : Bool)
    (keys : List Bytes) : ∀ (set : List Nat) (tol : Nat),
    FC.Forgets (uniqueLoopU oc h.logged idx len left keys set tol)
      (uniqueLoopU oc h idx len left keys set tol) := by
  induction keys with
  | nil => exact fun _ _ => .pure
  | cons k keys ih =>
    exact fun set tol => Forgets.lift.bind (fun sub => (Forgets.noted _ (h.hashSub sub)).bind
      (fun c => .ite (.ite .pure (ih _ _)) (ih _ _)))

omit [Target] in
theorem findIndexU_forgets {f' : Nat → Call (σ × List E) Bool} {f : Nat → Call σ Bool}
    (hf : ∀ i, FC.Forgets (f' i) (f i)) : ∀ (count idx : Nat),
    FC.Forgets (findIndexU f' idx count) (findIndexU f idx count) := by
  intro count
  induction count with
  | zero => exact fun _ => .pure
  | succ count ih => exact fun idx => (hf idx).bind (fun b => .ite .pure (ih (idx + 1)))

theorem subsliceLoopU_forgets (oc : Bool) (h : HasherCode σ) (keys : List Bytes) (lo hi tol : Nat) :
    ∀ (count len : Nat), FC.Forgets (subsliceLoopU oc h.logged keys lo hi tol len count)
      (subsliceLoopU oc h keys lo hi tol len count) := by
  intro count
  induction count with
  | zero => exact fun _ => .pure
  | succ count ih =>
    intro len
    refine (findIndexU_forgets (fun i => uniqueLoopU_forgets oc h i len true keys [] tol) _ _).bind
      (fun o => ?_)
    cases o with
    | some i => exact .ite .pure .pure
    | none =>
      refine .ite ((findIndexU_forgets (fun i =>
        uniqueLoopU_forgets oc h i len false keys [] tol) _ _).bind (fun o => ?_)) (ih _)
      cases o with
      | some i => exact .pure
      | none => exact ih _

theorem UMap.stringFacade_forgets (env : Env) (h : HasherCode σ) (payload : List (Bytes × V)) :
    FC.Forgets (UMap.stringFacade env h.logged payload) (UMap.stringFacade env h payload) := by
  refine .ite .pure (.bind (.ite (subsliceLoopU_forgets _ _ _ _ _ _ _ _) .pure) (fun v => .ite ?_ ?_))
  · exact (UMap.fromVec_forgets env _ (StringRep.code_forgets env.oc h _) payload).bind
      (fun _ => .pure)
  · exact (UMap.fromVec_forgets env _ (StringRep.code_forgets env.oc h _) payload).bind
      (fun _ => .pure)

/-! ### How much is hashed -/

omit [Target] in
theorem trials_length (p : Place) (keys : List Bytes) (codes : List Nat) :
    (trials p keys codes).length ≤ keys.length := by
  simp [trials]

omit [Target] in
theorem Tries.bound {tol : Nat} {keys : List Bytes} {p : Place} {b : Bool} {ev : List HashCall}
    (h : Tries tol keys p b ev) : ev.length ≤ keys.length ∧
      ∀ e ∈ ev, e.use = .trial ∧ ∃ k ∈ keys, e.bytes = p.of k := by
  have key : ∀ codes, ∀ e ∈ trials p keys codes, e.use = .trial ∧ ∃ k ∈ keys, e.bytes = p.of k := by
    intro codes e he
    obtain ⟨j, hj⟩ := List.mem_iff_getElem?.1 he
    unfold trials at hj
    rw [List.getElem?_zipWith] at hj
    split at hj
    · rename_i k c hk _
      cases hj
      exact ⟨rfl, k, List.mem_of_getElem? hk, rfl⟩
    · cases hj
  cases h with
  | accept codes _ _ => exact ⟨trials_length _ _ _, key _⟩
  | reject codes c _ _ _ => exact ⟨trials_length _ _ _, key _⟩

omit [Target] in
theorem Searches.bound {tol : Nat} {keys : List Bytes} {ps : List Place} {o : Option Place}
    {ev : List HashCall} (h : Searches tol keys ps o ev) : ev.length ≤ ps.length * keys.length ∧
      ∀ e ∈ ev, e.use = .trial ∧ ∃ p ∈ ps, ∃ k ∈ keys, e.bytes = p.of k := by
  induction h with
  | nothing => simp
  | found p ps ev h =>
    have := h.bound
    refine ⟨?_, fun e he => ⟨(this.2 e he).1, p, by simp, (this.2 e he).2⟩⟩
    rw [List.length_cons, Nat.succ_mul]
    exact le_trans this.1 (Nat.le_add_left _ _)
  | next p ps o ev ev' h _ ih =>
    have := h.bound
    refine ⟨?_, fun e he => ?_⟩
    · rw [List.length_cons, Nat.succ_mul, List.length_append]
      omega
    · rcases List.mem_append.1 he with he | he
      · exact ⟨(this.2 e he).1, p, by simp, (this.2 e he).2⟩
      · obtain ⟨h1, q, hq, h2⟩ := ih.2 e he
        exact ⟨h1, q, by simp [hq], h2⟩

omit [Target] in
theorem Place.of_length {lo hi : Nat} {p : Place} (h : p ∈ searchOrder lo hi) (k : Bytes) :
    (p.of k).length ≤ 16 := by
  have := (mem_searchOrder h).2.1
  unfold Place.of
  split <;> simp only [List.length_take] <;> omega

omit [Target] in
theorem searchOrder_length (lo hi : Nat) : (searchOrder lo hi).length ≤ 32 * lo := by
  unfold searchOrder
  rw [List.length_flatMap]
  have : ∀ len ∈ List.range' 1 (min lo 16), (placesOf lo len false ++
      if lo = hi then [] else placesOf lo len true).length ≤ 2 * lo := by
    intro len hl
    rw [List.mem_range'_1] at hl
    rw [List.length_append]
    unfold placesOf
    split <;> simp <;> omega
  refine le_trans (List.sum_le_card_nsmul _ (2 * lo) ?_) ?_
  · intro x hx
    obtain ⟨len, hl, rfl⟩ := List.mem_map.1 hx
    exact this len hl
  · simp only [List.length_map, List.length_range', nsmul_eq_mul, Nat.cast_id]
    have : min lo 16 ≤ 16 := Nat.min_le_right _ _
    calc min lo 16 * (2 * lo) ≤ 16 * (2 * lo) := Nat.mul_le_mul_right _ this
      _ = 32 * lo := by omega

omit [Target] in
theorem StringRep.callsFor_length {rep : StringRep} {ss : List Bytes} {ev : List HashCall}
    (h : rep.callsFor ss ev) : ev.length ≤ ss.length ∧
      ∀ e ∈ ev, ∃ s ∈ ss, ∃ c, e ∈ rep.calls s c := by
  obtain ⟨codes, h1, rfl⟩ := h
  induction ss generalizing codes with
  | nil => simp
  | cons s ss ih =>
    cases codes with
    | nil => simp at h1
    | cons c cs =>
      have hc : (rep.calls s c).length ≤ 1 := by
        unfold StringRep.calls
        split
        · simp
        · split <;> simp
        · simp
      obtain ⟨h2, h3⟩ := ih cs (by simpa using h1)
      simp only [List.zipWith_cons_cons, List.flatten_cons, List.length_append, List.length_cons]
      refine ⟨by omega, fun e he => ?_⟩
      rcases List.mem_append.1 he with he | he
      · exact ⟨s, by simp, c, he⟩
      · obtain ⟨s', hs, h⟩ := h3 e he
        exact ⟨s', by simp [hs], h⟩

end FC
