import Verif.Spec.MacroTokens
import Verif.Lemmas.UserCode

set_option autoImplicit false

namespace FC
variable [Target]
variable {Tok Ty Ex K V : Type}

omit [Target] in
theorem eatToken_cons {is : Tok → Bool} {t : Tok} (h : is t = true) (ts : List Tok) :
    eatToken is (t :: ts) = some ts := by simp [eatToken, h]

omit [Target] in
theorem eatToken_eq_some {is : Tok → Bool} {ts r : List Tok} (h : eatToken is ts = some r) :
    ∃ t, is t = true ∧ ts = t :: r := by
  cases ts with
  | nil => simp [eatToken] at h
  | cons t ts =>
    simp only [eatToken] at h
    split at h
    · rename_i ht
      cases h
      exact ⟨t, ht, rfl⟩
    · cases h

omit [Target] in
theorem Syn.parseEntries_written {S : Syn Tok Ty Ex} (hS : S.Lawful) {comma colon : Tok}
    (hcomma : S.isComma comma = true) (hcolon : S.isColon colon = true) (trailing : Bool)
    (es : List (WrittenEntry Tok Ex))
    (hes : ∀ e ∈ es, S.WritesExpr e.keyToks e.key ∧ S.WritesExpr e.valueToks e.value) :
    ∀ n, (writtenEntries comma colon trailing es).length ≤ n →
      S.parseEntries n (writtenEntries comma colon trailing es)
        = some (es.map WrittenEntry.exprs) := by
  have key : ∀ (e : WrittenEntry Tok Ex) (tail after : List Tok) (out : List (Ex × Ex)),
      S.WritesExpr e.keyToks e.key → S.WritesExpr e.valueToks e.value →
      S.Ends tail → (eatToken S.isComma tail).getD tail = after →
      after.length ≤ tail.length →
      (∀ n, after.length ≤ n → S.parseEntries n after = some out) →
      ∀ n, (e.tokens colon ++ tail).length ≤ n →
        S.parseEntries n (e.tokens colon ++ tail) = some (e.exprs :: out) := by
    intro e tail after out hk hv htail hafter hle hrec n hn
    have h1 := hk (colon :: (e.valueToks ++ tail)) (Or.inr ⟨colon, _, rfl, Or.inr hcolon⟩)
    have h2 := hv tail htail
    have hts : e.tokens colon ++ tail = e.keyToks ++ colon :: (e.valueToks ++ tail) := by
      simp [WrittenEntry.tokens]
    rw [hts] at hn ⊢
    obtain ⟨used, hne, hused⟩ := hS.expr _ _ _ h1
    have hpos : e.keyToks = used := List.append_cancel_right hused
    cases hkt : e.keyToks with
    | nil => exact absurd (hpos.symm.trans hkt) hne
    | cons t kt =>
      rw [hkt] at h1 hn
      simp only [List.cons_append, List.length_cons, List.length_append] at h1 hn ⊢
      cases n with
      | zero => omega
      | succ n =>
        simp only [parseEntries, h1, Option.bind_eq_bind, Option.bind_some,
          eatToken_cons hcolon, h2, hafter, hrec n (by omega)]
        rfl
  induction es with
  | nil => intro n _; cases n <;> rfl
  | cons e es ih =>
    have hb : S.WritesExpr e.keyToks e.key ∧ S.WritesExpr e.valueToks e.value :=
      hes e List.mem_cons_self
    have ih := ih (fun e' he' => hes e' (List.mem_cons_of_mem _ he'))
    cases es with
    | nil =>
      refine key e _ [] [] hb.1 hb.2 ?_ ?_ (by simp) (fun n _ => by cases n <;> rfl)
      · cases trailing
        · exact Or.inl rfl
        · exact Or.inr ⟨comma, [], rfl, Or.inl hcomma⟩
      · cases trailing
        · rfl
        · simp [eatToken, hcomma]
    | cons e' es =>
      refine key e _ _ _ hb.1 hb.2 (Or.inr ⟨comma, _, rfl, Or.inl hcomma⟩) ?_ (by simp) ih
      simp [eatToken, hcomma]

omit [Target] in
theorem Syn.parseEntries_accounts {S : Syn Tok Ty Ex} (hS : S.Lawful) (n : Nat) :
    ∀ (ts : List Tok) (out : List (Ex × Ex)), S.parseEntries n ts = some out →
    ∃ ws : List (WrittenEntry Tok Ex × Tok × Option Tok),
      ts = (ws.map (fun w => w.1.tokens w.2.1 ++ w.2.2.toList)).flatten ∧
      out = ws.map (fun w => w.1.exprs) ∧
      ∀ w ∈ ws, S.isColon w.2.1 = true ∧ (∀ c ∈ w.2.2, S.isComma c = true) ∧
        (∃ rest, S.expr (w.1.keyToks ++ rest) = some (w.1.key, rest)) ∧
        (∃ rest, S.expr (w.1.valueToks ++ rest) = some (w.1.value, rest)) := by
  induction n with
  | zero =>
    intro ts out h
    cases ts with
    | nil => cases h; exact ⟨[], rfl, rfl, by simp⟩
    | cons t ts => simp [parseEntries] at h
  | succ n ih =>
    intro ts out h
    cases ts with
    | nil => cases h; exact ⟨[], rfl, rfl, by simp⟩
    | cons t ts =>
      simp only [parseEntries, Option.bind_eq_bind, Option.bind_eq_some_iff, Option.pure_def,
        Option.some.injEq, Prod.exists] at h
      obtain ⟨k, r1, h1, r2, h2, v, r3, h3, es, h4, rfl⟩ := h
      obtain ⟨kt, _, hkt⟩ := hS.expr _ _ _ h1
      obtain ⟨c, hc, rfl⟩ := eatToken_eq_some h2
      obtain ⟨vt, _, rfl⟩ := hS.expr _ _ _ h3
      obtain ⟨ws, hw1, hw2, hw3⟩ := ih _ _ h4
      have hsep : ∃ o : Option Tok, (∀ c ∈ o, S.isComma c = true) ∧
          r3 = o.toList ++ (eatToken S.isComma r3).getD r3 := by
        cases h5 : eatToken S.isComma r3 with
        | none => exact ⟨none, by simp, rfl⟩
        | some r4 =>
          obtain ⟨d, hd, rfl⟩ := eatToken_eq_some h5
          exact ⟨some d, by simpa using hd, rfl⟩
      obtain ⟨o, ho, hr3⟩ := hsep
      refine ⟨(⟨kt, k, vt, v⟩, c, o) :: ws, ?_, ?_, ?_⟩
      · rw [hkt]
        simp only [List.map_cons, List.flatten_cons]
        rw [← hw1]
        simp only [WrittenEntry.tokens, List.append_assoc, List.cons_append]
        rw [← hr3]
      · simp [hw2, WrittenEntry.exprs]
      · intro w hw
        rcases List.mem_cons.1 hw with rfl | hw
        · exact ⟨hc, ho, ⟨_, hkt ▸ h1⟩, ⟨_, h3⟩⟩
        · exact hw3 w hw

theorem macroExpand_congr {K K' : Type} {oc : Bool} {bhx : Hasher} {ty : MacroTy K}
    {ty' : MacroTy K'} {keys : List K} {keys' : List K'} (hlen : keys.length = keys'.length)
    (h : match ty.kind, ty'.kind with
      | .int t f, .int t' f' => t = t' ∧ keys.map f = keys'.map f'
      | .str f, .str f' => keys.map f = keys'.map f'
      | .other, .other => True
      | _, _ => False) :
    macroExpand oc bhx ty keys = macroExpand oc bhx ty' keys' := by
  unfold macroExpand
  rw [hlen]
  split
  · rfl
  · cases hk : ty.kind <;> cases hk' : ty'.kind <;> simp only [hk, hk'] at h ⊢
    · obtain ⟨rfl, h⟩ := h
      rw [h]
    · rw [h]

omit [Target] in
theorem mapM_option_eq {α β : Type} {f : α → Option β} :
    ∀ {l : List α} {r : List β}, l.mapM f = some r → l.map f = r.map some
  | [], r, h => by simp at h; subst h; rfl
  | a :: l, r, h => by
    simp only [List.mapM_cons, Option.bind_eq_bind, Option.bind_eq_some_iff, Option.pure_def,
      Option.some.injEq] at h
    obtain ⟨b, hb, bs, hbs, rfl⟩ := h
    simp [hb, mapM_option_eq hbs]

omit [Target] in
theorem mapM_option_some {α β : Type} {f : α → Option β} :
    ∀ {l : List α}, (∀ a ∈ l, (f a).isSome) → ∃ r, l.mapM f = some r
  | [], _ => ⟨[], by simp⟩
  | a :: l, h => by
    obtain ⟨b, hb⟩ := Option.isSome_iff_exists.1 (h a List.mem_cons_self)
    obtain ⟨r, hr⟩ := mapM_option_some (fun x hx => h x (List.mem_cons_of_mem _ hx))
    exact ⟨b :: r, by simp [hb, hr]⟩

omit [Target] in
theorem mapM_option_none {α β : Type} {f : α → Option β} {l : List α} {a : α} (ha : a ∈ l)
    (h : f a = none) : l.mapM f = none := by
  cases hr : l.mapM f with
  | none => rfl
  | some r =>
    have := mapM_option_eq hr
    have h2 : none ∈ l.map f := List.mem_map.2 ⟨a, ha, h⟩
    rw [this] at h2
    simp at h2

omit [Target] in
theorem mapList_logged (fk : Ex → K) (fv : Ex → V) :
    ∀ (es : List (Ex × Ex)) (log : List Ex),
    Call.mapList (fun e : Ex × Ex => (do
        let k ← logged fk e.1
        let v ← logged fv e.2
        return (k, v) : Call (List Ex) (K × V))) es log
      = .ok (es.map (fun e => (fk e.1, fv e.2)), log ++ es.flatMap (fun e => [e.1, e.2]))
  | [], log => by simp [Call.mapList, Call.pure_apply]
  | e :: es, log => by
    have h : (do
        let k ← logged fk e.1
        let v ← logged fv e.2
        return (k, v) : Call (List Ex) (K × V)) log = .ok ((fk e.1, fv e.2), log ++ [e.1] ++ [e.2]) :=
      rfl
    simp only [Call.mapList]
    rw [Call.bind_apply, h]
    simp only [Res.ok_bind]
    rw [Call.bind_apply, mapList_logged fk fv es]
    simp [Call.pure_apply]

end FC
