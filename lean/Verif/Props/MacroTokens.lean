import Verif.Lemmas.MacroTokens
import Verif.Props.Macro

/-
C60: `frozen_map!` from its tokens to the map.
-/

set_option autoImplicit false

namespace FC
variable {Tok Ty Ex K V : Type}

/-! ### C60 -/

/-- Every call written `type, key: value, ..., key: value`, with or without a comma at the end, is
read as exactly the type and the entries written, in order. -/
theorem C60_reads_what_is_written (S : Syn Tok Ty Ex) (hS : S.Lawful) (comma colon : Tok)
    (hcomma : S.isComma comma = true) (hcolon : S.isColon colon = true) (trailing : Bool)
    (tyToks : List Tok) (ty : Ty) (hty : S.WritesType tyToks ty) (es : List (WrittenEntry Tok Ex))
    (hes : ∀ e ∈ es, S.WritesExpr e.keyToks e.key ∧ S.WritesExpr e.valueToks e.value) :
    S.parseMap (writtenCall comma colon trailing tyToks es)
      = some (ty, es.map (fun e => (e.key, e.value))) := by
  simp only [Syn.parseMap, writtenCall, hty comma _ hcomma, Option.bind_eq_bind, Option.bind_some,
    eatToken_cons hcomma,
    Syn.parseEntries_written hS hcomma hcolon trailing es hes _ (Nat.le_refl _)]
  rfl

/-- Nothing is skipped, invented or reordered: the tokens of an accepted call are those of the type,
a comma, and one after another those of key, colon and value of each entry, with at most a comma
after each. -/
theorem C60_accounts_for_every_token (S : Syn Tok Ty Ex) (hS : S.Lawful) (ts : List Tok) (ty : Ty)
    (entries : List (Ex × Ex)) (h : S.parseMap ts = some (ty, entries)) :
    ∃ (tyToks : List Tok) (comma : Tok) (ws : List (WrittenEntry Tok Ex × Tok × Option Tok)),
      ts = tyToks ++ comma :: (ws.map (fun w => w.1.tokens w.2.1 ++ w.2.2.toList)).flatten ∧
      S.isComma comma = true ∧ (∃ rest, S.ty (tyToks ++ rest) = some (ty, rest)) ∧
      entries = ws.map (fun w => (w.1.key, w.1.value)) ∧
      ∀ w ∈ ws, S.isColon w.2.1 = true ∧ (∀ c ∈ w.2.2, S.isComma c = true) ∧
        (∃ rest, S.expr (w.1.keyToks ++ rest) = some (w.1.key, rest)) ∧
        (∃ rest, S.expr (w.1.valueToks ++ rest) = some (w.1.value, rest)) := by
  simp only [Syn.parseMap, Option.bind_eq_bind, Option.bind_eq_some_iff, Option.pure_def,
    Option.some.injEq, Prod.exists, Prod.mk.injEq] at h
  obtain ⟨ty', r1, h1, r2, h2, es, h3, rfl, rfl⟩ := h
  obtain ⟨tt, rfl⟩ := hS.ty _ _ _ h1
  obtain ⟨c, hc, rfl⟩ := eatToken_eq_some h2
  obtain ⟨ws, hw1, hw2, hw3⟩ := Syn.parseEntries_accounts hS _ _ _ h3
  exact ⟨tt, c, ws, by rw [← hw1], hc, ⟨_, h1⟩, hw2, hw3⟩

/-- The key types treated as integers and as strings, by their names. -/
theorem C60_key_classes (name : String) :
    (∀ t, classify name = .int t ↔
      (name, t) ∈ [("u8", (⟨8, false⟩ : IntTy)), ("i8", ⟨8, true⟩), ("u16", ⟨16, false⟩),
        ("i16", ⟨16, true⟩), ("u32", ⟨32, false⟩), ("i32", ⟨32, true⟩), ("u64", ⟨64, false⟩),
        ("i64", ⟨64, true⟩), ("u128", ⟨128, false⟩), ("i128", ⟨128, true⟩)]) ∧
    (classify name = .str ↔ name = "& str") := by
  have hu : name = "u8" ∨ name = "i8" ∨ name = "u16" ∨ name = "i16" ∨ name = "u32" ∨ name = "i32" ∨
      name = "u64" ∨ name = "i64" ∨ name = "u128" ∨ name = "i128" ∨ name = "& str" ∨
      (name ∉ ["u8", "i8", "u16", "i16", "u32", "i32", "u64", "i64", "u128", "i128", "& str"]) := by
    simp only [List.mem_cons, List.not_mem_nil, or_false]
    tauto
  rcases hu with rfl | rfl | rfl | rfl | rfl | rfl | rfl | rfl | rfl | rfl | rfl | hu
  case inr.inr.inr.inr.inr.inr.inr.inr.inr.inr.inr =>
    simp only [List.mem_cons, List.not_mem_nil, or_false, not_or] at hu
    simp [classify, hu]
  all_goals
    refine ⟨fun t => ?_, by simp [classify]⟩
    simp [classify]
    try exact eq_comm

/-- With three or more entries of an integer type, expansion panics as soon as one key is not an
integer literal of that type; otherwise what it does depends on the values only. -/
theorem C60_integer_keys [Target] (S : Syn Tok Ty Ex) (oc : Bool) (bhx : Hasher) (ts : List Tok) (ty : Ty)
    (entries : List (Ex × Ex)) (h : S.parseMap ts = some (ty, entries)) (h3 : 3 ≤ entries.length)
    (t : IntTy) (ht : classify (S.tyName ty) = .int t) :
    ((∃ e ∈ entries, ∀ n, S.litInt e.1 = some n → ¬ t.InRange n) →
      expandTokens S oc bhx ts = .panic) ∧
    (∀ f : Ex → Int, (∀ e ∈ entries, S.litInt e.1 = some (f e.1) ∧ t.InRange (f e.1)) →
      expandTokens S oc bhx ts =
        (analyzeIntKeys t oc (entries.map (fun e => f e.1))).map (fun v => some
          ⟨⟨if v = .range then .integerRange else .integer, payloadSize entries.length, some 3, none⟩,
            false, entries⟩)) := by
  have hlen : ¬ entries.length < 3 := by omega
  unfold expandTokens
  simp only [h, if_neg hlen, ht]
  constructor
  · rintro ⟨e, he, hbad⟩
    cases hl : S.litInt e.1 with
    | none => rw [mapM_option_none he hl]; rfl
    | some n =>
      cases hm : entries.mapM (fun e => S.litInt e.1) with
      | none => rfl
      | some keys =>
        have hk := mapM_option_eq hm
        have hn : n ∈ keys := by
          have : some n ∈ entries.map (fun e => S.litInt e.1) := List.mem_map.2 ⟨e, he, hl⟩
          rw [hk] at this
          simpa using this
        have hlk : keys.length = entries.length := by
          have := congrArg List.length hk
          simpa using this.symm
        have hall : (keys.map id).all (fun k => decide (t.InRange k)) = false := by
          rw [List.all_eq_false]
          exact ⟨n, by simpa using hn, by simpa using hbad n hl⟩
        simp only [Res.unwrap, Res.ok_bind, macroExpand, hlk, if_neg hlen, intLits, processIntKeys,
          hall]
        rfl
  · intro f hf
    have hm : entries.mapM (fun e => S.litInt e.1) = some (entries.map (fun e => f e.1)) := by
      obtain ⟨r, hr⟩ := mapM_option_some (f := fun e : Ex × Ex => S.litInt e.1) (l := entries)
        (fun e he => by rw [(hf e he).1]; rfl)
      rw [hr]
      have h1 := mapM_option_eq hr
      have h2 : entries.map (fun e => S.litInt e.1) = (entries.map (fun e => f e.1)).map some := by
        rw [List.map_map]
        exact List.map_congr_left (fun e he => (hf e he).1)
      rw [h2] at h1
      rw [List.map_injective_iff.2 (Option.some_injective _) h1]
    have hall : ((entries.map (fun e => f e.1)).map id).all (fun k => decide (t.InRange k)) = true := by
      simp only [List.map_id, List.all_map, List.all_eq_true]
      intro e he
      simpa using (hf e he).2
    rw [hm]
    simp only [Res.unwrap, Res.ok_bind, macroExpand, List.length_map, if_neg hlen, intLits,
      processIntKeys, hall, if_true]
    rw [List.map_id]
    cases analyzeIntKeys t oc (entries.map (fun e => f e.1)) with
    | ok v => cases v <;> rfl
    | panic => rfl
    | ub => rfl

/-- With three or more entries of type `&str`, expansion panics as soon as one key is not a string
literal. -/
theorem C60_string_keys [Target] (S : Syn Tok Ty Ex) (oc : Bool) (bhx : Hasher) (ts : List Tok) (ty : Ty)
    (entries : List (Ex × Ex)) (h : S.parseMap ts = some (ty, entries)) (h3 : 3 ≤ entries.length)
    (ht : classify (S.tyName ty) = .str) (e : Ex × Ex) (he : e ∈ entries)
    (hbad : S.litStr e.1 = none) : expandTokens S oc bhx ts = .panic := by
  have hlen : ¬ entries.length < 3 := by omega
  unfold expandTokens
  simp only [h, if_neg hlen, ht]
  rw [mapM_option_none he hbad]
  rfl

/-- Up to two entries, and any number of entries of another type, are expanded whatever the keys;
a call that does not parse becomes a compile error; and the emitted expressions are those written,
wrapped in `String::from` exactly for three or more `&str` keys. -/
theorem C60_expansion [Target] (S : Syn Tok Ty Ex) (oc : Bool) (bhx : Hasher) (ts : List Tok) :
    (S.parseMap ts = none ↔ expandTokens S oc bhx ts = .ok none) ∧
    ∀ ty entries, S.parseMap ts = some (ty, entries) →
      ((entries.length < 3 ∨ classify (S.tyName ty) = .common) →
        ∃ c, expandTokens S oc bhx ts = .ok (some c)) ∧
      ∀ c, expandTokens S oc bhx ts = .ok (some c) → c.entries = entries ∧
        (c.wrapped = true ↔ 3 ≤ entries.length ∧ classify (S.tyName ty) = .str) := by
  unfold expandTokens
  constructor
  · cases hp : S.parseMap ts with
    | none => simp
    | some x =>
      obtain ⟨ty, es⟩ := x
      simp only [reduceCtorEq, false_iff]
      split
      · simp
      · split <;> simp only [Res.bind_eq_ok, Res.pure_eq, Res.ok.injEq, reduceCtorEq, and_false,
          exists_const, exists_false, not_false_eq_true]
  · intro ty es hp
    simp only [hp]
    constructor
    · rintro (h | h)
      · rw [if_pos h]; exact ⟨_, rfl⟩
      · split
        · exact ⟨_, rfl⟩
        · rename_i hlen
          rw [h]
          simp only [macroExpand, List.length_map, if_neg hlen, anyKeys]
          exact ⟨_, rfl⟩
    · intro c hc
      split at hc
      · rename_i hlen
        cases hc
        simp
        omega
      · rename_i hlen
        have h3 : 3 ≤ es.length := by omega
        split at hc <;> rename_i hk <;>
          simp only [Res.bind_eq_ok, Res.pure_eq, Res.ok.injEq, Option.some.injEq] at hc
        · obtain ⟨_, _, _, _, rfl⟩ := hc
          simp [hk]
        · obtain ⟨_, _, _, _, rfl⟩ := hc
          simp [hk, h3]
        · obtain ⟨_, _, rfl⟩ := hc
          simp [hk]

/-- The emission is what `macroExpand` gives on the values of the keys. -/
theorem expandTokens_emission [Target] (S : Syn Tok Ty Ex) (hS : S.Lawful) (comma colon : Tok)
    (hcomma : S.isComma comma = true) (hcolon : S.isColon colon = true) (trailing : Bool)
    (tyToks : List Tok) (ty : Ty) (hty : S.WritesType tyToks ty) (es : List (WrittenEntry Tok Ex))
    (hes : ∀ e ∈ es, S.WritesExpr e.keyToks e.key ∧ S.WritesExpr e.valueToks e.value)
    (mty : MacroTy K) (fk : Ex → K) (fv : Ex → V)
    (hkind : es.length < 3 ∨ match classify (S.tyName ty), mty.kind with
      | .int t, .int t' f => t = t' ∧ ∀ e ∈ es, S.litInt e.key = some (f (fk e.key))
      | .str, .str f => ∀ e ∈ es, S.litStr e.key = some (f (fk e.key))
      | .common, .other => True
      | _, _ => False)
    (oc : Bool) (bhx : Hasher) (c : MacroCode Ex)
    (hc : expandTokens S oc bhx (writtenCall comma colon trailing tyToks es) = .ok (some c)) :
    c.entries = es.map (fun e => (e.key, e.value)) ∧
    macroExpand oc bhx mty ((es.map (fun e => (fk e.key, fv e.value))).map (·.1)) = .ok c.emission := by
  have hp := C60_reads_what_is_written S hS comma colon hcomma hcolon trailing tyToks ty hty es hes
  have hent := (((C60_expansion S oc bhx _).2 _ _ hp).2 c hc).1
  refine ⟨hent, ?_⟩
  unfold expandTokens at hc
  simp only [hp, List.length_map] at hc
  split at hc
  · rename_i hlen
    cases hc
    unfold macroExpand
    simp [hlen]
  · rename_i hlen
    have hkind := hkind.resolve_left hlen
    have lits : ∀ {β : Type} (lit : Ex → Option β) (f : K → β),
        (∀ e ∈ es, lit e.key = some (f (fk e.key))) → ∀ keys,
        (es.map (fun e => (e.key, e.value))).mapM (fun e => lit e.1) = some keys →
        keys = es.map (fun e => f (fk e.key)) := by
      intro β lit f hf keys hk
      have h1 := mapM_option_eq hk
      have h2 : (es.map (fun e => (e.key, e.value))).map (fun e => lit e.1)
          = (es.map (fun e => f (fk e.key))).map some := by
        rw [List.map_map, List.map_map]
        exact List.map_congr_left (fun e he => hf e he)
      rw [h2] at h1
      exact (List.map_injective_iff.2 (Option.some_injective _) h1).symm
    split at hc <;> rename_i hcl <;> rw [hcl] at hkind <;>
      simp only [Res.bind_eq_ok, Res.pure_eq, Res.ok.injEq, Option.some.injEq] at hc
    · obtain ⟨keys, hkeys, e, he, rfl⟩ := hc
      cases hmk : mty.kind with
      | int t' f =>
        rw [hmk] at hkind
        obtain ⟨rfl, hlit⟩ := hkind
        have hk := lits S.litInt f hlit keys (by
          cases hm : (es.map (fun e => (e.key, e.value))).mapM (fun e => S.litInt e.1) with
          | none => rw [hm] at hkeys; cases hkeys
          | some x => rw [hm] at hkeys; cases hkeys; rfl)
        rw [← he]
        refine macroExpand_congr (by simp [hk]) ?_
        simp only [hmk, intLits]
        simp [hk, Function.comp_def]
      | str f => rw [hmk] at hkind; exact hkind.elim
      | other => rw [hmk] at hkind; exact hkind.elim
    · obtain ⟨keys, hkeys, e, he, rfl⟩ := hc
      cases hmk : mty.kind with
      | str f =>
        rw [hmk] at hkind
        have hk := lits S.litStr f hkind keys (by
          cases hm : (es.map (fun e => (e.key, e.value))).mapM (fun e => S.litStr e.1) with
          | none => rw [hm] at hkeys; cases hkeys
          | some x => rw [hm] at hkeys; cases hkeys; rfl)
        rw [← he]
        refine macroExpand_congr (by simp [hk]) ?_
        simp only [hmk, strLits]
        simp [hk, Function.comp_def]
      | int t' f => rw [hmk] at hkind; exact hkind.elim
      | other => rw [hmk] at hkind; exact hkind.elim
    · obtain ⟨e, he, rfl⟩ := hc
      cases hmk : mty.kind with
      | other =>
        rw [← he]
        refine macroExpand_congr (by simp) ?_
        simp only [hmk, anyKeys]
      | int t' f => rw [hmk] at hkind; exact hkind.elim
      | str f => rw [hmk] at hkind; exact hkind.elim

/-- From tokens to lookups. Take any call as written, key expressions that evaluate to their literal
values (where the macro looks at them), and suppose the macro expands it to code that compiles, other
than a right-slice map (C42). Running the code evaluates every key and every value expression exactly
once, in the order written, and builds a map that finds exactly the listed keys. -/
theorem C60_from_tokens_to_lookups [Target] (S : Syn Tok Ty Ex) (hS : S.Lawful) (comma colon : Tok)
    (hcomma : S.isComma comma = true) (hcolon : S.isColon colon = true) (trailing : Bool)
    (tyToks : List Tok) (ty : Ty) (hty : S.WritesType tyToks ty) (es : List (WrittenEntry Tok Ex))
    (hes : ∀ e ∈ es, S.WritesExpr e.keyToks e.key ∧ S.WritesExpr e.valueToks e.value)
    (hcap : es.length < 2 ^ 31)
    (mty : MacroTy K) (hlaw : LawfulMacroTy mty) (fk : Ex → K) (fv : Ex → V)
    (hkind : es.length < 3 ∨ match classify (S.tyName ty), mty.kind with
      | .int t, .int t' f => t = t' ∧ ∀ e ∈ es, S.litInt e.key = some (f (fk e.key))
      | .str, .str f => ∀ e ∈ es, S.litStr e.key = some (f (fk e.key))
      | .common, .other => True
      | _, _ => False)
    (oc : Bool) (bhx : Hasher) (c : MacroCode Ex)
    (hc : expandTokens S oc bhx (writtenCall comma colon trailing tyToks es) = .ok (some c))
    (hcompiles : TypeChecks c.emission) (hright : c.emission.name ≠ .right)
    (env : Env) (bh : Hasher) :
    ∃ m, c.run env mty (logged fk) (logged fv) bh []
        = .ok (m, es.flatMap (fun e => [e.key, e.value])) ∧
      ∀ k, AnswersGet mty.eq (es.map (fun e => (fk e.key, fv e.value))) k (m.get env mty k) := by
  obtain ⟨hent, hexp⟩ := expandTokens_emission S hS comma colon hcomma hcolon trailing tyToks ty hty es
    hes mty fk fv hkind oc bhx c hc
  have hnr := (C43_arity_partial oc bhx mty _ _ hexp).1 hcompiles
  obtain ⟨_, _, m, hm, hans⟩ := C42_finds_listed_keys_partial mty hlaw oc bhx
    (es.map (fun e => (fk e.key, fv e.value))) (by simpa using hcap) c.emission hexp hright
    (fun h => absurd h hnr) env bh
  refine ⟨m, ?_, hans⟩
  unfold MacroCode.run
  rw [Call.bind_apply, hent, mapList_logged]
  simp only [Res.ok_bind, List.map_map, Function.comp_def, Call.lift, hm, Res.map_ok,
    List.nil_append]
  simp [List.flatMap_map]

/-! ### Non-vacuity -/

/-- A small token language: numbers, string literals, names, `-`, and the separators. -/
inductive DemoTok where
  | num (n : Nat) | str (s : Bytes) | name (s : String) | minus | comma | colon
  deriving DecidableEq

/-- Its expressions: literals (also negative), names, and subtraction of a number. -/
inductive DemoEx where
  | int (n : Int) | str (s : Bytes) | name (s : String) | sub (e : DemoEx) (n : Nat)
  deriving DecidableEq

/-- As many `- n` as follow. -/
def demoSubs (e : DemoEx) : List DemoTok → DemoEx × List DemoTok
  | .minus :: .num n :: r => demoSubs (.sub e n) r
  | r => (e, r)

/-- The expression parser. -/
def demoExpr : List DemoTok → Option (DemoEx × List DemoTok)
  | .num n :: r => some (demoSubs (.int n) r)
  | .minus :: .num n :: r => some (demoSubs (.int (-n)) r)
  | .str s :: r => some (demoSubs (.str s) r)
  | .name s :: r => some (demoSubs (.name s) r)
  | _ => none

/-- The parsers and readers together. -/
def demoSyn : Syn DemoTok String DemoEx where
  isComma t := decide (t = .comma)
  isColon t := decide (t = .colon)
  ty
    | .name s :: r => some (s, r)
    | _ => none
  expr := demoExpr
  tyName s := s
  litInt
    | .int n => some n
    | _ => none
  litStr
    | .str s => some s
    | _ => none

theorem demoSubs_suffix (e : DemoEx) (ts : List DemoTok) :
    ∃ used, ts = used ++ (demoSubs e ts).2 := by
  fun_induction demoSubs e ts with
  | case1 e n r ih =>
    obtain ⟨u, hu⟩ := ih
    exact ⟨.minus :: .num n :: u, by simpa using hu⟩
  | case2 => exact ⟨[], rfl⟩

theorem demoSubs_stop (e : DemoEx) (ts : List DemoTok) (h : demoSyn.Ends ts) :
    demoSubs e ts = (e, ts) := by
  rcases h with rfl | ⟨t, r, rfl, h⟩
  · rfl
  · cases t <;> simp [demoSyn] at h <;> rfl

theorem demoSyn_lawful : demoSyn.Lawful where
  expr ts r e h := by
    have key : ∀ (t : List DemoTok) (e0 : DemoEx) (rest : List DemoTok), t ≠ [] →
        ts = t ++ rest → some (demoSubs e0 rest) = some (e, r) → ∃ used, used ≠ [] ∧ ts = used ++ r := by
      intro t e0 rest ht hts hs
      obtain ⟨u, hu⟩ := demoSubs_suffix e0 rest
      rw [Option.some.injEq] at hs
      rw [hs] at hu
      exact ⟨t ++ u, by simp [ht], by rw [hts, List.append_assoc, ← hu]⟩
    simp only [demoSyn] at h
    unfold demoExpr at h
    split at h
    · exact key [_] _ _ (by simp) rfl h
    · exact key [_, _] _ _ (by simp) rfl h
    · exact key [_] _ _ (by simp) rfl h
    · exact key [_] _ _ (by simp) rfl h
    · cases h
  ty ts r t h := by
    simp only [demoSyn] at h
    split at h
    · cases h; exact ⟨[_], rfl⟩
    · cases h

/-- `n: -m` as an entry. -/
def demoEntry (n m : Nat) : WrittenEntry DemoTok DemoEx :=
  ⟨[.num n], .int n, [.minus, .num m], .int (-m)⟩

theorem demoEntry_written (n m : Nat) :
    demoSyn.WritesExpr (demoEntry n m).keyToks (demoEntry n m).key ∧
    demoSyn.WritesExpr (demoEntry n m).valueToks (demoEntry n m).value :=
  ⟨fun rest h => by simp [demoEntry, demoSyn, demoExpr, demoSubs_stop _ rest h],
    fun rest h => by simp [demoEntry, demoSyn, demoExpr, demoSubs_stop _ rest h]⟩

/-- The value of an integer literal as `u32`, and as a value. -/
def demoKey : DemoEx → UInt32
  | .int n => UInt32.ofNat n.toNat
  | _ => 0

/-- The value of an expression. -/
def demoValue : DemoEx → Int
  | .int n => n
  | .sub e n => demoValue e - n
  | _ => 0

/-- `frozen_map!(u32, 1: -10, 5: -50, 9: -90,)`: all hypotheses of the last theorem hold. -/
example (env : Env) (bh : Hasher) :
    ∃ (c : MacroCode DemoEx) (m : MacroMap UInt32 Int),
      expandTokens demoSyn true demoHasher (writtenCall .comma .colon true [.name "u32"]
        [demoEntry 1 10, demoEntry 5 50, demoEntry 9 90]) = .ok (some c) ∧
      c.run env u32MacroTy (logged demoKey) (logged demoValue) bh []
        = .ok (m, [.int 1, .int (-10), .int 5, .int (-50), .int 9, .int (-90)]) ∧
      ∀ k, AnswersGet u32MacroTy.eq [(1, -10), (5, -50), (9, -90)] k (m.get env u32MacroTy k) := by
  have hx : expandTokens demoSyn true demoHasher (writtenCall .comma .colon true [.name "u32"]
      [demoEntry 1 10, demoEntry 5 50, demoEntry 9 90])
      = .ok (some ⟨⟨.integer, IdxTy.u8, some 3, none⟩, false,
          [(.int 1, .int (-10)), (.int 5, .int (-50)), (.int 9, .int (-90))]⟩) := by rfl
  obtain ⟨m, hm, hans⟩ := C60_from_tokens_to_lookups demoSyn demoSyn_lawful .comma .colon rfl rfl true
    [.name "u32"] "u32" (fun c rest hc => rfl) [demoEntry 1 10, demoEntry 5 50, demoEntry 9 90]
    (by intro e he; simp at he; rcases he with rfl | rfl | rfl <;> exact demoEntry_written _ _)
    (by decide) u32MacroTy u32MacroTy_lawful demoKey demoValue
    (Or.inr ⟨rfl, by intro e he; simp at he; rcases he with rfl | rfl | rfl <;> rfl⟩) true demoHasher _ hx
    ⟨by intro n hn; cases hn; decide, rfl⟩ (by decide) env bh
  exact ⟨_, m, hx, hm, hans⟩

/-- Commas between entries may be missing; a `-` then joins what it stands between, and the call no
longer parses. A key that is no literal: accepted in a call of two, a panic in a call of three. -/
example :
    demoSyn.parseMap [.name "u32", .comma, .num 1, .colon, .num 5, .num 2, .colon, .num 7]
      = some ("u32", [(.int 1, .int 5), (.int 2, .int 7)]) ∧
    demoSyn.parseMap [.name "i32", .comma, .num 1, .colon, .num 5, .minus, .num 2, .colon, .num 7]
      = none ∧
    (expandTokens demoSyn true demoHasher [.name "u32", .comma, .name "ONE", .colon, .num 5]).isOk ∧
    expandTokens demoSyn true demoHasher [.name "u32", .comma, .name "ONE", .colon, .num 5, .comma,
      .num 2, .colon, .num 5, .comma, .num 4, .colon, .num 5] matches .panic := by
  refine ⟨rfl, rfl, rfl, rfl⟩

/-- 256 does not fit `u8`. -/
example : expandTokens demoSyn true demoHasher (writtenCall .comma .colon false [.name "u8"]
    [demoEntry 1 1, demoEntry 2 2, demoEntry 256 3]) matches .panic := by
  rw [(C60_integer_keys demoSyn true demoHasher _ "u8" _
    (C60_reads_what_is_written demoSyn demoSyn_lawful .comma .colon rfl rfl false [.name "u8"] "u8"
      (fun c rest hc => rfl) [demoEntry 1 1, demoEntry 2 2, demoEntry 256 3]
      (by intro e he; simp at he; rcases he with rfl | rfl | rfl <;> exact demoEntry_written _ _))
    (by decide) ⟨8, false⟩ (((C60_key_classes "u8").1 _).2 (by simp))).1
    ⟨(.int 256, .int (-3)), by simp [demoEntry], by
      intro n hn; cases hn; decide⟩]

/-- `frozen_map!(u32, 1: 5 2: 7)`: a missing comma. -/
example := C60_accounts_for_every_token demoSyn demoSyn_lawful
  [.name "u32", .comma, .num 1, .colon, .num 5, .num 2, .colon, .num 7] "u32"
  [(.int 1, .int 5), (.int 2, .int 7)] (by decide)

/-- `frozen_map!(& str, "a": 1, "b": 2, C: 3)`, where `C` is no literal. -/
example := C60_string_keys demoSyn true demoHasher
  [.name "& str", .comma, .str [97], .colon, .num 1, .comma, .str [98], .colon, .num 2, .comma,
    .name "C", .colon, .num 3] "& str"
  [(.str [97], .int 1), (.str [98], .int 2), (.name "C", .int 3)] (by decide) (by decide)
  ((C60_key_classes _).2.2 rfl) (.name "C", .int 3) (by decide) rfl

end FC
