import Verif.Model.MacroTokens

/-
What a call of `frozen_map!` looks like when written out, and what its parser is trusted with.
-/

set_option autoImplicit false

namespace FC
variable [Target]
variable {Tok Ty Ex : Type}

/-- syn's parsers only take tokens from the front, and an expression has at least one. -/
structure Syn.Lawful (S : Syn Tok Ty Ex) : Prop where
  expr : ∀ (ts r : List Tok) (e : Ex), S.expr ts = some (e, r) → ∃ used, used ≠ [] ∧ ts = used ++ r
  ty : ∀ (ts r : List Tok) (t : Ty), S.ty ts = some (t, r) → ∃ used, ts = used ++ r

/-- Nothing more, or a separator. -/
def Syn.Ends (S : Syn Tok Ty Ex) (rest : List Tok) : Prop :=
  rest = [] ∨ ∃ t r, rest = t :: r ∧ (S.isComma t = true ∨ S.isColon t = true)

/-- The tokens are the expression `e`, wherever they stand before a separator or the end. -/
def Syn.WritesExpr (S : Syn Tok Ty Ex) (toks : List Tok) (e : Ex) : Prop :=
  ∀ rest, S.Ends rest → S.expr (toks ++ rest) = some (e, rest)

/-- The tokens are the type `t`, wherever they stand before a comma. -/
def Syn.WritesType (S : Syn Tok Ty Ex) (toks : List Tok) (t : Ty) : Prop :=
  ∀ c rest, S.isComma c = true → S.ty (toks ++ c :: rest) = some (t, c :: rest)

/-- An entry as written: the tokens of key and value, and the expressions they are. -/
structure WrittenEntry (Tok Ex : Type) where
  keyToks : List Tok
  key : Ex
  valueToks : List Tok
  value : Ex

/-- `key : value` -/
def WrittenEntry.tokens (colon : Tok) (e : WrittenEntry Tok Ex) : List Tok :=
  e.keyToks ++ colon :: e.valueToks

/-- The entries with a comma between any two, and one at the end if `trailing`. -/
def writtenEntries (comma colon : Tok) (trailing : Bool) : List (WrittenEntry Tok Ex) → List Tok
  | [] => []
  | [e] => e.tokens colon ++ if trailing then [comma] else []
  | e :: e' :: es => e.tokens colon ++ comma :: writtenEntries comma colon trailing (e' :: es)

/-- `type, key: value, key: value, ...` -/
def writtenCall (comma colon : Tok) (trailing : Bool) (tyToks : List Tok)
    (es : List (WrittenEntry Tok Ex)) : List Tok :=
  tyToks ++ comma :: writtenEntries comma colon trailing es

/-- The expressions of an entry. -/
def WrittenEntry.exprs (e : WrittenEntry Tok Ex) : Ex × Ex := (e.key, e.value)

/-- Evaluating an expression with a log of what was evaluated. -/
def logged {E A : Type} (f : E → A) (e : E) : Call (List E) A := fun log => .ok (f e, log ++ [e])

/-- Types as the compiler sees them: what a written type denotes, which one is `String`, and which
types a key expression can have (an unsuffixed integer literal can have any integer type). -/
structure KeyTyping (Ty Ex T : Type) where
  denotes : Ty → T
  string : T
  canBe : Ex → T → Prop

/-- The code emitted for a call type-checks with keys of type `t`: a key written in `String::from(..)`
is a `String`, any other key expression can have type `t`, and `t` is the type the code names, if it
names one. -/
def KeyTyping.Compiles {T : Type} (C : KeyTyping Ty Ex T) (note : KeyNote Ty) (code : MacroCode Ex)
    (t : T) : Prop :=
  (∀ e ∈ code.entries, if code.wrapped then t = C.string else C.canBe e.1 t) ∧
  match note with
  | .absent => True
  | .written ty => t = C.denotes ty
  | .string => t = C.string

end FC
