import Verif.Spec
import Verif.Model.Api

/-
What `{:?}` of a collection should print.
-/

set_option autoImplicit false

namespace FC
variable [Target]

/-- The texts between brackets, separated by `", "`. -/
def listing (opening closing : String) (texts : List String) : String :=
  opening ++ ", ".intercalate texts ++ closing

/-- `out` is the listing of the texts of all `items`, in order; or an error if one of the items
fails to print. -/
def Prints {α : Type} (opening closing : String) (text : α → Option String) (items : List α)
    (out : Option String) : Prop :=
  match items.mapM text with
  | some ts => out = some (listing opening closing ts)
  | none => out = none

/-- A map entry: `key: value`. -/
def entryText {K V : Type} (fk : K → Option String) (fv : V → Option String) :
    K × V → Option String :=
  fun e => do return (← fk e.1) ++ ": " ++ (← fv e.2)

/-- A pair: `(key, value)`. -/
def pairText {K V : Type} (fk : K → Option String) (fv : V → Option String) :
    K × V → Option String :=
  fun e => do return "(" ++ (← fk e.1) ++ ", " ++ (← fv e.2) ++ ")"

/-- A map prints as `{key: value, ...}`, listing what `iter` yields, in that order. -/
def PrintsAsMap {M K V Q : Type} (A : MapApi M K V Q) (fk : K → Option String)
    (fv : V → Option String) (m : M) (out : Option String) : Prop :=
  ∃ es : List (K × V), (∀ n, (calls MapIter.next n (A.iter m)).1 = firstCalls es n) ∧
    Prints "{" "}" (entryText fk fv) es out

/-- A set prints its elements, in the order of `iter`, between the brackets, each as `text`. -/
def PrintsAsSet {T : Type} (opening closing : String) (text : T → Option String) (it : SetIter T)
    (out : Option String) : Prop :=
  ∃ es : List T, (∀ n, (calls SetIter.next n it).1 = firstCalls es n) ∧
    Prints opening closing text es out

/-- An element written like a map entry with the value `()`. -/
def unitText {T : Type} (ft : T → Option String) : T → Option String :=
  fun x => do return (← ft x) ++ ": ()"

end FC
