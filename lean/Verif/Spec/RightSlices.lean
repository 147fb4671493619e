import Verif.Model.SliceKey

/-
The part of a string that a right slice map goes by.
-/

set_option autoImplicit false

namespace FC

/-- The bytes from the `a`th to the `b`th before the end of a string. -/
def beforeEnd (a b : Nat) (k : Bytes) : Bytes := (k.drop (k.length - a)).take (a - b)

end FC
