import Mathlib.Algebra.Order.Field.Basic

/-!
# Weighted sums of fields
-/

set_option autoImplicit false

namespace Verif.Spec

/-- `a x + b y`, not a number if one of them is not. -/
def wsum {K : Type*} [Field K] (a b : K) (x y : Option K) : Option K :=
  match x, y with
  | some x, some y => some (a * x + b * y)
  | _, _ => none

end Verif.Spec
