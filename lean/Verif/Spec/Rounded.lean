import Mathlib.Algebra.Order.Field.Basic
import Mathlib.Algebra.Order.AbsoluteValue.Basic

/-!
# Specification of rounded arithmetic
-/

set_option autoImplicit false

namespace Verif.Spec

/-- Results are rounded with relative error at most `u` (2⁻⁵³ for doubles, 2⁻²⁴ for single
precision, both to nearest and without overflow or underflow). -/
def Accurate {K : Type*} [Field K] [LinearOrder K] (rnd : K → K) (u : K) : Prop :=
  ∀ x, |rnd x - x| ≤ u * |x|

/-- Rounding treats a number and its opposite alike (to nearest or towards zero). -/
def OddRounding {K : Type*} [Field K] (rnd : K → K) : Prop := ∀ x, rnd (-x) = -rnd x

/-- The number can be stored without rounding. -/
def Stored {K : Type*} (rnd : K → K) (x : K) : Prop := rnd x = x

/-- `r` is the value at `t` of the straight line through `(a, va)` and `(b, vb)`. -/
def OnLine {K : Type*} [Field K] (a b va vb t r : K) : Prop :=
  (r - va) * (b - a) = (vb - va) * (t - a)

end Verif.Spec
