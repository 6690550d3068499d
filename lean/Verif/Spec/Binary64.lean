import Mathlib.Algebra.Order.Field.Basic
import Mathlib.Algebra.Order.Ring.Rat
import Mathlib.Data.Rat.Floor

/-!
# IEEE binary64 rounding

Round to nearest, ties to even, with 53 significant bits and unbounded exponent (no overflow or
underflow). Used for claims about what double-precision arithmetic really computes.
-/

set_option autoImplicit false

namespace Verif.Spec

/-- Exponent of the leading bit of a positive rational. -/
def ilog2 (q : ℚ) : Int :=
  let e : Int := (Nat.log2 q.num.natAbs : Int) - (Nat.log2 q.den : Int)
  if (2 : ℚ) ^ e ≤ q then e else e - 1

/-- Nearest integer, ties to even. -/
def roundEven (q : ℚ) : Int :=
  let f := ⌊q⌋
  let r := q - f
  if r < 1 / 2 then f
  else if 1 / 2 < r then f + 1
  else if f % 2 = 0 then f else f + 1

/-- Round a rational to the nearest double. -/
def rnd64 (q : ℚ) : ℚ :=
  if q = 0 then 0
  else
    let a := |q|
    let ulp : ℚ := (2 : ℚ) ^ (ilog2 a - 52)
    let m : ℚ := roundEven (a / ulp) * ulp
    if q < 0 then -m else m

end Verif.Spec
