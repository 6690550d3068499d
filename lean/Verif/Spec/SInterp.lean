import Mathlib.Algebra.Order.Field.Basic

/-!
# Bilinear interpolation in a quadrilateral cell
-/

set_option autoImplicit false

namespace Verif.Spec

variable {K : Type*} [Field K]

/-- The values at the four corners of a cell, in the order node (i, j), node (i+1, j),
node (i+1, j+1), node (i, j+1). The value at the fraction `c` of the way to the next column and the
fraction `r` of the way to the next row: first along the two rows, then between them. -/
def bilinear (v : K × K × K × K) (c r : K) : K :=
  (1 - r) * ((1 - c) * v.1 + c * v.2.2.2) + r * ((1 - c) * v.2.1 + c * v.2.2.1)

/-- A position in the unit square. -/
def InUnit [LinearOrder K] (p : K × K) : Prop := 0 ≤ p.1 ∧ p.1 ≤ 1 ∧ 0 ≤ p.2 ∧ p.2 ≤ 1

/-- The index one step away in direction `d` among `n`, staying put at the rim. -/
def beside (n i : Nat) (d : Int) : Nat :=
  if 0 ≤ (i : Int) + d ∧ (i : Int) + d < n then ((i : Int) + d).toNat else i

end Verif.Spec
