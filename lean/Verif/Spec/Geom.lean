import Mathlib.Algebra.Order.Field.Basic

/-!
# Plane geometry, said without areas or weights formulas
-/

set_option autoImplicit false

namespace Verif.Spec

section
variable {K : Type*} [Field K] [LinearOrder K]

/-- `pt` is the point with weights `a`, `b`, `c` (adding up to 1) on the vertices. -/
def Weighted (p q r pt : K × K) (a b c : K) : Prop :=
  a + b + c = 1 ∧ pt.1 = a * p.1 + b * q.1 + c * r.1 ∧ pt.2 = a * p.2 + b * q.2 + c * r.2

/-- `pt` is in the closed triangle. -/
def InTriangle (p q r pt : K × K) : Prop :=
  ∃ a b c : K, 0 ≤ a ∧ 0 ≤ b ∧ 0 ≤ c ∧ Weighted p q r pt a b c

/-- `pt` is in the triangle widened by `t`: the negative weights add up to no more than `t`. -/
def NearTriangle (t : K) (p q r pt : K × K) : Prop :=
  ∃ a b c : K, Weighted p q r pt a b c ∧ max 0 (-a) + max 0 (-b) + max 0 (-c) ≤ t

/-- The three vertices turn left (counterclockwise): the third lies left of the line from the first
to the second. -/
def TurnsLeft (p q r : K × K) : Prop :=
  0 < (q.1 - p.1) * (r.2 - p.2) - (r.1 - p.1) * (q.2 - p.2)

def TurnsRight (p q r : K × K) : Prop := TurnsLeft q p r

/-- The vertices do not lie on a line. -/
def ProperTriangle (p q r : K × K) : Prop := TurnsLeft p q r ∨ TurnsRight p q r

end

end Verif.Spec
