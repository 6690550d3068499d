import Mathlib.Algebra.Order.Field.Basic

/-!
# Polygons
-/

set_option autoImplicit false

namespace Verif.Spec

section
variable {K : Type*} [Field K] [LinearOrder K]

/-- Positive if `p` lies left of the line from `a` to `b`, negative if right of it, zero on it. -/
def side (a b p : K × K) : K := (b.1 - a.1) * (p.2 - a.2) - (b.2 - a.2) * (p.1 - a.1)

/-- The vertices go round a convex polygon counterclockwise: any three of them, in order, turn
left. -/
def ConvexPolygon (poly : List (K × K)) : Prop :=
  ∀ (i j k : Nat) (a b c : K × K), i < j → j < k → poly[i]? = some a → poly[j]? = some b →
    poly[k]? = some c → 0 < side a b c

/-- The sides of a polygon, from each vertex to the next and from the last to the first. -/
def IsSide (poly : List (K × K)) (a b : K × K) : Prop :=
  (∃ i : Nat, poly[i]? = some a ∧ poly[i + 1]? = some b) ∨
    (poly.getLast? = some a ∧ poly.head? = some b)

/-- Some straight line has all vertices on one side and the point strictly on the other. -/
def Separated (p : K × K) (poly : List (K × K)) : Prop :=
  ∃ a b : K, ∀ v ∈ poly, a * p.1 + b * p.2 < a * v.1 + b * v.2

end

end Verif.Spec
