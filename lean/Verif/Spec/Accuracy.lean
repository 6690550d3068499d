import Mathlib.Algebra.Order.Field.Basic
import Mathlib.Algebra.Order.AbsoluteValue.Basic
import Mathlib.Tactic.Ring

/-!
# Fields and resolutions, for C170 and C171
-/

set_option autoImplicit false

namespace Verif.Spec

variable {K : Type*} [Field K] [LinearOrder K] [IsStrictOrderedRing K]

/-- A field over position, depth and time. -/
abbrev SpaceTime (K : Type*) := K × K → K → K → K

/-- Squared distance of two positions. -/
def sqDist (p q : K × K) : K := (p.1 - q.1) ^ 2 + (p.2 - q.2) ^ 2

/-- The field bends no more than this: around every point it is a linear function but for a remainder
of second order, with one bound for each direction. -/
def BendsAtMost (F : SpaceTime K) (mh mz mt : K) : Prop :=
  ∀ (p : K × K) (z t : K), ∃ a b c d : K, ∀ (p' : K × K) (z' t' : K),
    |F p' z' t' - (F p z t + a * (p'.1 - p.1) + b * (p'.2 - p.2) + c * (z' - z) + d * (t' - t))| ≤
      mh * sqDist p' p + mz * (z' - z) ^ 2 + mt * (t' - t) ^ 2

/-- The field changes no faster than this in each direction. -/
def ChangesAtMost (F : SpaceTime K) (lh lz lt : K) : Prop :=
  ∀ (p : K × K) (z t : K) (p' : K × K) (z' t' : K),
    |F p' z' t' - F p z t| ≤ lh * (|p'.1 - p.1| + |p'.2 - p.2|) + lz * |z' - z| + lt * |t' - t|

/-- Neighbours in the list are no further apart than this. -/
def StepsAtMost (l : List K) (s : K) : Prop :=
  ∀ (j : Nat) (a b : K), l[j]? = some a → l[j + 1]? = some b → |b - a| ≤ s

end Verif.Spec
