import Mathlib.Algebra.Order.Field.Basic
import Mathlib.Data.Int.Cast.Lemmas

/-!
# Specification vocabulary for values in space and time
-/

set_option autoImplicit false

namespace Verif.Spec

/-- How a query time is served by a time axis: with weight `1 - α` by index `i` and `α` by index `j`,
where `i` and `j` are the same time or neighbours and the weighted time is the query time; or the
axis has one time only; or extrapolation was asked for and the nearest end is used. -/
def TimeWeights {K : Type*} [Field K] [LinearOrder K] (times : List Int) (t : Int)
    (extrapolate : Bool) (i j : Nat) (α : K) : Prop :=
  0 ≤ α ∧ α ≤ 1 ∧ i < times.length ∧ j < times.length ∧
  ((i ≤ j ∧ j ≤ i + 1 ∧ ∃ a b : Int, times[i]? = some a ∧ times[j]? = some b ∧
      (a : K) + α * ((b : K) - (a : K)) = (t : K)) ∨
    times.length = 1 ∨
    (extrapolate = true ∧ i = j ∧ ((i = 0 ∧ ∀ x ∈ times, t < x) ∨
      (i + 1 = times.length ∧ ∀ x ∈ times, x < t))))

/-- `v` is the value that a column with value `c k` on level `k` (`m` levels) has for index `i` and
weight `α`: between two levels their weighted mean, beyond an end the value of that end. -/
def LevelMix {K : Type*} [Field K] (m : Nat) (c : Nat → K) (i : Int) (α v : K) : Prop :=
  (∃ j : Nat, i = (j : Int) ∧ j + 1 < m ∧ v = (1 - α) * c j + α * c (j + 1)) ∨
  (i = -1 ∧ α = 1 ∧ v = c 0) ∨
  (i = (m : Int) - 1 ∧ α = 0 ∧ v = c (m - 1))

/-- A field that is linear in position for fixed depth and time, and linear in depth and in time:
twelve coefficients. -/
structure Multilinear (K : Type*) where
  a : K × K × K
  b : K × K × K
  c : K × K × K
  d : K × K × K

/-- The field's value at a position, depth and time. -/
def Multilinear.at {K : Type*} [Field K] (f : Multilinear K) (p : K × K) (z t : K) : K :=
  let lin := fun q : K × K × K => q.1 + q.2.1 * p.1 + q.2.2 * p.2
  lin f.a + z * lin f.b + t * lin f.c + z * t * lin f.d

end Verif.Spec
