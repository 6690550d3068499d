import Mathlib.Algebra.Order.Field.Basic

/-!
# Specification vocabulary for vertical interpolation of data
-/

set_option autoImplicit false

namespace Verif.Spec

/-- `v` is the value a column of level values has at level index `i` and weight `α`: between two
levels their weighted mean; beyond an end (index -1 with weight 1, or the last index with weight 0)
the value of that end level. -/
def LevelValue {K : Type*} [Field K] (col : List K) (i : Int) (α v : K) : Prop :=
  (∃ (j : Nat) (a b : K), i = (j : Int) ∧ col[j]? = some a ∧ col[j + 1]? = some b ∧
    v = (1 - α) * a + α * b) ∨
  (i = -1 ∧ α = 1 ∧ col.head? = some v) ∨
  (i = (col.length : Int) - 1 ∧ α = 0 ∧ col.getLast? = some v)

/-- An index and weight a depth object can return for a point of a column with `m` levels. -/
def ValidPick {K : Type*} [Field K] [LinearOrder K] (m : Nat) (i : Int) (α : K) : Prop :=
  0 ≤ α ∧ α ≤ 1 ∧ ((0 ≤ i ∧ i + 1 < (m : Int)) ∨ (i = -1 ∧ α = 1) ∨ (i = (m : Int) - 1 ∧ α = 0))

end Verif.Spec
