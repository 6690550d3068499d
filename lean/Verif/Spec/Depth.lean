import Mathlib.Algebra.Order.Field.Basic

/-!
# Specification vocabulary for vertical interpolation
-/

set_option autoImplicit false

namespace Verif.Spec

/-- Levels `i` and `i+1` of the column enclose depth `d`, and `α` is the weight of the second:
`α` is in [0,1]. -/
def Encloses {K : Type*} [Field K] [LinearOrder K] (col : List K) (d : K) (i : Int) (α : K) : Prop :=
  ∃ (j : Nat) (a b : K), i = (j : Int) ∧ col[j]? = some a ∧ col[j + 1]? = some b ∧
    min a b ≤ d ∧ d ≤ max a b ∧ 0 ≤ α ∧ α ≤ 1

/-- The weighted depth of the two levels is the depth asked for. -/
def Reconstructs {K : Type*} [Field K] (col : List K) (d : K) (i : Int) (α : K) : Prop :=
  ∀ (j : Nat) (a b : K), i = (j : Int) → col[j]? = some a → col[j + 1]? = some b →
    a + (b - a) * α = d

/-- Index and weight select one single level: weight 0 selects level `i`, weight 1 level `i+1`. -/
def SelectsLevel {K : Type*} [Field K] (i : Int) (α : K) (level : Nat) : Prop :=
  (α = 0 ∧ i = (level : Int)) ∨ (α = 1 ∧ i + 1 = (level : Int))

/-- Rounding that, besides being monotone and exact on 0 and 1, does not turn a non-zero
difference into zero (IEEE arithmetic has this property thanks to gradual underflow). -/
def KeepsNonzero {K : Type*} [Zero K] (rnd : K → K) : Prop := ∀ x, x ≠ 0 → rnd x ≠ 0

end Verif.Spec
