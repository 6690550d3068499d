import Mathlib.Order.Basic

/-!
# Cells of an axis
-/

set_option autoImplicit false

namespace Verif.Spec

/-- `x` lies between `a` and `b`, the smaller of them included and the larger not. -/
def HalfOpen {α : Type*} [LinearOrder α] (a b x : α) : Prop := (a ≤ x ∧ x < b) ∨ (b ≤ x ∧ x < a)

/-- `x` lies in the `k`-th cell of an axis given by its nodes. -/
def InCell {α : Type*} [LinearOrder α] (axis : List α) (k : Nat) (x : α) : Prop :=
  ∃ a b, axis[k]? = some a ∧ axis[k + 1]? = some b ∧ HalfOpen a b x

end Verif.Spec
