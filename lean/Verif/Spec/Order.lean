import Mathlib.Algebra.Order.Field.Basic

/-!
# Specification vocabulary: ordered series and rounding

Nothing here mentions the program's functions.
-/

set_option autoImplicit false

namespace Verif.Spec

/-- A strictly increasing series. -/
def StrictIncr {α : Type*} [LT α] (l : List α) : Prop := l.Pairwise (· < ·)

/-- A strictly decreasing series. -/
def StrictDecr {α : Type*} [LT α] (l : List α) : Prop := l.Pairwise (· > ·)

/-- Index `i` brackets `t` from above: all entries before `i` are smaller than `t`, the entry at
`i` exists and it and all later ones are at least `t`. -/
def FirstAtLeast {α : Type*} [LT α] [LE α] (l : List α) (t : α) (i : Nat) : Prop :=
  i < l.length ∧ (∀ j x, j < i → l[j]? = some x → x < t) ∧
    (∀ j x, i ≤ j → l[j]? = some x → t ≤ x)

/-- A rounding of exact results to representable ones: monotone, and exact on 0 and 1. Rounding
to nearest, up, down or towards zero in IEEE arithmetic all satisfy this, and so does the identity
(exact arithmetic). -/
structure Rounding {K : Type*} [Field K] [LinearOrder K] (rnd : K → K) : Prop where
  mono : ∀ x y, x ≤ y → rnd x ≤ rnd y
  zero : rnd 0 = 0
  one : rnd 1 = 1

theorem Rounding.id {K : Type*} [Field K] [LinearOrder K] : Rounding (fun x : K => x) :=
  ⟨fun _ _ h => h, rfl, rfl⟩

end Verif.Spec
