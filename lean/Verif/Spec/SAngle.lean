import Mathlib.Analysis.SpecialFunctions.Trigonometric.Basic

/-!
# Directions on a sphere
-/

set_option autoImplicit false

namespace Verif.Spec

/-- Degrees as radians. -/
noncomputable def rad (d : ℝ) : ℝ := d * Real.pi / 180

/-- The place on the unit sphere of a longitude and a latitude in degrees. -/
noncomputable def onSphere (p : ℝ × ℝ) : ℝ × ℝ × ℝ :=
  (Real.cos (rad p.2) * Real.cos (rad p.1), Real.cos (rad p.2) * Real.sin (rad p.1),
    Real.sin (rad p.2))

/-- The unit vector to the east. -/
noncomputable def eastAt (p : ℝ × ℝ) : ℝ × ℝ × ℝ := (-Real.sin (rad p.1), Real.cos (rad p.1), 0)

/-- The unit vector to the north. -/
noncomputable def northAt (p : ℝ × ℝ) : ℝ × ℝ × ℝ :=
  (-Real.sin (rad p.2) * Real.cos (rad p.1), -Real.sin (rad p.2) * Real.sin (rad p.1),
    Real.cos (rad p.2))

/-- The scalar product. -/
def dot3 (a b : ℝ × ℝ × ℝ) : ℝ := a.1 * b.1 + a.2.1 * b.2.1 + a.2.2 * b.2.2

/-- How far `q` is to the east of `p`. -/
noncomputable def eastward (p q : ℝ × ℝ) : ℝ := dot3 (onSphere q) (eastAt p)

/-- How far `q` is to the north of `p`. -/
noncomputable def northward (p q : ℝ × ℝ) : ℝ := dot3 (onSphere q) (northAt p)

/-- The angle, counted from east towards north, at which one sees `q` from `p`. -/
def SeenAt (p q : ℝ × ℝ) (θ : ℝ) : Prop :=
  ∃ r : ℝ, 0 ≤ r ∧ eastward p q = r * Real.cos θ ∧ northward p q = r * Real.sin θ

end Verif.Spec
