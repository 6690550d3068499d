import Mathlib.Analysis.SpecialFunctions.Complex.Arg

/-!
# Angles of a structured grid

`calculate_bearing`, `calculate_angle_from_true_east` and `pair_arrays`
(`gridded/pysgrid/utils.py:22-43`, `183-213`) as `get_angles` calls them
(`gridded/pysgrid/sgrid.py:1417-1426`). Numbers are real numbers; points are longitude and latitude
in degrees. `np.arctan2` is the argument of a complex number, which leaves out signed zeros.
-/

set_option autoImplicit false

namespace Verif.SAngle

/-- `np.arctan2(y, x)`. -/
noncomputable def arctan2 (y x : ℝ) : ℝ := Complex.arg ⟨x, y⟩

/-- `x % m`. -/
noncomputable def pyMod (x m : ℝ) : ℝ := x - m * ⌊x / m⌋

/-- `calculate_bearing` (`utils.py:183-199`). -/
noncomputable def bearing (p q : ℝ × ℝ) : ℝ :=
  let lon1 := p.1 * Real.pi / 180
  let lat1 := p.2 * Real.pi / 180
  let lon2 := q.1 * Real.pi / 180
  let lat2 := q.2 * Real.pi / 180
  let x1 := Real.sin (lon2 - lon1) * Real.cos lat2
  let x2 := Real.cos lat1 * Real.sin lat2 - Real.sin lat1 * Real.cos lat2 * Real.cos (lon2 - lon1)
  pyMod (arctan2 x1 x2 * 180 / Real.pi + 360) 360

/-- One of the angles of `calculate_angle_from_true_east` (`utils.py:201-209`). -/
noncomputable def fromEast (p q : ℝ × ℝ) : ℝ := (90 - bearing p q) * Real.pi / 180

/-- `np.append(a, a[..., -1:], axis=-1)` (`utils.py:210-212`). -/
def repeatLast {β : Type} (l : List β) : List β := l ++ l.getLast?.toList

/-- The angles of one row of centers (`sgrid.py:1421-1425`): from all but the last to all but the
first. -/
noncomputable def rowAngles (pts : List (ℝ × ℝ)) : List ℝ :=
  repeatLast ((pts.dropLast.zip pts.tail).map (fun e => fromEast e.1 e.2))

/-- `get_angles` (`sgrid.py:1417-1426`) for longitudes and latitudes of the same shape. -/
noncomputable def angles (lon lat : List (List ℝ)) : List (List ℝ) :=
  (lon.zip lat).map (fun r => rowAngles (r.1.zip r.2))

end Verif.SAngle
