import Verif.Model.At

/-!
# `Variable.constant`, `gridded/variable.py:308-317`
-/

set_option autoImplicit false

namespace Verif.Constant
open Verif.At Verif.DepthM

section
variable {K : Type} [Field K] [LinearOrder K]

/-- The grid of three by three nodes (`variable.py:314-316`). It has no padding and no mask. -/
def grid : SInterp.Grid K where
  lon := [[-360, 0, 360], [-360, 0, 360], [-360, 0, 360]]
  lat := [[-1799 / 20, -1799 / 20, -1799 / 20], [0, 0, 0], [1799 / 20, 1799 / 20, 1799 / 20]]
  pads := fun _ => (.none, .none)
  centerMask := none
  behavior := "zero"

/-- `np.full((3, 3), value)` (`variable.py:313`). -/
def data (value : K) : List (List (SInterp.MV K)) :=
  List.replicate 3 (List.replicate 3 ⟨value, false⟩)

/-- `np.ma.set_fill_value(value, self.fill_value)`, then `np.ma.filled(value)` (`variable.py:620-623`)
for one entry. -/
def filled (fill : K) (c : Cell K) : Cell K := if c.masked then ⟨some fill, false⟩ else c

/-- `Variable.constant(value).at(points, time)`: there is no time and no depth, two dimensions, and the
fill value is the value. -/
def constantAt (sqrt : K → K) (value : K) (times : List Int) (ds : DepthSys K (SPt K))
    (pts : List (SPt K)) (t : Int) (extrapolate unmask : Bool) : Except Err (List (Cell K)) :=
  match eval (xyS sqrt grid (some .node)) times ds (.flat (data value)) pts t extrapolate with
  | .error e => .error e
  | .ok cs => .ok (if unmask then cs.map (filled value) else cs)

end

end Verif.Constant
