import Verif.Model.At

/-!
# The `unmask` option of `Variable.at`, `gridded/variable.py:620-623`
-/

set_option autoImplicit false

namespace Verif.Unmask
open Verif.At Verif.DepthM

section
variable {K P σ : Type} [Field K] [DecidableEq K]

/-- `np.ma.set_fill_value(value, self.fill_value)`, then `np.ma.filled(value)`, for one entry. A plain
array has no masked entries and stays as it is. NaN that are not masked stay. -/
def fillCell (fill : K) (c : Cell K) : Cell K := if c.masked then ⟨some fill, false⟩ else c

/-- `Variable.at(points, time, extrapolate=…, unmask=…)`, `gridded/variable.py:610-627`, without the
result cache. -/
def atUnmask (xy : σ → List P → Except Err (List (Cell K))) (times : List Int) (ds : DepthSys K P)
    (d : Data σ) (fill : K) (pts : List P) (t : Int) (extrapolate unmask : Bool) :
    Except Err (List (Cell K)) :=
  match eval xy times ds d pts t extrapolate with
  | .error e => .error e
  | .ok cs => .ok (if unmask then cs.map (fillCell fill) else cs)

end

end Verif.Unmask
