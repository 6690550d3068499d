import Verif.Model.Time

/-!
# `Variable._time_interp`, `gridded/variable.py:658-694`
-/

set_option autoImplicit false

namespace Verif.TimeInterp
open Verif.TimeM

/-- `Variable._time_interp`, `gridded/variable.py:681-694`, for one point. `valFunc slices` is the
value the next stage (`_xy_interp` or `_depth_interp`) gives at that point for the data selected by
`slices`; `pre` is the `slices` argument. Exact arithmetic. As in the program, the prefix is dropped
in the first two branches (lines 683, 685) and `index_of` is called without `extrapolate`
(line 687). -/
def timeInterp {K : Type*} [Field K] [DecidableEq K] (times : List Int)
    (valFunc : List Int → Except Err K) (pre : List Int) (t : Int) (extrapolate : Bool) :
    Except Err K :=
  match minTime times with
  | .error e => .error e
  | .ok lo =>
    if t = lo ∨ (extrapolate = true ∧ t < lo) then valFunc [0]
    else match maxTime times with
      | .error e => .error e
      | .ok hi =>
        if t = hi ∨ (extrapolate = true ∧ hi < t) then valFunc [-1]
        else match indexOf times t false with
          | .error e => .error e
          | .ok ind =>
            match valFunc (pre ++ [(ind : Int) - 1]), valFunc (pre ++ [(ind : Int)]),
              interpAlpha (fun x => x) times t extrapolate with
            | .ok v0, .ok v1, .ok α => .ok (v0 + (v1 - v0) * α)
            | .error e, _, _ => .error e
            | _, .error e, _ => .error e
            | _, _, .error e => .error e

/-- Values at one point of data with dimensions (time, ...): `data[i]` (Python indexing). -/
def sliceValue {K : Type*} (vals : List K) : List Int → Except Err K
  | [i] => Np.pyGet vals i
  | _ => .error .indexError

/-- Values at one point of data with dimensions (depth, time, ...), `rows` one list per level. With
fewer than two indices a whole row is left where one value is needed; the later stages cannot
broadcast it to the point and fail (modelled as `ValueError`). -/
def sliceValue2 {K : Type*} (rows : List (List K)) : List Int → Except Err K
  | [d, i] => match Np.pyGet rows d with
    | .ok r => Np.pyGet r i
    | .error e => .error e
  | _ => .error .valueError

/-- `Variable.at` in time for a variable whose data have one slice per time (the whole dependence
of `at` on time when time is the first dimension), `gridded/variable.py:610-612`. -/
def atTime {K : Type*} [Field K] [DecidableEq K] (times : List Int) (vals : List K) (t : Int)
    (extrapolate : Bool) : Except Err K :=
  timeInterp times (sliceValue vals) [] t extrapolate

/-- The `time` setter's and the `data` setter's length checks, `gridded/variable.py:365-366,
382-383`: whether a series of `nt` times can be set on a variable with `nd` data slices, and
whether data with `nd` slices can be set on a variable with `nt` times. -/
def timeSettable (nt nd : Nat) : Except Err Unit :=
  if nt ≠ nd ∧ 1 < nt then .error .valueError else .ok ()

def dataSettable (nt nd : Nat) : Except Err Unit :=
  if nd ≠ nt then .error .valueError else .ok ()

end Verif.TimeInterp
