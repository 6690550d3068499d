import Verif.Model.TimeInterp
import Verif.Model.DepthInterp
import Verif.Model.UGeom

/-!
# Interpolation with every floating-point operation rounded

The same code as in `TimeInterp`, `DepthInterp` and `UGeom`, with each operation on floating-point
numbers passed through `rnd`. With the identity for `rnd` these are the exact models (see the
theorems beside the properties). Overflow and underflow are not modelled: `rnd` returns a number.
-/

set_option autoImplicit false

namespace Verif.Rounded
open Verif.TimeM Verif.DepthM

section
variable {K : Type*} [Field K]

/-- `v0 + (v1 - v0) * alphas`, `gridded/variable.py:694, 767`: one difference, one product and one
sum. -/
def mixR (rnd : K → K) (v0 v1 α : K) : K := rnd (v0 + rnd (rnd (v1 - v0) * α))

/-- `Variable._time_interp`, `gridded/variable.py:681-694`, for one point; `valFunc` as in
`TimeInterp.timeInterp`. -/
def timeInterpR [DecidableEq K] (rnd : K → K) (times : List Int)
    (valFunc : List Int → Except Err K) (pre : List Int) (t : Int) (extrapolate : Bool) :
    Except Err K :=
  match minTime times with
  | .error e => .error e
  | .ok lo =>
    if t = lo ∨ (extrapolate = true ∧ t < lo) then valFunc [0]
    else match maxTime times with
      | .error e => .error e
      | .ok hi =>
        if t = hi ∨ (extrapolate = true ∧ hi < t) then valFunc [-1]
        else match indexOf times t false with
          | .error e => .error e
          | .ok ind =>
            match valFunc (pre ++ [(ind : Int) - 1]), valFunc (pre ++ [(ind : Int)]),
              interpAlpha rnd times t extrapolate with
            | .ok v0, .ok v1, .ok α => .ok (mixR rnd v0 v1 α)
            | .error e, _, _ => .error e
            | _, .error e, _ => .error e
            | _, _, .error e => .error e

/-- `Variable.at` in time for a variable with one slice per time, `gridded/variable.py:610-612`. -/
def atTimeR [DecidableEq K] (rnd : K → K) (times : List Int) (vals : List K) (t : Int)
    (extrapolate : Bool) : Except Err K :=
  timeInterpR rnd times (TimeInterp.sliceValue vals) [] t extrapolate

/-- `v0 + (v1 - v0) * d_alphas`, `gridded/variable.py:765-767`, at one point; a NaN weight gives NaN. -/
def blendAtR (rnd : K → K) (ents : List (Entry K)) (cols : List (List K)) (k : Int) (i : Nat) :
    Except Err (Nat × Option K) :=
  match valAt cols (k + 1) i, valAt cols k i with
  | .ok v1, .ok v0 => match ents[i]? with
    | some e => .ok (i, e.alpha.map fun a => mixR rnd v0 v1 a)
    | none => .error .indexError
  | .error e, _ => .error e
  | _, .error e => .error e

/-- The loop for data on levels, `gridded/variable.py:758-769`, as in `DepthInterp.levelLoop`. -/
def levelLoopR (rnd : K → K) (m : Nat) (ents : List (Entry K)) (cols : List (List K)) :
    List Int → Option (List Nat) × List (Cell K) → Except Err (Option (List Nat) × List (Cell K))
  | [], st => .ok st
  | k :: ks, (lay, out) =>
    if k = (m : Int) - 1 then
      match lay with
      | none => .error .unboundLocal
      | some l => match mapE (plainAt cols k) l with
        | .error e => .error e
        | .ok vs => levelLoopR rnd m ents cols ks (some l, putAll out vs)
    else
      match mapE (blendAtR rnd ents cols k) (groupOf ents k) with
      | .error e => .error e
      | .ok vs => levelLoopR rnd m ents cols ks (some (groupOf ents k), putAll out vs)

/-- `Variable._depth_interp`, `gridded/variable.py:731-770`. Data on layers are read without
arithmetic. -/
def depthInterpR (rnd : K → K) (m numLayers : Nat) (ents : List (Entry K)) (cols : List (List K)) :
    Except Err (List (Cell K)) :=
  let init : List (Cell K) := ents.map fun e => { value := none, masked := e.masked }
  if ents.all Entry.masked then .ok init
  else if m = numLayers then layerLoop ents cols (uniqIdx ents) init
  else match levelLoopR rnd m ents cols (uniqIdx ents) (none, init) with
    | .ok st => .ok st.2
    | .error e => .error e

/-- `L_Depth.interpolation_alphas` and `_depth_interp` (`gridded/depth.py:208-298`,
`gridded/variable.py:719-770`) for points at the depths `ds`; `cols` has, for each point, one value per
level. -/
def levelValuesR [LinearOrder K] (rnd : K → K) (levels : List K) (cols : List (List K)) (sbc bbc : BC)
    (ds : List K) : Except Err (List (Cell K)) :=
  match levelAlphas rnd levels (some levels.length) sbc bbc ds with
  | .error e => .error e
  | .ok ents => depthInterpR rnd levels.length (levels.length - 1) ents cols

/-- `a * b - c * d` with differences as factors, as in `gridded/pyugrid/ugrid.py:700-704`: four
differences, two products, one difference. -/
def crossR (rnd : K → K) (a a' b b' c c' d d' : K) : K :=
  rnd (rnd (rnd (a - a') * rnd (b - b')) - rnd (rnd (c - c') * rnd (d - d')))

/-- `denoms`, `gridded/pyugrid/ugrid.py:700`. -/
def denomR (rnd : K → K) (p q r : K × K) : K := crossR rnd r.2 p.2 q.1 p.1 r.1 p.1 q.2 p.2

/-- `alpha1s`, `gridded/pyugrid/ugrid.py:702`. -/
def num1R (rnd : K → K) (q r pt : K × K) : K := crossR rnd pt.2 r.2 r.1 q.1 pt.1 r.1 r.2 q.2

/-- `alpha2s`, `gridded/pyugrid/ugrid.py:703`. -/
def num2R (rnd : K → K) (p r pt : K × K) : K := crossR rnd pt.1 p.1 r.2 p.2 pt.2 p.2 r.1 p.1

/-- `alpha3s`, `gridded/pyugrid/ugrid.py:704`. -/
def num3R (rnd : K → K) (p q pt : K × K) : K := crossR rnd pt.2 p.2 q.1 p.1 pt.1 p.1 q.2 p.2

/-- One weight, `gridded/pyugrid/ugrid.py:705`; not finite for a zero denominator. -/
def divR [DecidableEq K] (rnd : K → K) (a b : K) : Option K :=
  if b = 0 then none else some (rnd (a / b))

/-- `np.sum(vals * pos_alphas, axis=1)`, `gridded/pyugrid/ugrid.py:797`, for one point: three
products, added from the left. -/
def sumR (rnd : K → K) (u v w a b c : K) : K :=
  rnd (rnd (rnd (u * a) + rnd (v * b)) + rnd (w * c))

/-- The value at a point of the triangle with vertices `p`, `q`, `r` and vertex values `u`, `v`, `w`,
`gridded/pyugrid/ugrid.py:694-705, 792-797`, for a point with a located face. Simplifies: the
look-ups of nodes and data are in `Model/UGeom.lean` (`interpNode`). -/
def triangleR [DecidableEq K] (rnd : K → K) (p q r : K × K) (u v w : K) (pt : K × K) : Option K :=
  let d := denomR rnd p q r
  match divR rnd (num1R rnd q r pt) d, divR rnd (num2R rnd p r pt) d,
    divR rnd (num3R rnd p q pt) d with
  | some a, some b, some c => some (sumR rnd u v w a b c)
  | _, _, _ => none

end

end Verif.Rounded
