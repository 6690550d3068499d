import Verif.Model.At
import Verif.Model.Rounded

/-!
# `Variable.at` as a whole with every floating-point operation rounded

The code of `Model/At.lean` with each operation on floating-point numbers passed through `rnd`.
Comparisons, the location of points, indices and masks involve no rounding. With the identity for
`rnd` these are the definitions of `Model/At.lean` (`evalR_exact`). Overflow and underflow are not
modelled.
-/

set_option autoImplicit false

namespace Verif.RoundedAt
open Verif.TimeM Verif.DepthM Verif.At Verif.Rounded

section
variable {K P σ : Type} [Field K]

/-- `v0 + (v1 - v0) * a` on entries of masked arrays, `gridded/variable.py:694, 767`. -/
def mixCellR (rnd : K → K) (v0 v1 : Cell K) (a : Option K) : Cell K :=
  { value := match v0.value, v1.value, a with
      | some x, some y, some w => some (mixR rnd x y w)
      | _, _, _ => none
    masked := v0.masked || v1.masked }

/-- `Variable._time_interp`, `gridded/variable.py:681-694`. -/
def timeStageR [DecidableEq K] (rnd : K → K) (times : List Int)
    (val : Int → Except Err (List (Cell K))) (t : Int) (extrapolate : Bool) :
    Except Err (List (Cell K)) :=
  match minTime times with
  | .error e => .error e
  | .ok lo =>
    if t = lo ∨ (extrapolate = true ∧ t < lo) then val 0
    else match maxTime times with
      | .error e => .error e
      | .ok hi =>
        if t = hi ∨ (extrapolate = true ∧ hi < t) then val (-1)
        else match indexOf times t false with
          | .error e => .error e
          | .ok ind =>
            match val ((ind : Int) - 1), val (ind : Int), interpAlpha rnd times t extrapolate with
            | .ok v0, .ok v1, .ok a => .ok (List.zipWith (fun x y => mixCellR rnd x y (some a)) v0 v1)
            | .error e, _, _ => .error e
            | _, .error e, _ => .error e
            | _, _, .error e => .error e

/-- The loop for data on levels, `gridded/variable.py:758-769`. -/
def levelCellsR (rnd : K → K) (m : Nat) (ents : List (Entry K))
    (val : Int → List P → Except Err (List (Cell K))) (pts : List P) :
    List Int → Option (List Nat) × List (Cell K) → Except Err (Option (List Nat) × List (Cell K))
  | [], st => .ok st
  | k :: ks, (lay, out) =>
    if k = (m : Int) - 1 then
      match lay with
      | none => .error .unboundLocal
      | some l => match val k (pick pts l) with
        | .error e => .error e
        | .ok vs => levelCellsR rnd m ents val pts ks (some l, putCells out (l.zip vs))
    else
      let l := groupOf ents k
      match val (k + 1) (pick pts l), val k (pick pts l) with
      | .ok v1, .ok v0 =>
        let mixed := List.zipWith
          (fun (vv : Cell K × Cell K) i => mixCellR rnd vv.1 vv.2 (alphaAt ents i)) (v0.zip v1) l
        levelCellsR rnd m ents val pts ks (some l, putCells out (l.zip mixed))
      | .error e, _ => .error e
      | _, .error e => .error e

/-- `Variable._depth_interp`, `gridded/variable.py:711-770`. The rounding of the weights is in the
depth object `ds`. -/
def depthStageR (rnd : K → K) (ds : DepthSys K P) (m : Nat)
    (val : Int → List P → Except Err (List (Cell K))) (pts : List P) : Except Err (List (Cell K)) :=
  match ds.alphas pts with
  | .error e => .error e
  | .ok ents =>
    let init : List (Cell K) := ents.map fun e => { value := none, masked := e.masked }
    if ents.all Entry.masked then .ok init
    else if m = ds.numLayers then layerCells ents val pts (uniqIdx ents) init
    else match levelCellsR rnd m ents val pts (uniqIdx ents) (none, init) with
      | .ok st => .ok st.2
      | .error e => .error e

/-- The evaluation in `Variable.at`, `gridded/variable.py:610-616`. -/
def evalR [DecidableEq K] (rnd : K → K) (xy : σ → List P → Except Err (List (Cell K)))
    (times : List Int) (ds : DepthSys K P) (d : Data σ) (pts : List P) (t : Int)
    (extrapolate : Bool) : Except Err (List (Cell K)) :=
  match d with
  | .timeDepth d => timeStageR rnd times
      (fun i => depthStageR rnd ds (d.headD []).length (fun k ps => withSlice xy (slice2 d i k) ps) pts)
      t extrapolate
  | .time d => timeStageR rnd times (fun i => withSlice xy (Np.pyGet d i) pts) t extrapolate
  | .depth d => depthStageR rnd ds d.length (fun k ps => withSlice xy (Np.pyGet d k) ps) pts
  | .flat s => xy s pts

end

section
variable {K : Type} [Field K] [LinearOrder K]

/-- A rounded product of floats; not finite if a factor is not. -/
def fmulR (rnd : K → K) (a b : Option K) : Option K :=
  match a, b with
  | some x, some y => some (rnd (x * y))
  | _, _ => none

/-- A rounded sum of floats. -/
def faddR (rnd : K → K) (a b : Option K) : Option K :=
  match a, b with
  | some x, some y => some (rnd (x + y))
  | _, _ => none

/-- The three weights of a point, `gridded/pyugrid/ugrid.py:694-707`. -/
def alphasR (rnd : K → K) (ind : Int) (p q r pt : K × K) : Option K × Option K × Option K :=
  let d := denomR rnd p q r
  let a := (divR rnd (num1R rnd q r pt) d, divR rnd (num2R rnd p r pt) d, divR rnd (num3R rnd p q pt) d)
  if ind = -1 then (fmulR rnd a.1 (some 0), fmulR rnd a.2.1 (some 0), fmulR rnd a.2.2 (some 0)) else a

/-- One point of `interpolate_var_to_points` for data on the faces,
`gridded/pyugrid/ugrid.py:780-783`. -/
def interpFaceR (rnd : K → K) (data : List (Option K)) (ind : Int) : Except Err (Option K) :=
  match Np.pyGet data ind with
  | .error e => .error e
  | .ok v => .ok (if ind = -1 then fmulR rnd v (some 0) else v)

/-- One point of `interpolate_var_to_points` for data on the nodes,
`gridded/pyugrid/ugrid.py:786-797`; the products are added from the left. -/
def interpNodeR (rnd : K → K) (m : UGeom.Mesh K) (data : List (Option K)) (ind : Int) (pt : K × K) :
    Except Err (Option K) :=
  match Np.pyGet m.faces ind with
  | .error e => .error e
  | .ok [a, b, c] =>
    match Np.pyGet m.nodes a, Np.pyGet m.nodes b, Np.pyGet m.nodes c with
    | .ok p, .ok q, .ok r =>
      match Np.pyGet data a, Np.pyGet data b, Np.pyGet data c with
      | .ok u, .ok v, .ok w =>
        let z := fun x : Option K => if ind = -1 then fmulR rnd x (some 0) else x
        let al := alphasR rnd ind p q r pt
        .ok (faddR rnd (faddR rnd (fmulR rnd (z u) al.1) (fmulR rnd (z v) al.2.1))
          (fmulR rnd (z w) al.2.2))
      | _, _, _ => .error .indexError
    | _, _, _ => .error .indexError
  | .ok _ => .error .valueError

/-- `interpolate_var_to_points`, `gridded/pyugrid/ugrid.py:777-797`, as the horizontal stage. -/
def xyUR (rnd : K → K) (m : UGeom.Mesh K) (loc : UGeom.Loc) (data : List (Option K))
    (ps : List (UPt K)) : Except Err (List (Cell K)) :=
  match loc with
  | .face => match mapE (fun p : UPt K => interpFaceR rnd data p.face) ps with
    | .error e => .error e
    | .ok vs => .ok (vs.map fun v => { value := v, masked := false })
  | .node => match mapE (fun p : UPt K => interpNodeR rnd m data p.face p.pos) ps with
    | .error e => .error e
    | .ok vs => .ok (vs.map fun v => { value := v, masked := false })
  | .boundary => .error .attributeError

/-- Level depths with rounded weights, `gridded/depth.py:208-298`. -/
def levelSysR {P : Type} (rnd : K → K) (z : P → K) (levels : List K) (sbc bbc : BC) :
    DepthSys K P where
  numLayers := levels.length - 1
  alphas := fun pts => levelAlphas rnd levels (some levels.length) sbc bbc (pts.map z)

end

end Verif.RoundedAt
