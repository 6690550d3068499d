import Verif.Model.TimeInterp
import Verif.Model.DepthInterp
import Verif.Model.UGeom
import Verif.Model.SInterp

/-!
# `Variable.at` as a whole, `gridded/variable.py:524-770`

The three stages (time, depth, horizontal) work on all points asked for at once, as in the program:
a stage is given the points it needs and calls the next one. An entry of a result array is a `Cell`
(value or NaN, and a mask flag). Arithmetic is exact.

Left out: the result cache (`Model/Cache.lean`), the arrangement of the points argument
(`Model/Util.lean`), and the order of dimensions (depth, time) (`Model/TimeInterp.lean`).
-/

set_option autoImplicit false

namespace Verif.At
open Verif.TimeM Verif.DepthM

section
variable {K P σ : Type} [Field K]

/-- `v0 + (v1 - v0) * a` on entries of masked arrays: masked if one of the operands is, NaN if one of
them is. -/
def mixCell (v0 v1 : Cell K) (a : Option K) : Cell K :=
  { value := match v0.value, v1.value, a with
      | some x, some y, some w => some (x + (y - x) * w)
      | _, _, _ => none
    masked := v0.masked || v1.masked }

/-- `Variable._time_interp` (`variable.py:681-694`) for a whole array: `val i` is what the next stage
gives for the points with the data of time index `i`. `index_of` is called without `extrapolate`
(line 687). -/
def timeStage [DecidableEq K] (times : List Int) (val : Int → Except Err (List (Cell K)))
    (t : Int) (extrapolate : Bool) : Except Err (List (Cell K)) :=
  match minTime times with
  | .error e => .error e
  | .ok lo =>
    if t = lo ∨ (extrapolate = true ∧ t < lo) then val 0
    else match maxTime times with
      | .error e => .error e
      | .ok hi =>
        if t = hi ∨ (extrapolate = true ∧ hi < t) then val (-1)
        else match indexOf times t false with
          | .error e => .error e
          | .ok ind =>
            match val ((ind : Int) - 1), val (ind : Int),
              interpAlpha (fun x => x) times t extrapolate with
            | .ok v0, .ok v1, .ok a => .ok (List.zipWith (fun x y => mixCell x y (some a)) v0 v1)
            | .error e, _, _ => .error e
            | _, .error e, _ => .error e
            | _, _, .error e => .error e

/-- `points[lay_idxs]`. -/
def pick (pts : List P) (l : List Nat) : List P := l.filterMap (fun i => pts[i]?)

/-- `values.put(lay_idxs, vals)`: the mask of `vals` is stored too. -/
def putCells (out : List (Cell K)) : List (Nat × Cell K) → List (Cell K)
  | [] => out
  | (i, c) :: t => putCells (out.set i c) t

/-- `d_alphas[i]`. -/
def alphaAt (ents : List (Entry K)) (i : Nat) : Option K := (ents[i]?).bind Entry.alpha

/-- The loop for data on levels (`variable.py:758-769`): `val k ps` is what the next stage gives at
the points `ps` with the data of level `k`. `lay_idxs` is carried from one turn to the next. -/
def levelCells (m : Nat) (ents : List (Entry K)) (val : Int → List P → Except Err (List (Cell K)))
    (pts : List P) :
    List Int → Option (List Nat) × List (Cell K) → Except Err (Option (List Nat) × List (Cell K))
  | [], st => .ok st
  | k :: ks, (lay, out) =>
    if k = (m : Int) - 1 then
      match lay with
      | none => .error .unboundLocal
      | some l => match val k (pick pts l) with
        | .error e => .error e
        | .ok vs => levelCells m ents val pts ks (some l, putCells out (l.zip vs))
    else
      let l := groupOf ents k
      match val (k + 1) (pick pts l), val k (pick pts l) with
      | .ok v1, .ok v0 =>
        let mixed := List.zipWith (fun (vv : Cell K × Cell K) i => mixCell vv.1 vv.2 (alphaAt ents i))
          (v0.zip v1) l
        levelCells m ents val pts ks (some l, putCells out (l.zip mixed))
      | .error e, _ => .error e
      | _, .error e => .error e

/-- The loop for data on layers (`variable.py:750-755`). -/
def layerCells (ents : List (Entry K)) (val : Int → List P → Except Err (List (Cell K)))
    (pts : List P) : List Int → List (Cell K) → Except Err (List (Cell K))
  | [], out => .ok out
  | k :: ks, out =>
    let idx : Int := if k = -1 then 0 else k
    let l := groupOf ents idx
    match val idx (pick pts l) with
    | .error e => .error e
    | .ok vs => layerCells ents val pts ks (putCells out (l.zip vs))

/-- What a depth object contributes: `interpolation_alphas` (for the time and the boundary conditions
of the query) and `num_layers`. -/
structure DepthSys (K P : Type) where
  numLayers : Nat
  alphas : List P → Except Err (List (Entry K))

/-- `Variable._depth_interp` (`variable.py:711-770`) on data with `m` levels or layers. -/
def depthStage (ds : DepthSys K P) (m : Nat) (val : Int → List P → Except Err (List (Cell K)))
    (pts : List P) : Except Err (List (Cell K)) :=
  match ds.alphas pts with
  | .error e => .error e
  | .ok ents =>
    let init : List (Cell K) := ents.map fun e => { value := none, masked := e.masked }
    if ents.all Entry.masked then .ok init
    else if m = ds.numLayers then layerCells ents val pts (uniqIdx ents) init
    else match levelCells m ents val pts (uniqIdx ents) (none, init) with
      | .ok st => .ok st.2
      | .error e => .error e

/-- The data of a variable by its order of dimensions (`variable.py:478-519`); `σ` is one horizontal
slice. -/
inductive Data (σ : Type) where
  | timeDepth (d : List (List σ))
  | time (d : List σ)
  | depth (d : List σ)
  | flat (d : σ)

/-- `self.data[slices]` for a time and a depth index. -/
def slice2 (d : List (List σ)) (i k : Int) : Except Err σ :=
  match Np.pyGet d i with
  | .error e => .error e
  | .ok r => Np.pyGet r k

/-- `self.data[slices]` followed by `grid.interpolate_var_to_points` (`variable.py:648-656`). -/
def withSlice (xy : σ → List P → Except Err (List (Cell K))) (s : Except Err σ) (ps : List P) :
    Except Err (List (Cell K)) :=
  match s with
  | .error e => .error e
  | .ok s => xy s ps

/-- The evaluation in `Variable.at` (`variable.py:610-616`): the stage of the first dimension, which
calls the next one. `xy` interpolates one slice horizontally. -/
def eval [DecidableEq K] (xy : σ → List P → Except Err (List (Cell K))) (times : List Int)
    (ds : DepthSys K P) (d : Data σ) (pts : List P) (t : Int) (extrapolate : Bool) :
    Except Err (List (Cell K)) :=
  match d with
  | .timeDepth d => timeStage times
      (fun i => depthStage ds (d.headD []).length (fun k ps => withSlice xy (slice2 d i k) ps) pts)
      t extrapolate
  | .time d => timeStage times (fun i => withSlice xy (Np.pyGet d i) pts) t extrapolate
  | .depth d => depthStage ds d.length (fun k ps => withSlice xy (Np.pyGet d k) ps) pts
  | .flat s => xy s pts

end

/-! ## The horizontal stages and the depths -/

section
variable {K : Type} [Field K] [LinearOrder K]

/-- A point asked for on an unstructured grid: the face the cell tree found (-1 for none), the
position and the depth. -/
structure UPt (K : Type) where
  face : Int
  pos : K × K
  z : K

/-- Horizontal stage on an unstructured grid; the results are plain arrays. Data on boundaries give
`None`, on which the next operation fails (`AttributeError` at `reshape`). -/
def xyU (m : UGeom.Mesh K) (loc : UGeom.Loc) (data : List (Option K)) (ps : List (UPt K)) :
    Except Err (List (Cell K)) :=
  match UGeom.interpolate m loc data (ps.map fun p => (p.face, p.pos)) with
  | .error e => .error e
  | .ok none => .error .attributeError
  | .ok (some vs) => .ok (vs.map fun v => { value := v, masked := false })

/-- A point asked for on a structured grid: its cell, if any, the position and the depth. -/
structure SPt (K : Type) where
  cell : Option (Int × Int)
  pos : K × K
  z : K

/-- Horizontal stage on a structured grid; points off the grid are masked. -/
def xyS (sqrt : K → K) (g : SInterp.Grid K) (loc : Option SIndex.Loc)
    (data : List (List (SInterp.MV K))) (ps : List (SPt K)) : Except Err (List (Cell K)) :=
  match SInterp.interpolate sqrt g loc false data (ps.map fun p => (p.pos, p.cell)) with
  | .error e => .error e
  | .ok vs => .ok (vs.map fun v => { value := v, masked := v.isNone })

/-- Level depths (`L_Depth`): asked with the shape `(num_levels,)` (`variable.py:722`); `num_layers`
is one less than the levels (`depth.py:206-207`). -/
def levelSys {P : Type} (z : P → K) (levels : List K) (sbc bbc : BC) : DepthSys K P where
  numLayers := levels.length - 1
  alphas := fun pts => levelAlphas (fun x => x) levels (some levels.length) sbc bbc (pts.map z)

end

end Verif.At
