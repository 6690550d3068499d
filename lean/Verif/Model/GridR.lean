import Verif.Model.Np
import Mathlib.Algebra.Order.Field.Basic

/-!
# Rectangular grids, `Grid_R` (`gridded/grids.py:236-468`) and the search for node coordinates
(`GridBase._find_required_grid_attrs`, `gridded/grids.py:36-87`)

Coordinates are elements of a linear order (no NaN). The interpolator of scipy is a parameter.
-/

set_option autoImplicit false

namespace Verif.GridR
open Verif

section
variable {α : Type*} [LinearOrder α]

/-- One coordinate of `locate_faces` (`grids.py:329-338`): `np.digitize(x, axis) - 1`, and −1 for
the last node. -/
def axisIndex (axis : List α) (x : α) : Except Err Int :=
  match Np.digitize x axis false with
  | .error e => .error e
  | .ok d =>
    let n : Int := (d : Int) - 1
    .ok (if n = (axis.length : Int) - 1 then -1 else n)

/-- `Grid_R.locate_faces` (`grids.py:308-347`) for one point `(lon, lat)`: the pair
`(lon index, lat index)`; if one is −1 the other becomes −1 (lines 341-342, in this order). -/
def locate (lon lat : List α) (p : α × α) : Except Err (Int × Int) :=
  match axisIndex lon p.1 with
  | .error e => .error e
  | .ok i =>
    match axisIndex lat p.2 with
    | .error e => .error e
    | .ok j =>
      let i' := if j = -1 then -1 else i
      .ok (i', if i' = -1 then -1 else j)

end

/-- `center_lon`, `center_lat` (`grids.py:296-302`). -/
def centers {K : Type*} [Field K] (axis : List K) : List K :=
  List.zipWith (fun a b => (a + b) / 2) axis axis.tail

/-- The parts of a rectangular grid: axes, the two dimension names `[y, x]`, and whether one array
object serves as both axes. -/
structure Grid (K : Type*) where
  lon : List K
  lat : List K
  dims : String × String
  sameObject : Bool := false

/-- The parts of a variable: its values, a list of rows, and the names of its last two dimensions
if it has a `dimensions` attribute. Leading dimensions are left out. -/
structure Var (K : Type*) where
  values : List (List K)
  dims : Option (String × String)

section
variable {K : Type*}

/-- The shape of the values. -/
def Var.shape (v : Var K) : Nat × Nat := (v.values.length, (v.values.headD []).length)

/-- `lonlat_to_yx` (`grids.py:349-388`): whether the pair `(lat, lon)` is reversed. -/
def swapped (g : Grid K) (v : Var K) : Except Err Bool :=
  let sizes := [g.lat.length, g.lon.length]
  match v.dims with
  | some (d0, d1) =>
    if ¬ (d0 ∈ [g.dims.1, g.dims.2] ∧ d1 ∈ [g.dims.1, g.dims.2]) then .error .valueError
    else if ¬ (v.shape.1 ∈ sizes ∧ v.shape.2 ∈ sizes) then .error .valueError
    else .ok (decide (d0 = g.dims.2))
  | none =>
    if ¬ (v.shape.1 ∈ sizes ∧ v.shape.2 ∈ sizes) then .error .valueError
    else if v.shape.1 = v.shape.2 then .error .valueError
    else .ok (decide (v.shape.1 = g.lon.length))

/-- `interpolate_var_to_points` (`grids.py:390-442`) for one point `(lon, lat)`, without slices.
`interp` is scipy's `RegularGridInterpolator((y, x), values)` at a point given in the order of the
axes. The test `y is self.node_lon` compares objects. -/
def interpolate {R : Type*} (interp : List K → List K → List (List K) → K × K → Except Err R)
    (g : Grid K) (v : Var K) (p : K × K) : Except Err R :=
  match swapped g v with
  | .error e => .error e
  | .ok s =>
    let y := if s then g.lon else g.lat
    let x := if s then g.lat else g.lon
    if s || g.sameObject then interp y x v.values p else interp y x v.values (p.2, p.1)

end

/-- `infer_location` (`grids.py:444-468`): the shape of the last two dimensions of the data, and
its `location` attribute if there is one. `Grid_R` has no attributes `edge1_lon`, `edge2_lon`. -/
def inferLocation (nlat nlon : Nat) (location : Option String) (shape : Nat × Nat) :
    Except Err (Option String) :=
  match location with
  | some s => .ok (some s)
  | none =>
    let d : Int × Int := ((shape.1 : Int) - nlat, (shape.2 : Int) - nlon)
    if d = (1, 1) ∨ d = (-1, -1) then .ok (some "center")
    else if d = (1, 0) then .error .attributeError
    else if d = (0, 1) then .error .attributeError
    else if d = (0, 0) then .ok (some "node")
    else .ok none

/-! ## Finding node coordinates -/

/-- What a file variable holds: a vector, or a table of coordinate pairs. -/
inductive Data (K : Type*) where
  | vec (xs : List K)
  | pairs (ps : List (K × K))
  deriving DecidableEq, Repr

/-- `dict([(k.lower(), v) for k, v in ...])[name]` (`grids.py:53`): of names that agree up to case
the last wins. -/
def lowerGet {V : Type*} (file : List (String × V)) (name : String) : Option V :=
  (file.reverse.find? (fun kv => kv.1.toLower == name)).map (·.2)

/-- `node_coord_names` (`grids.py:58`). -/
def coordNames : List (String × String) :=
  [("node_lon", "node_lat"), ("lon", "lat"), ("lon_psi", "lat_psi"), ("longitude", "latitude")]

/-- The first candidate pair both of whose names are in the file (`grids.py:61-67`). -/
def findPair {V : Type*} (file : List (String × V)) : List (String × String) → Option (V × V)
  | [] => none
  | (a, b) :: t =>
    match lowerGet file a, lowerGet file b with
    | some x, some y => some (x, y)
    | _, _ => findPair file t

/-- The coordinates found so far; attributes not set are `none`. -/
structure Found (V : Type*) where
  lon : Option V := none
  lat : Option V := none
  deriving DecidableEq, Repr

/-- The two columns of `gf_vars[n][:].reshape(-1, 2)`. -/
def columns {K : Type*} : Data K → Except Err (Found (List K))
  | .pairs ps => .ok ⟨some (ps.map Prod.fst), some (ps.map Prod.snd)⟩
  | .vec _ => .error .notImplemented

/-- The vector of a variable. -/
def vector {K : Type*} : Data K → Except Err (List K)
  | .vec xs => .ok xs
  | .pairs _ => .error .notImplemented

/-- The loop over a given topology (`grids.py:79-85`): note `gf_vars[n]` in the composite case, the
name of the attribute and not the variable it names. -/
def fromTopology {K : Type*} (file : List (String × Data K)) :
    List (String × String) → Found (List K) → Except Err (Found (List K))
  | [], acc => .ok acc
  | (n, v) :: t, acc =>
    if n = "node_lon" ∨ n = "node_lat" then
      match lowerGet file v with
      | none => .error .keyError
      | some d =>
        match vector d with
        | .error e => .error e
        | .ok xs => fromTopology file t
            (if n = "node_lon" then { acc with lon := some xs } else { acc with lat := some xs })
    else if n = "nodes" ∨ n = "node" then
      match lowerGet file n with
      | none => .error .keyError
      | some d =>
        match columns d with
        | .error e => .error e
        | .ok f => fromTopology file t f
    else fromTopology file t acc

/-- `_find_required_grid_attrs` (`grids.py:36-87`), the node coordinates. -/
def nodeCoords {K : Type*} (file : List (String × Data K)) (topology : Option (List (String × String))) :
    Except Err (Found (List K)) :=
  match topology with
  | some t => fromTopology file t {}
  | none =>
    match findPair file coordNames with
    | some (x, y) =>
      match vector x with
      | .error e => .error e
      | .ok xs =>
        match vector y with
        | .error e => .error e
        | .ok ys => .ok ⟨some xs, some ys⟩
    | none =>
      match lowerGet file "nodes" with
      | some d => columns d
      | none =>
        match lowerGet file "node" with
        | some d => columns d
        | none => .error .valueError

end Verif.GridR
