import Verif.Model.GridType
import Verif.Model.UConstruct
import Verif.Model.Evaluate

/-!
# From a file to a value

`Variable.from_netCDF` (`gridded/variable.py:220-296`) finds the grid by `Grid.from_netCDF`, which for
an unstructured grid looks up the parts (`gridded/grids.py:31-152`) and calls the constructor
(`gridded/pyugrid/ugrid.py:44-155`). Here these steps are put together with the evaluation of the
variable. The parts are modelled in `GridType`, `UConstruct`, `Evaluate` and `At`. The second half does the same
for structured grids (`gridded/grids.py:155-233`, `gridded/pysgrid/sgrid.py:30-152`), with `SIndex` and
`SInterp`.

Left out: the location of the data, which is at the nodes here (stated in the file, or by its size,
C35); the time axis is that of C133. Faces of other than two dimensions are refused here.
-/

set_option autoImplicit false

namespace Verif.FileEval
open Verif.Util (Arr)
open Verif.GridType (File findU)
open Verif.Cache (lookup)
open Verif.At Verif.Evaluate
open Verif.DepthM (Cell)

section
variable {K : Type}

/-- `np.asanyarray(faces, dtype=IND_DT)` (`ugrid.py:299`) of an array by rows; `whole` is the
conversion of one number. -/
def tableOf (whole : K → Int) (a : Arr K) : Except Err UConstruct.Table :=
  match a.shape with
  | [r, c] => .ok ((List.range r).map fun i => (List.range c).map fun j =>
      ((a.data[i * c + j]?).map whole).getD 0)
  | _ => .error .valueError

/-- `cls(**init_args)` (`grids.py:31-45`) with the arguments found for an unstructured grid. -/
def makeU (whole : K → Int) (init : GridType.Args K) : Except Err (UIO.UGrid K) :=
  match lookup init "faces" with
  | none => UConstruct.construct { nodeLon := (lookup init "node_lon").map Arr.data,
                                   nodeLat := (lookup init "node_lat").map Arr.data }
  | some a => match tableOf whole a with
    | .error e => .error e
    | .ok t => UConstruct.construct { nodeLon := (lookup init "node_lon").map Arr.data,
                                      nodeLat := (lookup init "node_lat").map Arr.data,
                                      faces := some t }

end

section
variable {K : Type} [Field K] [LinearOrder K]

/-- `Grid_U.from_netCDF` (`grids.py:31-45`) on an open file without a given topology. -/
def loadU (whole : K → Int) (f : File K) : Except Err (UIO.UGrid K) :=
  match findU f none with
  | .error e => .error e
  | .ok (init, _) => makeU whole init

/-- What the interpolation looks at (`ugrid.py:640-793`). -/
def meshOf (g : UIO.UGrid K) : UGeom.Mesh K := ⟨g.nodes, g.faces.getD []⟩

/-- The horizontal stage on a grid, for data at the nodes. -/
def xyFor (g : UIO.UGrid K) : Rest (List (Option K)) → List (UPt K) → Except Err (List (Cell K))
  | .slice s, ps => xyU (meshOf g) .node s ps
  | .other, _ => .error .valueError

/-! ## Structured grids -/

/-- An array of two dimensions by its rows. -/
def rowsOf (a : Arr K) : Except Err (List (List K)) :=
  match a.shape with
  | [r, c] => .ok ((List.range r).map fun i => (a.data.drop (i * c)).take c)
  | _ => .error .indexError

/-- The sizes of an array of two dimensions. -/
def sizesOf (a : Arr K) : Option (Nat × Nat) :=
  match a.shape with
  | [r, c] => some (r, c)
  | _ => none

/-- The sizes that paddings are computed from. -/
def shapesOf (init : GridType.Args K) (r c : Nat) : SIndex.Shapes where
  node := (r, c)
  center := (lookup init "center_lon").bind sizesOf
  edge1 := (lookup init "edge1_lon").bind sizesOf
  edge2 := (lookup init "edge2_lon").bind sizesOf

/-- `SGrid(**init_args)` (`sgrid.py:30-152`), as far as interpolation looks at it. Paddings are
computed when they are asked for; one that cannot be computed is refused then. The mask of the
centers is what `maskedOf` reads from its values. Longitudes of other than two dimensions, which a
structured grid accepts until they are indexed, are refused here. -/
def makeS (maskedOf : Arr K → List (List Bool)) (init : GridType.Args K) :
    Except Err (SInterp.Grid K) :=
  match lookup init "node_lon", lookup init "node_lat" with
  | some x, some y => match rowsOf x, rowsOf y with
    | .ok lon, .ok lat =>
      .ok { lon := lon, lat := lat,
            pads := fun loc => match SIndex.paddingAt
                (shapesOf init lon.length (lon.headD []).length) loc with
              | .ok p => p
              | .error _ => (.other, .other),
            centerMask := (lookup init "center_mask").map maskedOf,
            behavior := "zero" }
    | .error e, _ => .error e
    | _, .error e => .error e
  | _, _ => .error .keyError

/-- `Grid_S.from_netCDF` (`grids.py:31-45`) on an open file without a given topology. -/
def loadS (maskedOf : Arr K → List (List Bool)) (f : File K) : Except Err (SInterp.Grid K) :=
  match GridType.findS f none with
  | .error e => .error e
  | .ok (init, _) => makeS maskedOf init

/-- The horizontal stage on a structured grid, for data at the nodes. -/
def xyForS (sqrt : K → K) (g : SInterp.Grid K) :
    Rest (List (List (SInterp.MV K))) → List (SPt K) → Except Err (List (Cell K))
  | .slice s, ps => xyS sqrt g (some .node) s ps
  | .other, _ => .error .valueError

end

end Verif.FileEval
