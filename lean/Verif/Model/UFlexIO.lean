import Verif.Model.UTopo
import Verif.Model.UState

/-!
# Flexible meshes saved, loaded and compared

A masked face table keeps a number under every masked entry. `np.array_equal` looks at these numbers,
since it converts both tables to plain arrays first; reductions and the netCDF library do not.
-/

set_option autoImplicit false

namespace Verif.UFlexIO
open Verif

/-- An entry of a masked table: the number stored, and whether it is masked. -/
structure Entry where
  value : Int
  masked : Bool
deriving DecidableEq, Repr

/-- The entries that reductions see. -/
def seen (t : List (List Entry)) : List Int :=
  t.flatten.filterMap (fun e => if e.masked then none else some e.value)

/-- The `faces` setter, `gridded/pyugrid/ugrid.py:299-324`, on a masked table, for `n` nodes. The
reductions skip masked entries; if there are no others they give the masked constant, whose comparisons
count as false. The decrement does not touch masked entries. -/
def setFaces (n : Nat) (t : List (List Entry)) : Except Err (List (List Entry)) :=
  if t.flatten = [] then .error .valueError
  else match UTopo.maxL (seen t), UTopo.minL (seen t) with
  | some mx, some mn =>
    if (n : Int) < mx then .error .valueError
    else if mx = n then
      if 1 ≤ mn then
        .ok (t.map (fun r => r.map (fun e =>
          if !e.masked && decide (0 < e.value) then { e with value := e.value - 1 } else e)))
      else .error .valueError
    else if mn < -1 then .error .valueError
    else .ok t
  | _, _ => .ok t

/-- The number the netCDF library stores for a masked entry of a variable of 32-bit integers without a
fill value of its own. -/
def fill : Int := -2147483647

/-- `face_nodes[:] = self.faces`, `gridded/pyugrid/ugrid.py:1061-1068`: the numbers in the file. -/
def write (t : List (List Entry)) : List (List Int) :=
  t.map (fun r => r.map (fun e => if e.masked then fill else e.value))

/-- `var[:, :]`, `gridded/pyugrid/read_netcdf.py:215`: the library masks the fill value. -/
def readVar (t : List (List Int)) : List (List Entry) :=
  t.map (fun r => r.map (fun v => { value := v, masked := decide (v = fill) }))

/-- `array.T` of a rectangular table, line 219. -/
def transpose (t : List (List Entry)) : List (List Entry) :=
  (List.range (t.headD []).length).map (fun j => t.map (fun r => r.getD j { value := 0, masked := false }))

/-- Loading the faces of a saved mesh, `gridded/pyugrid/read_netcdf.py:207-236`: `save` writes
`start_index = 0` and no flag values. -/
def load (n : Nat) (file : List (List Int)) : Except Err (List (List Entry)) :=
  let a := readVar file
  setFaces n (if a.length = 3 then transpose a else a)

/-- A flexible mesh, by what `__eq__` looks at. -/
structure Mesh (K : Type) where
  nodes : List (K × K)
  faces : List (List Entry)
  boundaries : Option (List (Int × Int))
deriving DecidableEq

/-- The numbers of a masked table converted to a plain array. -/
def plain (t : List (List Entry)) : List (List Int) := t.map (fun r => r.map Entry.value)

/-- `__eq__`, `gridded/pyugrid/ugrid.py:219-232`, for two objects of one class. -/
def eqMesh {K : Type} [DecidableEq K] (g g' : Mesh K) : Bool :=
  decide (g.nodes = g'.nodes) && decide (plain g.faces = plain g'.faces) &&
    decide (g.boundaries = g'.boundaries)

/-- `build_face_coordinates`, `gridded/pyugrid/ugrid.py:946`. An index that is a masked array is used as
the plain array under the mask. -/
def buildCenters {K : Type} [Field K] (g : Mesh K) : Except Err (List (K × K)) :=
  UState.meanCoords g.nodes (some (plain g.faces))

end Verif.UFlexIO
