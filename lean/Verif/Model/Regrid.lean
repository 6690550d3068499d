import Verif.Model.DepthInterp

/-!
# `regrid_variable` (`gridded/utilities.py:83-192`)

The evaluation of the source variable (`Variable.at`, `Model/At.lean`) is a parameter.
-/

set_option autoImplicit false

namespace Verif.Regrid
open Verif Verif.DepthM

/-- The three classes of grids. -/
inductive Kind where
  | u
  | s
  | r
  deriving DecidableEq, Repr

section
variable {K P : Type}

/-- The grid to interpolate to. `nodeCount` is the size of `node_lon`. `centers` are the centers of a
structured or rectangular grid; `faceCoordinates` those of an unstructured grid, if set, and
`builtFaces` what `build_face_coordinates` computes. -/
structure Dest (P : Type) where
  kind : Kind
  nodes : List P
  nodeCount : Nat
  centers : List P
  faceCoordinates : Option (List P)
  builtFaces : List P

/-- The depth of the source variable: none, sigma coordinates with `len` levels (level depths at a
level, time and point of the destination, `utilities.py:151-159`), or another depth object, which has no
length. -/
inductive SrcDepth (K P : Type) where
  | none
  | sigma (levels : Nat) (levelDepth : Nat → Int → P → Cell K)
  | other

/-- The source variable: the class of its grid, its times, its depth and `at`, which takes points with
a depth. -/
structure Source (K P : Type) where
  kind : Kind
  times : Option (List Int)
  depth : SrcDepth K P
  eval : List (P × Option K) → Option Int → Except Err (List (Cell K))

/-- The data of the new variable. -/
inductive NewData (K : Type) where
  | flat (d : List (Cell K))
  | times (d : List (List (Cell K)))
  | timesLevels (d : List (List (List (Cell K))))
  deriving DecidableEq

/-- `dest_points` (`utilities.py:106-115`). Other names leave `None`, whose `reshape` fails. A `Grid_U`
has no attribute `centers`. -/
def destPoints (g : Dest P) (location : String) : Except Err (List P) :=
  if location = "node" then .ok g.nodes
  else if location = "face" ∨ location = "center" then
    match g.kind with
    | .u => match g.faceCoordinates with
      | none => .ok g.builtFaces
      | some _ => .error .attributeError
    | _ => .ok g.centers
  else .error .attributeError

/-- `o_var.grid.locate_faces(dest_points, "node")` (`utilities.py:118-123`): the second argument is the
method of an unstructured grid and does not exist for a rectangular one. The entries a structured grid
does not locate are masked, so the test for -1 is never true. A result cached by an unstructured grid is
left out. -/
def locate (k : Kind) : Except Err Unit :=
  match k with
  | .u => .error .valueError
  | .r => .error .typeError
  | .s => .ok ()

/-- Assignment into the plain array `n_data` (`utilities.py:143,159,161`): the mask is lost. -/
def plain (c : Cell K) : Cell K := { c with masked := false }

/-- `x.reshape(location_shp)` (`utilities.py:144`). -/
def reshaped (g : Dest P) (d : List (Cell K)) : Except Err (List (Cell K)) :=
  if d.length = g.nodeCount then .ok d else .error .valueError

/-- `o_var.at(pts, t).reshape(location_shp)`. -/
def evalAt (g : Dest P) (v : Source K P) (pts : List (P × Option K)) (t : Option Int) :
    Except Err (List (Cell K)) :=
  match v.eval pts t with
  | .error e => .error e
  | .ok d => reshaped g d

/-- One row of `n_data`. -/
def rowAt (g : Dest P) (v : Source K P) (pts : List (P × Option K)) (t : Int) :
    Except Err (List (Cell K)) :=
  match evalAt g v pts (some t) with
  | .error e => .error e
  | .ok d => .ok (d.map plain)

/-- The loop over times and levels (`utilities.py:146-163`) on the destination points. `zero` is the
depth the points have at first. -/
def fill (zero : K) (g : Dest P) (v : Source K P) (pts : List P) : Except Err (NewData K) :=
  match v.times with
  | none => match evalAt g v (pts.map fun p => (p, some zero)) none with
    | .error e => .error e
    | .ok d => .ok (.flat d)
  | some ts =>
    match v.depth with
    | .sigma n z =>
      match mapE (fun t : Int => mapE (fun k : Nat =>
          rowAt g v (pts.map fun p => (p, (z k t p).value)) t) (List.range n)) ts with
      | .error e => .error e
      | .ok d => .ok (.timesLevels d)
    | _ =>
      match mapE (fun t : Int => rowAt g v (pts.map fun p => (p, some zero)) t) ts with
      | .error e => .error e
      | .ok d => .ok (.times d)

/-- `regrid_variable` (`utilities.py:83-167`). `regridDepth` is the outcome of regridding bathymetry and
zeta (`utilities.py:170-192`). For a structured grid `_get_grid_vars` knows nodes and centers
(`sgrid.py:500-510`); other grids have no such method. A depth object without length fails at `len`. -/
def regrid (zero : K) (g : Dest P) (v : Source K P) (regridDepth : Except Err Unit)
    (location : String) : Except Err (NewData K) :=
  match destPoints g location with
  | .error e => .error e
  | .ok pts =>
    match locate v.kind with
    | .error e => .error e
    | .ok _ =>
      match (match v.depth with
        | .sigma _ _ => regridDepth
        | _ => .ok ()) with
      | .error e => .error e
      | .ok _ =>
        match g.kind with
        | .s =>
          if location = "node" ∨ location = "center" then
            match v.depth with
            | .other => .error .typeError
            | _ => fill zero g v pts
          else .error .valueError
        | _ => .error .attributeError

end

end Verif.Regrid
