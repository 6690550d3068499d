import Verif.Model.UTopo
import Verif.Model.Depth

/-!
# Saving and loading an unstructured grid

`UGrid.save` (`gridded/pyugrid/ugrid.py:992-1151`), `load_grid_from_nc_dataset`
(`gridded/pyugrid/read_netcdf.py:109-238`) and `load_from_varnames`
(`gridded/pyugrid/grid_io/utils.py:19-114`) over an abstract netCDF file: a list of named variables
with attributes. Numbers are stored as they are (`IND_DT`, `NODE_DT`). A table is a rectangular list
of rows.

Simplifications. Names `<mesh>_face_nodes` and so on are the values of `Name`; they differ from each
other for every mesh name. Masked face tables and tables without rows are not modelled. Saved data
variables (`_save_variables`) are not modelled here.
-/

set_option autoImplicit false

namespace Verif.UIO
open Verif

/-- Where coordinates belong. -/
inductive Loc where
  | node
  | face
  | edge
  | boundary
  deriving DecidableEq, Repr

/-- Names of variables: the mesh variable, the connectivity tables, and
`<mesh>_<location>_<lon|lat>`; `other` is any name not made by `save`. -/
inductive Name where
  | mesh
  | faceNodes
  | edgeNodes
  | boundaryNodes
  | faceLinks
  | faceEdges
  | lon (l : Loc)
  | lat (l : Loc)
  | other (n : Nat)
  deriving DecidableEq, Repr

/-- Attributes of a mesh variable that name other variables. -/
inductive Role where
  | coordinates (l : Loc)
  | faceNode
  | faceFace
  | faceEdge
  | boundaryNode
  | edgeNode
  deriving DecidableEq, Repr

/-- A netCDF variable: the attributes that are looked at, and its data. -/
structure Var (K : Type) where
  cfRole : Option String := none
  topologyDimension : Option Int := none
  refs : List (Role × List Name) := []
  standardName : Option String := none
  units : Option String := none
  startIndex : Option Int := none
  flagValue : Option Int := none
  table : List (List Int) := []
  values : List K := []

/-- The variables of a file. -/
abbrev NC (K : Type) := List (Name × Var K)

/-- A grid. `None` attributes are `none`. -/
structure UGrid (K : Type) where
  nodes : List (K × K)
  faces : Option (List (List Int)) := none
  edges : Option (List (List Int)) := none
  boundaries : Option (List (List Int)) := none
  faceFace : Option (List (List Int)) := none
  faceEdge : Option (List (List Int)) := none
  faceCoords : Option (List (K × K)) := none
  edgeCoords : Option (List (K × K)) := none
  boundaryCoords : Option (List (K × K)) := none
  deriving DecidableEq

section
variable {K : Type}

/-! ## `save` -/

/-- The mesh variable, lines 1025-1056. Note that the connectivity attributes are written for
connectivity that is not saved, and no attribute is written for boundary coordinates. -/
def meshVar (g : UGrid K) : Var K :=
  { cfRole := some "mesh_topology", topologyDimension := some 2,
    refs := [(.coordinates .node, [.lon .node, .lat .node])] ++
      (if g.edges.isSome then
        [(.edgeNode, [.edgeNodes])] ++
          (if g.edgeCoords.isSome then [(.coordinates .edge, [.lon .edge, .lat .edge])] else [])
       else []) ++
      (if g.faces.isSome then
        [(.faceNode, [.faceNodes])] ++
          (if g.faceCoords.isSome then [(.coordinates .face, [.lon .face, .lat .face])] else [])
       else []) ++
      (if g.faceEdge.isSome then [(.faceEdge, [.faceEdges])] else []) ++
      (if g.faceFace.isSome then [(.faceFace, [.faceLinks])] else []) ++
      (if g.boundaries.isSome then [(.boundaryNode, [.boundaryNodes])] else []) }

/-- A connectivity variable, lines 1060-1098. -/
def tableVar (role : String) (name : Name) (t : Option (List (List Int))) : NC K :=
  match t with
  | some rows => [(name, { cfRole := some role, startIndex := some 0, table := rows })]
  | none => []

/-- The two coordinate variables of a location, lines 1100-1121 and 1123-1146. -/
def coordVars (l : Loc) (cs : List (K × K)) : NC K :=
  [(.lat l, { standardName := some "latitude", units := some "degrees_north",
              values := cs.map Prod.snd }),
   (.lon l, { standardName := some "longitude", units := some "degrees_east",
              values := cs.map Prod.fst })]

/-- Optional coordinates: their dimension must exist (`createVariable` raises `KeyError` for an
unknown dimension) and have their length. -/
def optCoords (l : Loc) (dim : Option Nat) (cs : Option (List (K × K))) : Except Err (NC K) :=
  match cs with
  | none => .ok []
  | some c => match dim with
    | none => .error .keyError
    | some n => if c.length = n then .ok (coordVars l c) else .error .valueError

/-- `UGrid.save`, lines 992-1151, without data variables. -/
def save (g : UGrid K) : Except Err (NC K) :=
  match optCoords .face (g.faces.map List.length) g.faceCoords,
    optCoords .edge (g.edges.map List.length) g.edgeCoords,
    optCoords .boundary (g.boundaries.map List.length) g.boundaryCoords with
  | .ok fc, .ok ec, .ok bc =>
    .ok ([(.mesh, meshVar g)] ++ tableVar "face_node_connectivity" .faceNodes g.faces ++
      tableVar "edge_node_connectivity" .edgeNodes g.edges ++
      tableVar "boundary_node_connectivity" .boundaryNodes g.boundaries ++
      fc ++ ec ++ bc ++ coordVars .node g.nodes)
  | .error e, _, _ => .error e
  | _, .error e, _ => .error e
  | _, _, .error e => .error e

/-! ## `load_grid_from_nc_dataset` -/

/-- `is_valid_mesh`, lines 39-58 (`cf_role` here has no surrounding blanks). -/
def isMesh (v : Var K) : Bool :=
  match v.cfRole with
  | none => false
  | some r => if r = "mesh_topology" then
      match v.topologyDimension with
      | some d => decide (d = 1 ∨ d = 2)
      | none => false
    else false

/-- Which column a coordinate variable fills, lines 168-199: 1 for latitude, 0 for longitude. -/
def axisOf (v : Var K) : Except Err Nat :=
  let name : Except Err String := match v.standardName with
    | some s => .ok s
    | none => match v.units with
      | none => .error .valueError
      | some u =>
        if u ∈ ["degrees_east", "degree_east", "degree_E", "degrees_E", "degreeE", "degreesE"]
          then .ok "longitude"
        else if u ∈ ["degrees_north", "degree_north", "degree_N", "degrees_N", "degreeN", "degreesN"]
          then .ok "latitude"
        else .error .valueError
  match name with
  | .error e => .error e
  | .ok s =>
    if s ∈ ["latitude", "projection_y_coordinate"] then .ok 1
    else if s ∈ ["longitude", "projection_x_coordinate"] then .ok 0
    else .error .valueError

/-- `nodes[:, j] = var[:]` for `n` rows: a single number goes to every row, any other length but `n`
raises. -/
def spread (n : Nat) (vals : List K) : Except Err (List K) :=
  if vals.length = n then .ok vals
  else match vals with
    | [x] => .ok (List.replicate n x)
    | _ => .error .valueError

/-- The two columns after the loop over the variables, lines 168-199. -/
def fillCols (n : Nat) : List (Var K) → List K × List K → Except Err (List K × List K)
  | [], st => .ok st
  | v :: vs, (x, y) => match axisOf v with
    | .error e => .error e
    | .ok a => match spread n v.values with
      | .error e => .error e
      | .ok c => if a = 1 then fillCols n vs (x, c) else fillCols n vs (c, y)

/-- All named variables, or `none` if one is missing. -/
def getVars (nc : NC K) : List Name → Option (List (Var K))
  | [] => some []
  | n :: ns => match Cache.lookup nc n, getVars nc ns with
    | some v, some vs => some (v :: vs)
    | _, _ => none

/-- One turn of the coordinate loop, lines 150-200: `none` for an optional attribute that is not
there. `mem` is what the array from `np.empty` holds at first, row by row. -/
def readCoords (mem : Loc → Nat → K × K) (nc : NC K) (mesh : Var K) (l : Loc) :
    Except Err (Option (List (K × K))) :=
  match Cache.lookup mesh.refs (.coordinates l) with
  | none => if l = .node then .error .valueError else .ok none
  | some names => match getVars nc names with
    | none => .error .valueError
    | some [] => .error .indexError
    | some (v :: vs) =>
      let n := v.values.length
      match fillCols n (v :: vs)
          ((List.range n).map (fun i => (mem l i).1), (List.range n).map (fun i => (mem l i).2)) with
      | .error e => .error e
      | .ok (x, y) => .ok (some (x.zip y))

/-- `array.shape[1]`. -/
def cols (t : List (List Int)) : Nat :=
  match t with
  | [] => 0
  | r :: _ => r.length

/-- `array.T` of a rectangular table. -/
def transpose (t : List (List Int)) : List (List Int) :=
  (List.range (cols t)).map (fun j => t.map (fun row => row.getD j 0))

/-- Lines 210-233: orientation, start index and flag value of a table with `numInd` entries a row,
for `n` nodes. -/
def normalise (numInd n : Nat) (v : Var K) : Except Err (List (List Int)) :=
  let a := if v.table.length = numInd then transpose v.table else v.table
  let start : Except Err Int := match v.startIndex with
    | some s => .ok s
    | none => match UTopo.maxL a.flatten with
      | none => .error .valueError
      | some mx => .ok (if mx = n then 1 else 0)
  match start with
  | .error e => .error e
  | .ok s =>
    if 1 ≤ s then
      .ok (a.map (fun r => r.map (fun e =>
        let e' := e - s
        match v.flagValue with
        | some f => if e' = f - s then f else e'
        | none => e')))
    else .ok a

/-- The table a role names, lines 205-233: `none` if the attribute or the variable is missing. -/
def readTable (nc : NC K) (mesh : Var K) (role : Role) (numInd n : Nat) :
    Except Err (Option (List (List Int))) :=
  match Cache.lookup mesh.refs role with
  | some (name :: _) => match Cache.lookup nc name with
    | none => .ok none
    | some v => match normalise numInd n v with
      | .error e => .error e
      | .ok t => .ok (some t)
  | _ => .ok none

/-- The part of `load_grid_from_nc_dataset` after the mesh is found, lines 148-238, for a new grid. The
`faces` setter checks and may shift the table; the `face_face_connectivity` setter checks its shape and
takes the length of the faces. -/
def loadMesh (mem : Loc → Nat → K × K) (nc : NC K) (mesh : Var K) : Except Err (UGrid K) :=
  match readCoords mem nc mesh .node with
  | .error e => .error e
  | .ok none => .error .valueError
  | .ok (some nodes) =>
    match readCoords mem nc mesh .face, readCoords mem nc mesh .edge, readCoords mem nc mesh .boundary with
    | .ok fc, .ok ec, .ok bc =>
      let n := nodes.length
      match readTable nc mesh .faceNode 3 n, readTable nc mesh .faceFace 3 n,
        readTable nc mesh .boundaryNode 2 n, readTable nc mesh .edgeNode 2 n with
      | .ok f, .ok ff, .ok b, .ok e =>
        let faces : Except Err (Option (List (List Int))) := match f with
          | none => .ok none
          | some t => match UTopo.setFaces n t with
            | .ok t' => .ok (some t')
            | .error er => .error er
        match faces with
        | .error er => .error er
        | .ok f' =>
          let shape : Except Err Unit := match ff, f' with
            | none, _ => .ok ()
            | some t, some fs => if t.map List.length = fs.map List.length then .ok () else .error .valueError
            | some _, none => .error .typeError
          match shape with
          | .error er => .error er
          | .ok () =>
            .ok { nodes := nodes, faces := f', edges := e, boundaries := b, faceFace := ff,
                  faceCoords := fc, edgeCoords := ec, boundaryCoords := bc }
      | .error er, _, _, _ => .error er
      | _, .error er, _, _ => .error er
      | _, _, .error er, _ => .error er
      | _, _, _, .error er => .error er
    | .error er, _, _ => .error er
    | _, .error er, _ => .error er
    | _, _, .error er => .error er

/-- `load_grid_from_nc_dataset` into a new grid, lines 137-238, without a mesh name. -/
def load (mem : Loc → Nat → K × K) (nc : NC K) : Except Err (UGrid K) :=
  match (nc.filter (fun p => isMesh p.2)) with
  | [(_, mesh)] => loadMesh mem nc mesh
  | _ => .error .valueError

/-- The same with a mesh name, lines 141-144. -/
def loadNamed (mem : Loc → Nat → K × K) (nc : NC K) (name : Name) : Except Err (UGrid K) :=
  match Cache.lookup nc name with
  | none => .error .valueError
  | some mesh => if isMesh mesh then loadMesh mem nc mesh else .error .valueError

/-! ## `load_from_varnames` -/

/-- The face part of `load_from_varnames`, `gridded/pyugrid/grid_io/utils.py:63-83`, for `n` nodes:
orientation by the shape, one-based if the smallest entry is 1, then the `faces` setter. -/
def facesFromVar (n : Nat) (t : List (List Int)) : Except Err (List (List Int)) :=
  let a := if t.length ≤ cols t then transpose t else t
  match UTopo.minL a.flatten with
  | none => .error .valueError
  | some mn =>
    UTopo.setFaces n (if mn = 1 then a.map (fun r => r.map (fun e => e - 1)) else a)

end

end Verif.UIO
