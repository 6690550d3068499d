import Verif.Model.Util
import Mathlib.Algebra.Field.Defs
import Mathlib.Order.Defs.LinearOrder
import Mathlib.Data.Nat.Cast.Defs

/-!
# Which kind of grid a file holds, and where its parts are (`gridded/grids.py`)

Names of variables, lower-cased, are the keys of a dictionary. Arrays are shapes with flat data.
Masked entries are left out.
-/

set_option autoImplicit false

namespace Verif.GridType
open Verif Verif.Util
open Verif.Cache (lookup assign)

/-- A variable of a file: name, values and the attributes that matter here. -/
structure FileVar (K : Type) where
  name : String
  arr : Arr K
  cfRole : Option String := none
  nodeCoordinates : Option String := none
  nodeDimensions : Option String := none
  deriving DecidableEq

/-- A file: its variables and the global attribute `grid_type`. -/
structure File (K : Type) where
  vars : List (FileVar K)
  gridType : Option String := none
  deriving DecidableEq

/-- The classes. -/
inductive Kind where
  | U
  | S
  | R
  deriving DecidableEq, Repr

/-- A mapping from parts of a grid to names of variables. -/
abbrev Topology := List (String × String)

/-- The arguments for the constructor of a grid. -/
abbrev Args (K : Type) := List (String × Arr K)

section
variable {K : Type}

/-- `gf_vars = dict([(k.lower(), v) for k, v in gf_vars.items()])` (`grids.py:53`). -/
def lowerVars (f : File K) : List (String × FileVar K) :=
  dictOf (f.vars.map (fun v => (v.name.toLower, v)))

/-- `gf_vars[k][:]`. -/
def getVar (gf : List (String × FileVar K)) (k : String) : Except Err (Arr K) :=
  match lookup gf k with
  | some v => .ok v.arr
  | none => .error .keyError

/-- Every second element, from the first: `v.reshape(-1, 2)[:, 0]`. -/
def evens : List K → List K
  | [] => []
  | [a] => [a]
  | a :: _ :: t => a :: evens t

/-- `v.reshape(-1, 2)[:, 1]`. -/
def odds : List K → List K
  | [] => []
  | [_] => []
  | _ :: b :: t => b :: odds t

/-- `v = a.reshape(-1, 2)`, then `v[:, 0]` and `v[:, 1]` (`grids.py:71-73`). -/
def splitPairs (a : Arr K) : Except Err (Arr K × Arr K) :=
  if a.data.length % 2 = 0 then
    .ok (⟨[a.data.length / 2], evens a.data⟩, ⟨[a.data.length / 2], odds a.data⟩)
  else .error .valueError

/-- `node_coord_names` (`grids.py:58`). -/
def nodePairs : List (String × String) :=
  [("node_lon", "node_lat"), ("lon", "lat"), ("lon_psi", "lat_psi"), ("longitude", "latitude")]

/-- `composite_node_names` (`grids.py:59`). -/
def compositeNames : List String := ["nodes", "node"]

/-- `for n1, n2 in names: if n1 in gf_vars and n2 in gf_vars: ...; break`. -/
def firstPair (gf : List (String × FileVar K)) :
    List (String × String) → Option ((String × String) × Arr K × Arr K)
  | [] => none
  | (n1, n2) :: t => match lookup gf n1, lookup gf n2 with
    | some v1, some v2 => some ((n1, n2), v1.arr, v2.arr)
    | _, _ => firstPair gf t

/-- `for n in names: if n in gf_vars: ...; break`. -/
def firstIn (gf : List (String × FileVar K)) : List String → Option (String × FileVar K)
  | [] => none
  | n :: t => match lookup gf n with
    | some v => some (n, v)
    | none => firstIn gf t

/-- One entry of a topology given by the caller (`grids.py:79-86`). -/
def baseStep (gf : List (String × FileVar K)) (acc : Except Err (Args K)) (nv : String × String) :
    Except Err (Args K) := do
  let d ← acc
  let d ← if nv.1 = "node_lon" ∨ nv.1 = "node_lat" then do
      let a ← getVar gf nv.2
      pure (assign d nv.1 a)
    else pure d
  if nv.1 ∈ compositeNames then do
    let a ← getVar gf nv.1
    let v ← splitPairs a
    pure (assign (assign d "node_lon" v.1) "node_lat" v.2)
  else pure d

/-- `GridBase._find_required_grid_attrs` (`grids.py:37-88`). The entry `filename` of the result is
left out. -/
def findBase (f : File K) (topology : Option Topology) : Except Err (Args K × Topology) :=
  let gf := lowerVars f
  match topology with
  | none => match firstPair gf nodePairs with
    | some (n, lon, lat) =>
      .ok ([("node_lon", lon), ("node_lat", lat)], [("node_lon", n.1), ("node_lat", n.2)])
    | none => match firstIn gf compositeNames with
      | some (n, v) => do
        let w ← splitPairs v.arr
        pure ([("node_lon", w.1), ("node_lat", w.2)], [("node_coordinates", n)])
      | none => .error .valueError
  | some gt => do
    let d ← gt.foldl (baseStep gf) (.ok [])
    pure (d, gt)

/-- `face_var_names` (`grids.py:126`). -/
def faceNames : List String := ["faces", "tris", "nv", "ele", "nele"]

/-- The transpose of an array of two dimensions. Of others only that of one dimension, which is
itself, is modelled. -/
def transpose (a : Arr K) : Arr K :=
  match a.shape with
  | [r, c] => ⟨[c, r], transposeData r c a.data⟩
  | _ => a

end

section
variable {K : Type} [Field K] [LinearOrder K]

/-- `a.max()`. -/
def arrMax (a : Arr K) : Except Err K :=
  match a.data with
  | [] => .error .valueError
  | x :: t => .ok (t.foldl max x)

/-- `init_args["faces"]` made to index from zero, one face per row (`grids.py:145-150`). -/
def normaliseFaces (faces nodeLon : Arr K) : Except Err (Arr K) :=
  match faces.shape with
  | [] => .error .indexError
  | n :: _ => do
    let faces := if n = 3 then transpose faces else faces
    let m ← arrMax faces
    match nodeLon.shape with
    | [] => .error .indexError
    | k :: _ =>
      if m = (k : K) then pure ⟨faces.shape, faces.data.map (· - 1)⟩ else pure faces

/-- `Grid_U._find_required_grid_attrs` (`grids.py:116-152`). -/
def findU (f : File K) (topology : Option Topology) : Except Err (Args K × Topology) := do
  let gf := lowerVars f
  let (init, gt) ← findBase f topology
  let (init, gt) ← match topology with
    | none => match firstIn gf faceNames with
      | some (n, v) => pure (assign init "faces" v.arr, assign gt "faces" n)
      | none => .error .valueError
    | some t => match lookup t "faces" with
      | some v => do
        let a ← getVar gf v
        pure (assign init "faces" a, t)
      | none => pure (init, t)
  match lookup init "faces", lookup init "node_lon" with
  | none, _ => .error .keyError
  | some fa, none => do
    -- the attribute is looked up after the maximum is taken
    let _ ← normaliseFaces fa ⟨[0], []⟩
    .error .keyError
  | some fa, some lon => do
    let fa ← normaliseFaces fa lon
    pure (assign init "faces" fa, gt)

/-- `Grid_R._find_required_grid_attrs` (`grids.py:273-290`). -/
def findR (f : File K) (topology : Option Topology) : Except Err (Args K × Topology) := do
  let (init, gt) ← findBase f topology
  match lookup init "node_lon", lookup init "node_lat" with
  | some lon, some lat =>
    if lon.shape.length ≠ 1 then .error .valueError
    else if lat.shape.length ≠ 1 then .error .valueError
    else pure (init, gt)
  | _, _ => .error .keyError

/-- The three groups of optional coordinates, with their names in files and the name of their mask
(`grids.py:176-193`). -/
def groups : List ((String × String) × List (String × String) × String × String) :=
  [(("center_lon", "center_lat"),
      [("center_lon", "center_lat"), ("lon_rho", "lat_rho"), ("lonc", "latc")],
      "center_mask", "mask_rho"),
    (("edge1_lon", "edge1_lat"), [("edge1_lon", "edge1_lat"), ("lon_u", "lat_u")],
      "edge1_mask", "mask_u"),
    (("edge2_lon", "edge2_lat"), [("edge2_lon", "edge2_lat"), ("lon_v", "lat_v")],
      "edge2_mask", "mask_v")]

/-- One turn of the loop over the groups (`grids.py:196-217`). -/
def groupStep (gf : List (String × FileVar K)) (acc : Args K × Topology)
    (g : (String × String) × List (String × String) × String × String) : Args K × Topology :=
  match firstPair gf g.2.1 with
  | none => acc
  | some (n, a1, a2) =>
    let init := assign (assign acc.1 g.1.1 a1) g.1.2 a2
    let (init, gt) := match lookup gf g.2.2.2 with
      | some v => (assign init g.2.2.1 v.arr, assign acc.2 g.2.2.1 g.2.2.2)
      | none => (init, acc.2)
    (init, assign (assign gt g.1.1 n.1) g.1.2 n.2)

/-- One entry of a topology given by the caller (`grids.py:226-231`). -/
def sStep (gf : List (String × FileVar K)) (d : Args K) (nv : String × String) : Args K :=
  match lookup gf nv.2 with
  | none => d
  | some v =>
    if nv.1 ∈ ["center_lon", "center_lat", "edge1_lon", "edge1_lat", "edge2_lon", "edge2_lat",
      "node_mask", "center_mask", "edge1_mask", "edge2_mask"] then assign d nv.1 v.arr else d

/-- `Grid_S._find_required_grid_attrs` (`grids.py:166-233`). Masks, which are handed over unread,
are given by their values. -/
def findS (f : File K) (topology : Option Topology) : Except Err (Args K × Topology) := do
  let gf := lowerVars f
  let (init, gt) ← findBase f topology
  match topology with
  | none =>
    let (init, gt) := groups.foldl (groupStep gf) (init, gt)
    match lookup init "node_lon", lookup init "node_lat" with
    | some _, some _ =>
      let init := match lookup gf "mask_psi" with
        | some v => assign init "node_mask" v.arr
        | none => init
      pure (init, assign gt "node_mask" "mask_psi")
    | _, _ => pure (init, gt)
  | some t => pure (t.foldl (sStep gf) init, t)

/-! ## The kind of grid -/

/-- `sgrid_names`, `ugrid_names`, `rgrid_names` (`grids.py:585-587`). -/
def sNames : List String := ["sgrid", "pygrid_s", "staggered", "curvilinear", "roms"]
def uNames : List String := ["ugrid", "pygrid_u", "triangular", "unstructured"]
def rNames : List String := ["rgrid", "regular", "rectangular", "rectilinear"]

/-- `Grid._find_topology_var` (`grids.py:646-656`). -/
def topologyVar (f : File K) : Option (FileVar K) :=
  f.vars.find? (fun v => match v.cfRole with
    | some r => SText.contains "topology".toList r.toList
    | none => false)

/-- `try: ...; return G; except ValueError: ...`. -/
def orElse {β : Type} (x : Except Err β) (k : Kind) (e : Except Err Kind) : Except Err Kind :=
  match x with
  | .ok _ => .ok k
  | .error .valueError => e
  | .error err => .error err

/-- `Grid._get_grid_type` (`grids.py:562-643`). -/
def gridType (f : File K) (caller : Option String) (topology : Option Topology) :
    Except Err Kind :=
  match caller with
  | some t =>
    if t.toLower ∈ sNames then .ok .S
    else if t.toLower ∈ uNames then .ok .U
    else if t.toLower ∈ rNames then .ok .R
    else .error .valueError
  | none => match topology with
    | some gt =>
      let t := ((lookup gt "grid_type").getD "notype").toLower
      if (lookup gt "faces").isSome ∨ t ∈ uNames then .ok .U
      else if t ∈ rNames then .ok .R
      else .ok .S
    | none =>
      if (f.gridType.getD "") ∈ sNames ++ uNames then
        let t := (f.gridType.getD "").toLower
        if t ∈ uNames then .ok .U else if t ∈ rNames then .ok .R else .ok .S
      else match topologyVar f with
        | some v => if v.nodeCoordinates.isSome ∧ ¬ v.nodeDimensions.isSome then .ok .U else .ok .S
        | none =>
          orElse (findU f none) .U (orElse (findR f none) .R (orElse (findS f none) .S
            (.error .valueError)))

/-- What `Grid.from_netCDF` does with a file (`grids.py:536-559`): a grid built from the arguments
found, or a file read after its conventions by `_load_grid` (`grids.py:491-504`), which for
rectangular grids calls a method that does not exist. Construction of rectangular grids reads two
entries of the topology (`grids.py:263-264`); the other constructors are left out. -/
inductive Loaded (K : Type) where
  | built (k : Kind) (args : Args K) (topology : Topology)
  | conventions (k : Kind)
  deriving DecidableEq

/-- `"cf_role" in grid_topology.keys() and "topology" in grid_topology["cf_role"]`. -/
def compliant (f : File K) (topology : Option Topology) : Bool :=
  match topology with
  | none => (topologyVar f).isSome
  | some gt => match lookup gt "cf_role" with
    | some r => SText.contains "topology".toList r.toList
    | none => false

/-- `Grid.from_netCDF` (`grids.py:507-559`). -/
def fromFile (f : File K) (caller : Option String) (topology : Option Topology) :
    Except Err (Loaded K) := do
  let k ← gridType f caller topology
  if compliant f topology then
    match k with
    | .R => .error .attributeError
    | k => pure (.conventions k)
  else match k with
    | .U => do
      let r ← findU f topology
      pure (.built .U r.1 r.2)
    | .S => do
      let r ← findS f topology
      pure (.built .S r.1 r.2)
    | .R => do
      let r ← findR f topology
      match lookup r.2 "node_lat", lookup r.2 "node_lon" with
      | some _, some _ => pure (.built .R r.1 r.2)
      | _, _ => .error .keyError

end

end Verif.GridType
