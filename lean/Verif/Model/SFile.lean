import Verif.Model.SText

/-!
# Structured grids from and to files

`gridded/pysgrid/sgrid.py` (`load_grid`, `SGridAttributes`, `save_as_netcdf`),
`gridded/pysgrid/variables.py` (`create_variable`), `gridded/pysgrid/read_netcdf.py`
(`find_grid_topology_var`, `find_coordinates_by_location`) and `gridded/pysgrid/utils.py`
(`infer_avg_axes`, `infer_variable_location`, `determine_variable_slicing`).

A file is a list of named dimensions and a list of variables with text attributes. What the
variables hold is opaque (`α`); a variable created and never written holds `fill`. Names within a
file are distinct (netCDF refuses others). Groups, data types and numeric attributes other than
`topology_dimension` are left out.
-/

set_option autoImplicit false

namespace Verif.SFile
open Verif

/-- Texts are lists of characters. -/
abbrev Txt := List Char

/-- A variable of a file. `topDim` is the attribute `topology_dimension`, as `int()` reads it. -/
structure NVar (α : Type) where
  name : Txt
  dims : List Txt := []
  attrs : List (Txt × Txt) := []
  topDim : Option (Except Err Int) := none
  data : α

/-- A file. -/
structure File (α : Type) where
  dims : List (Txt × Nat)
  vars : List (NVar α)

variable {α : Type}

/-- `getattr(variable, name)`; nothing stands for `AttributeError`. -/
def NVar.attr (v : NVar α) (k : String) : Option Txt := v.attrs.lookup k.toList

/-- `variable.shape`. -/
def File.shape (f : File α) (v : NVar α) : List Nat :=
  v.dims.map (fun d => (f.dims.lookup d).getD 0)

/-- `nc.variables[name]`, where it is there. -/
def File.find (f : File α) (n : Txt) : Option (NVar α) := f.vars.find? (fun v => v.name == n)

/-- `nc[name]` raises `IndexError` for a name that is not there. -/
def File.fetch (f : File α) (n : Txt) : Except Err (NVar α) :=
  match f.find n with
  | some v => .ok v
  | none => .error .indexError

/-! ## Texts -/

/-- `s.split(c)` at every character of a kind. -/
def splitAt (q : Char → Bool) : Txt → List Txt
  | [] => [[]]
  | c :: s =>
    if q c then [] :: splitAt q s
    else match splitAt q s with
      | [] => [[c]]
      | w :: ws => (c :: w) :: ws

/-- `s.split(" ")`. -/
def splitSpace (s : Txt) : List Txt := splitAt (· == ' ') s

/-- `s.split()`. -/
def words (s : Txt) : List Txt := (splitAt Char.isWhitespace s).filter (fun w => !w.isEmpty)

/-- `" ".join(ws)`. -/
def joinSpace : List Txt → Txt
  | [] => []
  | [w] => w
  | w :: v :: ws => w ++ ' ' :: joinSpace (v :: ws)

/-! ## The variable that describes the grid -/

/-- `nc.get_variables_by_attributes(cf_role="grid_topology")`. -/
def topologies (f : File α) : List (NVar α) :=
  f.vars.filter (fun v => v.attr "cf_role" == some "grid_topology".toList)

/-- `find_grid_topology_var` (`read_netcdf.py:13-40`), together with the variable of that name. -/
def findTopology (f : File α) : Except Err (NVar α) :=
  match topologies f with
  | [v] => match v.topDim with
    | none => .error .valueError
    | some (.error e) => .error e
    | some (.ok d) => if d = 2 then .ok v else .error .valueError
  | _ => .error .valueError

/-! ## Coordinates by location -/

/-- `find_variables_by_attr(location=loc)` (`read_netcdf.py:164-180`). -/
def atLocation (f : File α) (loc : Txt) : List (NVar α) :=
  f.vars.filter (fun v => v.attr "location" == some loc)

/-- A variable as the search for words sees it. -/
def NVar.seen (v : NVar α) : SText.FVar :=
  { name := v.name, dims := v.dims, standardName := v.attr "standard_name" }

/-- The variables that may be coordinates of `v` (`read_netcdf.py:207-217`). -/
def potential (f : File α) (v : NVar α) : List (NVar α) :=
  f.vars.filter (fun w => w.dims.all (v.dims.contains ·) && w.name != v.name && !w.dims.isEmpty)

/-- One turn of the loop over them (`read_netcdf.py:218-235`); the third coordinate is left out, as
the result for two dimensions does not hold it. -/
def guess (xy : Option Txt × Option Txt) (w : NVar α) : Option Txt × Option Txt :=
  if SText.named SText.xWords w.seen then (some w.name, xy.2)
  else if SText.named SText.yWords w.seen then (xy.1, some w.name)
  else xy

/-- Whether a coordinate named in an attribute is one of longitude (`short` is `lon`, `long` is
`longitude`) or of latitude (`read_netcdf.py:248-262`). -/
def calls (short long : String) (w : NVar α) : Bool :=
  SText.contains short.toList (w.name.map Char.toLower) ||
    SText.contains long.toList (((w.attr "standard_name").getD []).map Char.toLower) ||
    SText.contains long.toList (((w.attr "description").getD []).map Char.toLower)

/-- The loop over the names of the attribute `coordinates` (`read_netcdf.py:237-262`): a name that
is no variable raises `KeyError`. -/
def namedIn (f : File α) : Option Txt × Option Txt → List Txt → Except Err (Option Txt × Option Txt)
  | xy, [] => .ok xy
  | xy, n :: ns => match f.find n with
    | none => .error .keyError
    | some w =>
      namedIn f (if calls "lon" "longitude" w then (some n, xy.2)
        else if calls "lat" "latitude" w then (xy.1, some n) else xy) ns

/-- The loop over the variables of the location: it stops at the first that names coordinates. -/
def searchIn (f : File α) : Option Txt × Option Txt → List (NVar α) →
    Except Err (Option Txt × Option Txt)
  | xy, [] => .ok xy
  | xy, v :: vs => match v.attr "coordinates" with
    | some c => namedIn f xy (splitSpace (SText.strip c))
    | none => searchIn f ((potential f v).foldl guess xy) vs

/-- `find_coordinates_by_location(loc, 2)` (`read_netcdf.py:182-268`). Names are not empty. -/
def byLocation (f : File α) (loc : Txt) : Except Err (Option (List Txt)) :=
  match searchIn f (none, none) (atLocation f loc) with
  | .error e => .error e
  | .ok (some x, some y) => .ok (some [x, y])
  | .ok _ => .ok none

/-- `get_attr_coordinates(loc + "_coordinates")` (`sgrid.py:1379-1388`). -/
def coordinates (f : File α) (t : NVar α) (loc : String) : Except Err (Option (List Txt)) :=
  match t.attr (loc ++ "_coordinates") with
  | some s => .ok (some (splitSpace s))
  | none => byLocation f loc.toList

/-- `get_node_coordinates` (`sgrid.py:1390-1401`). -/
def nodeCoordinates (f : File α) (t : NVar α) : Except Err (Txt × Option (List Txt)) :=
  match t.attr "node_dimensions" with
  | none => .error .attributeError
  | some d => match t.attr "node_coordinates" with
    | some s => .ok (d, some (splitSpace s))
    | none => .ok (d, (SText.findNodeCoordinates (splitSpace d) (f.vars.map NVar.seen)).map
        (fun p => [p.1, p.2]))

/-- `get_attr_dimension` (`sgrid.py:1368-1377`). -/
def dimension (t : NVar α) (k : String) : Except Err (Option (Txt × List SText.Decl)) :=
  match t.attr k with
  | none => .ok none
  | some s => match SText.parsePadding s with
    | .error e => .error e
    | .ok ds => .ok (some (s, ds))

/-! ## Variables on the grid -/

/-- What the grid declares about dimensions. -/
structure Pads where
  nodeDims : List Txt
  face : Option (List SText.Decl) := none
  edge1 : Option (List SText.Decl) := none
  edge2 : Option (List SText.Decl) := none
  vertical : Option (List SText.Decl) := none
  deriving DecidableEq, Repr

/-- `does_intersection_exist` (`utils.py:59-71`). -/
def meet (a b : List Txt) : Bool := a.any (b.contains ·)

/-- `get_all_face_padding` (`sgrid.py:255-260`): the property `face_padding` wants two declarations
(`IndexError`) and is never `None`, so that a missing list is handed on as `None`, on which every
caller raises `TypeError`. -/
def Pads.faces (p : Pads) : Except Err (List SText.Decl) :=
  match p.face with
  | none => .error .typeError
  | some [_] => .error .indexError
  | some ds => .ok ds

/-- `get_all_edge_padding` (`sgrid.py:262-268`). -/
def Pads.edges (p : Pads) : List SText.Decl := p.edge1.getD [] ++ p.edge2.getD []

/-- `all_padding` (`sgrid.py:270-274`): without vertical dimensions `None` is added. -/
def Pads.all (p : Pads) : Except Err (List SText.Decl) :=
  match p.faces with
  | .error e => .error e
  | .ok ds => match p.vertical with
    | none => .error .typeError
    | some v => .ok (ds ++ p.edges ++ v)

/-- `infer_avg_axes` (`utils.py:123-160`). The position is counted from the last dimension. A
variable without dimensions leaves `padding_info` unset. -/
def avgAxes (p : Pads) (dims : List Txt) : Except Err (Option Nat × Option Nat) :=
  match p.faces with
  | .error e => .error e
  | .ok fs =>
    let ds := if meet p.nodeDims dims then fs else fs ++ p.edges
    match dims with
    | [] => .error .unboundLocal
    | _ => match dims.findIdx? (fun d => ds.any (fun x => x.faceDim == d)) with
      | none => .ok (none, none)
      | some i =>
        let c := dims.length - i - 1
        .ok (some c, if c = 1 then some 0 else if c = 0 then some 1 else none)

/-- `SGrid.padding_slices[word]` (`sgrid.py:26`). -/
def sliceOf (w : Txt) : Except Err (Option Int × Option Int) :=
  if w = "both".toList then .ok (some 1, some (-1))
  else if w = "none".toList then .ok (none, none)
  else if w = "low".toList then .ok (some 1, none)
  else if w = "high".toList then .ok (none, some 1)
  else .error .keyError

/-- The loop of `determine_variable_slicing` (`utils.py:106-119`). -/
def dimSlices (ds : List SText.Decl) (dims : List Txt) :
    Except Err (List (Option Int × Option Int)) :=
  dims.mapM (fun d => match ds.find? (fun x => x.faceDim == d) with
    | none => .ok (none, none)
    | some x => sliceOf x.padding)

/-- `determine_variable_slicing` (`utils.py:74-120`). -/
def slicing (p : Pads) (dims : List Txt) : Except Err (List (Option Int × Option Int)) :=
  if meet dims p.nodeDims then
    match p.face with
    | none => .error .typeError
    | some ds => dimSlices ds dims
  else match p.all with
    | .error e => .error e
    | .ok ds => dimSlices ds dims

/-- `infer_variable_location` (`utils.py:163-180`). -/
def inferLocation (p : Pads) (dims : List Txt) : Except Err (Option Txt) :=
  match p.faces with
  | .error e => .error e
  | .ok fs =>
    let face := meet dims (fs.map SText.Decl.faceDim)
    let node := meet dims p.nodeDims
    let edge := meet dims (p.edges.map SText.Decl.faceDim)
    .ok (if face && !node then some "face".toList
      else if (face && node) || edge then some "edge".toList
      else none)

/-- Which of the two kinds of edges (`variables.py:96-102`). -/
def nameEdge (axis : Option Nat) (loc : Option Txt) : Option Txt :=
  if loc = some "edge".toList then
    if axis = some 0 then some "edge2".toList
    else if axis = some 1 then some "edge1".toList
    else none
  else loc

/-- An `SGridVariable`. -/
structure SVar where
  name : Txt
  grid : Option Txt
  centerAxis : Option Nat
  nodeAxis : Option Nat
  slices : List (Option Int × Option Int)
  dims : List Txt
  location : Option Txt
  axes : SText.Axes
  standardName : Option Txt
  vectorAxis : Option Char
  coordinates : Option (List Txt)
  deriving DecidableEq, Repr

/-- The axes of a variable; those without the attribute `grid` have none (`variables.py:82-89`). -/
def axesOf (p : Pads) (v : NVar α) : Except Err (Option Nat × Option Nat) :=
  match v.attr "grid" with
  | none => .ok (none, none)
  | some _ => avgAxes p v.dims

/-- The location stated or inferred (`variables.py:93-96`). -/
def locationOf (p : Pads) (v : NVar α) : Except Err (Option Txt) :=
  match v.attr "location" with
  | some l => .ok (some l)
  | none => inferLocation p v.dims

/-- The attribute `axes` (`variables.py:103-110`). -/
def namedAxes (v : NVar α) : Except Err SText.Axes :=
  match v.attr "axes" with
  | none => .ok {}
  | some s => SText.parseAxes s

/-- The direction of a component (`variables.py:111-117`). -/
def directionOf (v : NVar α) : Except Err (Option Char) :=
  match v.attr "standard_name" with
  | none => .ok none
  | some s => SText.parseVectorAxis s

/-- `create_variable` (`variables.py:80-143`). (`strip()` before `split()` changes nothing.) -/
def createVariable (p : Pads) (v : NVar α) : Except Err SVar := do
  let ax ← axesOf p v
  let sl ← slicing p v.dims
  let loc ← locationOf p v
  let na ← namedAxes v
  let dir ← directionOf v
  .ok {
    name := v.name, grid := v.attr "grid", centerAxis := ax.1, nodeAxis := ax.2, slices := sl,
    dims := v.dims, location := nameEdge ax.1 loc, axes := na,
    standardName := v.attr "standard_name", vectorAxis := dir,
    coordinates := (v.attr "coordinates").map words }

/-! ## Masks -/

/-- Variables that may be masks (`sgrid.py:1469-1475`). -/
def maskCandidates (f : File α) : List (NVar α) :=
  f.vars.filter (fun v => SText.contains "mask".toList v.name ||
    SText.contains "mask".toList ((v.attr "long_name").getD []))

/-- The mask of one location (`sgrid.py:1468-1500`): the first candidate of the shape of the
longitudes, which must have dimensions. -/
def maskFor (f : File α) (lon : Option (NVar α)) : Option (NVar α) :=
  match lon with
  | none => none
  | some v => if f.shape v = [] then none
    else (maskCandidates f).find? (fun m => f.shape m == f.shape v)

/-! ## Loading -/

/-- The pair of variables two names stand for (`sgrid.py:1428-1466`): `None` cannot be unpacked,
which is caught, other numbers of names cannot either, which is not. -/
def readPair (f : File α) (names : Option (List Txt)) : Except Err (Option (NVar α × NVar α)) :=
  match names with
  | none => .ok none
  | some [x, y] => match f.fetch y, f.fetch x with
    | .error e, _ => .error e
    | _, .error e => .error e
    | .ok b, .ok a => .ok (some (a, b))
  | some _ => .error .valueError

/-- The same for the first kind of edges, where everything is caught (`sgrid.py:1448-1456`). -/
def readEdge1 (f : File α) (names : Option (List Txt)) : Except Err (Option (NVar α × NVar α)) :=
  match names with
  | some [_, _] => readPair f names
  | _ => .ok none

/-- `get_angles` (`sgrid.py:1417-1426`): `ang` computes the angles from the centers. A variable is
false when its first dimension is empty and has no truth value without dimensions. -/
def anglesOf (ang : α → α → Except Err α) (f : File α) (centers : Option (NVar α × NVar α)) :
    Except Err α :=
  let computed : Except Err α := match centers with
    | none => .error .attributeError
    | some (a, b) => ang a.data b.data
  match f.find "angle".toList with
  | none => computed
  | some v => match f.shape v with
    | [] => .error .typeError
    | 0 :: _ => computed
    | _ => .ok v.data

/-- A grid as loaded. Arrays are what the variables hold; masks are the variables themselves. -/
structure SObj (α : Type) where
  dims : List (Txt × Nat)
  topVar : Txt
  nodeDims : Txt
  nodeCoords : Option (List Txt)
  face : Option (Txt × List SText.Decl)
  edge1 : Option (Txt × List SText.Decl)
  edge2 : Option (Txt × List SText.Decl)
  vertical : Option (Txt × List SText.Decl)
  faceCoords : Option (List Txt)
  edge1Coords : Option (List Txt)
  edge2Coords : Option (List Txt)
  angles : α
  nodeLon : Option α
  nodeLat : Option α
  centerLon : Option α
  centerLat : Option α
  edge1Lon : Option α
  edge1Lat : Option α
  edge2Lon : Option α
  edge2Lat : Option α
  nodeMask : Option Txt
  centerMask : Option Txt
  edge1Mask : Option Txt
  edge2Mask : Option Txt
  variables : List SVar
  gridVariables : List Txt
  deriving DecidableEq

/-- Names of properties of `SGrid` that cannot be assigned (`sgrid.py:243-301`). -/
def readOnly : List Txt :=
  ["info".toList, "non_grid_variables".toList, "nodes".toList, "centers".toList]

/-- The variables are made attributes of the grid under their own names (`sgrid.py:1403-1415`), which
fails for the properties above and replaces what was held under that name. -/
def held (f : File α) (k : String) (x : Option α) : Option α :=
  match f.find k.toList with
  | some v => some v.data
  | none => x

/-- The same for masks, which are held as variables. -/
def heldMask (f : File α) (k : String) (x : Option Txt) : Option Txt :=
  match f.find k.toList with
  | some v => some v.name
  | none => x

/-- One variable of the file is made an attribute. -/
def attach (p : Pads) (v : NVar α) : Except Err SVar :=
  match createVariable p v with
  | .error e => .error e
  | .ok s => if v.name ∈ readOnly then .error .attributeError else .ok s

/-- What the grid declares, for its variables. -/
def padsOf (nd : Txt) (face edge1 edge2 vertical : Option (Txt × List SText.Decl)) : Pads :=
  { nodeDims := splitSpace nd, face := face.map Prod.snd, edge1 := edge1.map Prod.snd,
    edge2 := edge2.map Prod.snd, vertical := vertical.map Prod.snd }

/-- `SGrid.load_grid` (`sgrid.py:181-240`). Variables named like other attributes than coordinates,
masks and angles are not followed further (a variable called `dimensions` for instance). -/
def load (ang : α → α → Except Err α) (f : File α) : Except Err (SObj α) := do
  let t ← findTopology f
  let nc ← nodeCoordinates f t
  let e1 ← dimension t "edge1_dimensions"
  let e2 ← dimension t "edge2_dimensions"
  let c1 ← coordinates f t "edge1"
  let c2 ← coordinates f t "edge2"
  let cf ← coordinates f t "face"
  let center ← readPair f cf
  let angles ← anglesOf ang f center
  let vd ← dimension t "vertical_dimensions"
  let node ← readPair f nc.2
  let x1 ← readEdge1 f c1
  let x2 ← readPair f c2
  let fd ← dimension t "face_dimensions"
  let vs ← f.vars.mapM (attach (padsOf nc.1 fd e1 e2 vd))
  .ok {
    dims := f.dims, topVar := t.name, nodeDims := nc.1, nodeCoords := nc.2, face := fd, edge1 := e1,
    edge2 := e2, vertical := vd, faceCoords := cf, edge1Coords := c1, edge2Coords := c2,
    angles := (held f "angles" (some angles)).getD angles,
    nodeLon := held f "node_lon" (node.map (·.1.data)),
    nodeLat := held f "node_lat" (node.map (·.2.data)),
    centerLon := held f "center_lon" (center.map (·.1.data)),
    centerLat := held f "center_lat" (center.map (·.2.data)),
    edge1Lon := held f "edge1_lon" (x1.map (·.1.data)),
    edge1Lat := held f "edge1_lat" (x1.map (·.2.data)),
    edge2Lon := held f "edge2_lon" (x2.map (·.1.data)),
    edge2Lat := held f "edge2_lat" (x2.map (·.2.data)),
    nodeMask := heldMask f "node_mask" ((maskFor f (node.map Prod.fst)).map NVar.name),
    centerMask := heldMask f "center_mask" ((maskFor f (center.map Prod.fst)).map NVar.name),
    edge1Mask := heldMask f "edge1_mask" ((maskFor f (x1.map Prod.fst)).map NVar.name),
    edge2Mask := heldMask f "edge2_mask" ((maskFor f (x2.map Prod.fst)).map NVar.name),
    variables := vs,
    gridVariables := (f.vars.filter (fun v => (v.attr "grid").isSome)).map NVar.name }

/-! ## Saving -/

/-- `getattr(self, name)` for a variable of the grid. -/
def SObj.var (g : SObj α) (n : Txt) : Except Err SVar :=
  match g.variables.find? (fun v => v.name == n) with
  | some v => .ok v
  | none => .error .attributeError

/-- `createVariable`: a name that is there raises `RuntimeError`. -/
def create (made : List (NVar α)) (v : NVar α) : Except Err (List (NVar α)) :=
  if v.name ∈ made.map NVar.name then .error .runtimeError else .ok (made ++ [v])

/-- A variable created for an array the grid holds. -/
def createFor (g : SObj α) (made : List (NVar α)) (n : Txt) (x : Option α) :
    Except Err (List (NVar α)) :=
  match g.var n with
  | .error e => .error e
  | .ok v => match x with
    | none => .error .typeError
    | some a => create made { name := v.name, dims := v.dims, data := a }

/-- An attribute that is written if there is something to write. -/
def opt (k : String) (x : Option Txt) : List (Txt × Txt) :=
  match x with
  | none => []
  | some s => [(k.toList, s)]

/-- The attributes of the variable that describes the grid (`sgrid.py:277-289` and `440-454`). -/
def topologyAttrs (g : SObj α) : List (Txt × Txt) :=
  [("cf_role".toList, "grid_topology".toList), ("node_dimensions".toList, g.nodeDims)] ++
    opt "edge1_dimensions" (g.edge1.map Prod.fst) ++ opt "edge2_dimensions" (g.edge2.map Prod.fst) ++
    opt "node_coordinates" (g.nodeCoords.map joinSpace) ++
    opt "edge1_coordinates" (g.edge1Coords.map joinSpace) ++
    opt "edge2_coordinates" (g.edge2Coords.map joinSpace) ++
    opt "face_dimensions" (g.face.map Prod.fst) ++
    opt "vertical_dimensions" (g.vertical.map Prod.fst) ++
    opt "face_coordinates" (g.faceCoords.map joinSpace)

/-- `"X: name"` for an axis that is there. -/
def axisText (letter : String) (x : Option Txt) : List Txt :=
  match x with
  | none => []
  | some n => [letter.toList ++ ": ".toList ++ n]

/-- The axes as written (`sgrid.py:473-485`). -/
def axesTexts (a : SText.Axes) : List Txt := axisText "X" a.x ++ axisText "Y" a.y ++ axisText "Z" a.z

/-- The attributes a variable is saved with (`sgrid.py:467-485`). -/
def savedAttrs (g : SObj α) (v : SVar) : List (Txt × Txt) :=
  opt "grid" (v.grid.map (fun _ => g.topVar)) ++ opt "standard_name" v.standardName ++
    opt "coordinates" (v.coordinates.map joinSpace) ++
    opt "axes" (if axesTexts v.axes = [] then none else some (joinSpace (axesTexts v.axes)))

/-- The loop over the variables (`sgrid.py:459-485`): those that are there already are left, the
values of the others are not written. -/
def saveRest (fill : α) (g : SObj α) (made : List (NVar α)) : List SVar → List (NVar α)
  | [] => made
  | v :: vs =>
    if v.name ∈ made.map NVar.name then saveRest fill g made vs
    else saveRest fill g
      (made ++ [{ name := v.name, dims := v.dims, attrs := savedAttrs g v, data := fill }]) vs

/-- The names of the two coordinates of the centers. -/
def twoNames (names : Option (List Txt)) : Except Err (Txt × Txt) :=
  match names with
  | none => .error .typeError
  | some [x, y] => .ok (x, y)
  | some _ => .error .valueError

/-- The node coordinates, if any (`sgrid.py:429-439`). -/
def createNodes (g : SObj α) (made : List (NVar α)) : Except Err (List (NVar α)) :=
  match g.nodeCoords with
  | none => .ok made
  | some _ => do
    let n ← twoNames g.nodeCoords
    let made ← createFor g made n.1 g.nodeLon
    createFor g made n.2 g.nodeLat

/-- The variable `angle`, if there is one (`sgrid.py:455-459`). -/
def createAngle (g : SObj α) (made : List (NVar α)) : Except Err (List (NVar α)) :=
  match g.var "angle".toList with
  | .error _ => .ok made
  | .ok v => create made { name := v.name, dims := v.dims, data := g.angles }

/-- `save_as_netcdf` (`sgrid.py:277-289`, `414-487`): the file written. The variable that describes
the grid holds nothing. -/
def save (fill : α) (g : SObj α) : Except Err (File α) := do
  let c ← twoNames g.faceCoords
  let made ← createFor g [] c.1 g.centerLon
  let made ← createFor g made c.2 g.centerLat
  let made ← createNodes g made
  let t ← g.var g.topVar
  let made ← create made
    { name := t.name, dims := [], attrs := topologyAttrs g, topDim := some (.ok 2), data := fill }
  let made ← createAngle g made
  .ok { dims := g.dims, vars := saveRest fill g made g.variables }

/-! ## Equality -/

/-- What `__eq__` looks at (`sgrid.py:156-179`): arrays, or nothing. -/
abbrev Field (β : Type) := Option (List Nat × List β)

/-- `np.array_equal`; `same` is equality of values, false for NaN with itself. -/
def arrayEqual {β : Type} (same : β → β → Bool) (a b : Field β) : Bool :=
  match a, b with
  | none, none => true
  | some (s, x), some (s', y) => decide (s = s') && decide (x.length = y.length) &&
      (x.zip y).all (fun p => same p.1 p.2)
  | _, _ => false

/-- The parts of a grid; the paddings of the faces as the property gives them. -/
structure Parts (β : Type) where
  nodeLon : Field β := none
  nodeLat : Field β := none
  nodeMask : Field β := none
  centerLon : Field β := none
  centerLat : Field β := none
  centerMask : Field β := none
  facePadding : Option Txt × Option Txt := (none, none)
  edge1Lon : Field β := none
  edge1Lat : Field β := none
  edge2Lon : Field β := none
  edge2Lat : Field β := none
  edge1Padding : Option Txt × Option Txt := (none, none)
  edge2Padding : Option Txt × Option Txt := (none, none)
  deriving DecidableEq, Repr

/-- `SGrid.__eq__` (`sgrid.py:156-179`). `faces` is `None` in every grid. -/
def eqGrid {β : Type} (same : β → β → Bool) (identical : Bool) (c c' : String) (g h : Parts β) :
    Bool :=
  if identical then true
  else if c ≠ c' then false
  else arrayEqual same g.nodeLon h.nodeLon && arrayEqual same g.nodeLat h.nodeLat &&
    arrayEqual same g.nodeMask h.nodeMask && arrayEqual same g.centerLon h.centerLon &&
    arrayEqual same g.centerLat h.centerLat && arrayEqual same g.centerMask h.centerMask &&
    decide (g.facePadding = h.facePadding)

end Verif.SFile
