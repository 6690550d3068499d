import Verif.Model.UIO
import Verif.Model.SText

/-!
# Meshes of a file, grouped variables, and saving variables

`gridded/pyugrid/read_netcdf.py:24-58, 137-152`, `gridded/pyugrid/uvar.py:41-73, 147-220`,
`gridded/variable.py:123-130` and `gridded/pyugrid/ugrid.py:1153-1202`.
-/

set_option autoImplicit false

namespace Verif.UVars
open Verif

/-! ## Which mesh of a file is loaded -/

/-- What `is_valid_mesh` looks at: `cf_role`, if it is there, and if so whether it is text; what
`int(topology_dimension)` gives, if the attribute is there. -/
structure MeshAttrs where
  cfRole : Option (Option (List Char))
  dimension : Option (Except Err Int)

/-- The variables of a file. -/
abbrev File := List (String × MeshAttrs)

/-- `is_valid_mesh` of a variable, `read_netcdf.py:52-59`. A missing attribute and a role that is no
text are `AttributeError`s, which are caught; other exceptions of `int` are not. -/
def isMeshVar (v : MeshAttrs) : Except Err Bool :=
  match v.cfRole with
  | none => .ok false
  | some none => .ok false
  | some (some r) =>
    if SText.strip r = "mesh_topology".toList then
      match v.dimension with
      | none => .ok false
      | some (.error e) => .error e
      | some (.ok d) => .ok (decide (d = 1 ∨ d = 2))
    else .ok false

/-- `is_valid_mesh`, lines 39-59. -/
def isValidMesh (f : File) (name : String) : Except Err Bool :=
  match Cache.lookup f name with
  | none => .ok false
  | some v => isMeshVar v

/-- `find_mesh_names`, lines 24-36. -/
def findMeshNames (f : File) : List String → Except Err (List String)
  | [] => .ok []
  | n :: ns => match isValidMesh f n with
    | .error e => .error e
    | .ok b => match findMeshNames f ns with
      | .error e => .error e
      | .ok ms => .ok (if b then n :: ms else ms)

/-- The name of the mesh to load, lines 137-152. -/
def meshToLoad (f : File) (name : Option String) : Except Err String :=
  match name with
  | some n => match isValidMesh f n with
    | .error e => .error e
    | .ok b => if b then .ok n else .error .valueError
  | none => match findMeshNames f (f.map Prod.fst) with
    | .error e => .error e
    | .ok [] => .error .valueError
    | .ok [m] => .ok m
    | .ok (_ :: _ :: _) => .error .valueError

/-! ## Grouped variables -/

/-- A data source: name, shape and item access. -/
structure Src (ι ν : Type) where
  name : String
  shape : List Nat
  get : ι → Except Err ν

/-- A `UMVar`. Attributes set with `setattr` are kept apart from the others: names of sources are
not those of attributes of the class. -/
structure Group (ι ν : Type) where
  shape : List Nat
  members : List String
  attrs : List (String × Src ι ν)
  cache : List (String × List ν)

section
variable {ι ν : Type}

/-- `UMVar.__init__`, lines 159-200. All sources are array-like here. -/
def group (loc : String) (data : Option (List (Src ι ν))) : Except Err (Group ι ν) :=
  if loc ∈ ["node", "edge", "face", "boundary", "none"] then
    match data with
    | none => .error .typeError
    | some [_] => .error .valueError
    | some [] => .error .indexError
    | some (d :: ds) =>
      if (d :: ds).all (fun x => decide (x.shape = d.shape)) then
        .ok { shape := d.shape, members := (d :: ds).map Src.name,
              attrs := (d :: ds).foldl (fun a x => Cache.assign a x.name x) [], cache := [] }
      else .error .valueError
  else .error .valueError

/-- `add_var`, lines 202-208. -/
def addVar (g : Group ι ν) (v : Src ι ν) : Except Err (Group ι ν) :=
  if v.shape ≠ g.shape then .error .valueError
  else if v.name ∈ g.members then .error .valueError
  else .ok { g with members := g.members ++ [v.name], attrs := Cache.assign g.attrs v.name v }

/-- The columns of an item, line 214. -/
def columns (g : Group ι ν) (i : ι) : List String → Except Err (List ν)
  | [] => .ok []
  | n :: ns => match Cache.lookup g.attrs n with
    | none => .error .attributeError
    | some s => match s.get i with
      | .error e => .error e
      | .ok c => match columns g i ns with
        | .error e => .error e
        | .ok cs => .ok (c :: cs)

/-- `__getitem__`, lines 210-220: the columns in the order of the variables. `str` is Python's `str`
of an item. -/
def getItem (str : ι → String) (g : Group ι ν) (i : ι) : Group ι ν × Except Err (List ν) :=
  match Cache.lookup g.cache (str i) with
  | some v => (g, .ok v)
  | none => match columns g i g.members with
    | .error e => (g, .error e)
    | .ok cs => ({ g with cache := Cache.store .item g.cache (str i) cs }, .ok cs)

/-- What a user does with a group. -/
inductive GOp (ι ν : Type) where
  | add (v : Src ι ν)
  | read (i : ι)

def gstep (str : ι → String) (g : Group ι ν) : GOp ι ν → Group ι ν
  | .add v => match addVar g v with
    | .ok g' => g'
    | .error _ => g
  | .read i => (getItem str g i).1

end

/-! ## Attributes of variables -/

/-- `UVar.__init__`, `uvar.py:63-71`, and `Variable.__init__`, `variable.py:123-130`: the attributes
of the variable, and the dictionary of the caller afterwards, which is the same object if given.
`nc` are the attributes of netCDF data. -/
def takeAttrs (given nc : Option (List (String × String))) :
    List (String × String) × Option (List (String × String)) :=
  let r := (nc.getD []).foldl (fun a kv => Cache.assign a kv.1 kv.2) (given.getD [])
  (r, given.map (fun _ => r))

/-! ## Saving variables -/

/-- A variable to be saved. -/
structure SVar (K : Type) where
  name : String
  location : Option String
  shape : List Nat
  data : List K
  attrs : List (String × String)

/-- A variable in the file, on one dimension. -/
structure OutVar (K : Type) where
  name : String
  dim : String
  data : List K
  attrs : List (String × String)
  deriving DecidableEq

section
variable {K : Type}

/-- Dimension, its size and the text for the attribute `coordinates`, `ugrid.py:1159-1181`. `len` of
`None` raises `TypeError`. -/
def place (mesh : String) (g : UIO.UGrid K) (loc : Option String) :
    Except Err (String × Nat × Option String) :=
  let coords := fun (l : String) => mesh ++ "_" ++ l ++ "_lon " ++ mesh ++ "_" ++ l ++ "_lat"
  let on := fun (l : String) (t : Option (List (List Int))) (c : Option (List (K × K))) =>
    (match t with
    | none => .error .typeError
    | some t => .ok (mesh ++ "_num_" ++ l, t.length, if c.isSome then some (coords l) else none) :
      Except Err (String × Nat × Option String))
  if loc = some "node" then .ok (mesh ++ "_num_node", g.nodes.length, some (coords "node"))
  else if loc = some "face" then on "face" g.faces g.faceCoords
  else if loc = some "edge" then on "edge" g.edges g.edgeCoords
  else if loc = some "boundary" then on "boundary" g.boundaries g.boundaryCoords
  else .error .valueError

/-- Setting the attributes of the variable on the file variable, lines 1200-1201. `netCDF4` refuses
`_FillValue` after the variable has been created, with an `AttributeError`. (It refuses a few more
names, such as `shape`, which are not attributes of data in files.) -/
def setAttrs (base : List (String × String)) :
    List (String × String) → Except Err (List (String × String))
  | [] => .ok base
  | kv :: rest =>
    if kv.1 = "_FillValue" then .error .attributeError
    else setAttrs (Cache.assign base kv.1 kv.2) rest

/-- One turn of `_save_variables`, lines 1158-1201; `used` are the names in the file. Assigning data
of another number of entries than the dimension raises. -/
def saveVar (mesh : String) (g : UIO.UGrid K) (used : List String) (v : SVar K) :
    Except Err (OutVar K) :=
  match place mesh g v.location with
  | .error e => .error e
  | .ok (dim, n, coords) =>
    if v.name ∈ used then .error .runtimeError
    else if v.shape.prod ≠ n then
      .error (if v.shape.length = 1 then .indexError else .valueError)
    else
      let base := [("location", v.location.getD ""), ("mesh", mesh)] ++
        (match coords with
        | some c => [("coordinates", c)]
        | none => [])
      match setAttrs base v.attrs with
      | .error e => .error e
      | .ok a => .ok { name := v.name, dim := dim, data := v.data, attrs := a }

/-- `_save_variables`, lines 1153-1201. -/
def saveVars (mesh : String) (g : UIO.UGrid K) :
    List String → List (SVar K) → Except Err (List (OutVar K))
  | _, [] => .ok []
  | used, v :: vs => match saveVar mesh g used v with
    | .error e => .error e
    | .ok o => match saveVars mesh g (v.name :: used) vs with
      | .error e => .error e
      | .ok os => .ok (o :: os)

end

end Verif.UVars
