import Verif.Model.Np
import Verif.Model.Var

/-!
# Datasets (`gridded/gridded.py`)
-/

set_option autoImplicit false

namespace Verif.Dataset
open Verif

/-! ## Construction -/

/-- The arguments of `Dataset`. -/
structure Args (F G V A T : Type) where
  ncfile : Option F := none
  grid : Option G := none
  variables : Option (List (String × V)) := none
  topology : Option T := none
  attributes : Option (List (String × A)) := none

/-- A dataset. -/
structure DS (F G V A : Type) where
  filename : Option F
  grid : Option G
  variables : List (String × V)
  attributes : List (String × A)

section
variable {F G V A T : Type}

/-- `_init_from_netCDF` (`gridded.py:85-103`): `load` stands for the rest, with the file and the
topology. -/
def initFromFile (load : Option F → Option T → Except Err (DS F G V A))
    (filename gridFile : Option F) (variableFiles : Option (List F)) (topology : Option T) :
    Except Err (DS F G V A) :=
  if gridFile.isSome || variableFiles.isSome then .error .notImplemented
  else load filename topology

/-- `Dataset.__init__` (`gridded.py:30-83`). -/
def init (load : Option F → Option T → Except Err (DS F G V A)) (a : Args F G V A T) :
    Except Err (DS F G V A) :=
  match a.ncfile with
  | some f =>
    if a.grid.isSome || a.variables.isSome || a.attributes.isSome then .error .valueError
    else initFromFile load (some f) none none none
  | none => .ok ⟨none, a.grid, a.variables.getD [], a.attributes.getD []⟩

/-- `Dataset.from_netCDF` (`gridded.py:105-132`). -/
def fromNetCDF (load : Option F → Option T → Except Err (DS F G V A))
    (filename gridFile : Option F) (variableFiles : Option (List F)) (topology : Option T) :
    Except Err (DS F G V A) :=
  initFromFile load filename gridFile variableFiles topology

/-- `var.attributes[attr]`. -/
def attr (as : List (String × A)) (k : String) : Option A := (as.find? (fun kv => kv.1 == k)).map (·.2)

/-- `get_variables_by_attribute` (`gridded.py:225-242`): `attrs` are the attributes of a variable.
Values are compared with `==`, which is taken to be equality. -/
def byAttribute [DecidableEq A] (attrs : V → List (String × A)) (ds : DS F G V A) (k : String)
    (value : A) : List V :=
  (ds.variables.map (·.2)).filter (fun v => attr (attrs v) k == some value)

end

/-! ## Variables of a file -/

/-- A variable of a file. -/
structure NcVar where
  name : String
  longName : Option String := none
  location : Option String := none
  shape : List Nat := []
  deriving DecidableEq, Repr

/-- `str.split()`, one letter at a time: `cur` is the word being read. -/
def splitAux (cur : List Char) : List Char → List (List Char)
  | [] => if cur = [] then [] else [cur]
  | c :: cs =>
    if c.isWhitespace then (if cur = [] then splitAux [] cs else cur :: splitAux [] cs)
    else splitAux (cur ++ [c]) cs

/-- `str.split()`. -/
def split (s : String) : List (List Char) := splitAux [] s.toList

/-- `all([k not in str(v).split() for v in self.grid.grid_topology.values()])` (`gridded.py:156`). -/
def notGrid (topology : List (String × String)) (k : String) : Bool :=
  topology.all (fun kv => !(split kv.2).contains k.toList)

/-- The location of a variable (`gridded.py:161-167`). -/
def locate (infer : NcVar → Except Err (Option String)) (v : NcVar) : Except Err (Option String) :=
  match v.location with
  | some l => if l ∈ Var.validLocations then .ok (some l) else infer v
  | none => infer v

/-- `_variables_from_netCDF` (`gridded.py:144-183`): `infer` is `grid.infer_location`, `build` is
`Variable.from_netCDF` with the long name and the location. The names of a file are different, so
the dictionary is a list. -/
def loadVars {β : Type} (topology : List (String × String))
    (infer : NcVar → Except Err (Option String))
    (build : NcVar → String → String → Except Err β) : List NcVar → Except Err (List (String × β))
  | [] => .ok []
  | v :: vs =>
    if notGrid topology v.name then
      match locate infer v with
      | .error e => .error e
      | .ok none => loadVars topology infer build vs
      | .ok (some l) => match build v (v.longName.getD v.name) l with
        | .error e => .error e
        | .ok b => match loadVars topology infer build vs with
          | .error e => .error e
          | .ok r => .ok ((v.name, b) :: r)
    else loadVars topology infer build vs

/-- `Dataset.save` (`gridded.py:204-223`): `writable` is `get_writable_dataset`, `save` is
`grid.save`. Every file is written as netCDF 4. -/
def save {W : Type} (writable : Except Err W) (write : W → String → Except Err W)
    (format : String) : Except Err W :=
  if format = "netcdf3" ∨ format = "netcdf4" then do
    let w ← writable
    write w "netcdf4"
  else .error .valueError

end Verif.Dataset
