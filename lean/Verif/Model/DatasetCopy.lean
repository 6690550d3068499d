import Verif.Model.Dataset
import Verif.Model.UVars

/-!
# A dataset on an unstructured grid, loaded from a file and saved to another
-/

set_option autoImplicit false

namespace Verif.DatasetCopy
open Verif

/-- A file: its variables, their values and attributes by name, and its own attributes. -/
structure File (K : Type) where
  vars : List Dataset.NcVar
  data : String → List K
  attrs : String → List (String × String)
  globals : List (String × String)

/-- A dataset: its variables by key, and its attributes. -/
structure DS (K : Type) where
  byKey : List (String × UVars.SVar K)
  attributes : List (String × String)

/-- What is in the new file besides the grid. -/
structure Out (K : Type) where
  vars : List (UVars.OutVar K)
  globals : List (String × String)
  deriving DecidableEq

section
variable {K : Type}

/-- `Variable.from_netCDF` as a dataset calls it (`gridded.py:175-182`, `variable.py:236-288`): the name
of the variable is the long name if there is one. Time and depth are left out. -/
def buildVar (f : File K) (v : Dataset.NcVar) (ln loc : String) : Except Err (UVars.SVar K) :=
  .ok { name := ln, location := some loc, shape := v.shape, data := f.data v.name,
        attrs := f.attrs v.name }

/-- `Dataset.from_netCDF`, `gridded.py:85-103`, without the grid. -/
def load (topology : List (String × String)) (infer : Dataset.NcVar → Except Err (Option String))
    (f : File K) : Except Err (DS K) :=
  match Dataset.loadVars topology infer (buildVar f) f.vars with
  | .error e => .error e
  | .ok vs => .ok ⟨vs, f.globals⟩

/-- `Dataset.save`, `gridded.py:204-223`, and `UGrid.save`, `ugrid.py:992-1201`, after the grid is written
(`used` are the names it takes). The values of the dictionary are written under their own names
(line 1189), the keys are not used; the attributes of the dataset are not written. -/
def save (mesh : String) (g : UIO.UGrid K) (used : List String) (ds : DS K) : Except Err (Out K) :=
  match UVars.saveVars mesh g used (ds.byKey.map (·.2)) with
  | .error e => .error e
  | .ok os => .ok ⟨os, []⟩

/-- Load and save. -/
def copy (topology : List (String × String)) (infer : Dataset.NcVar → Except Err (Option String))
    (mesh : String) (g : UIO.UGrid K) (used : List String) (f : File K) : Except Err (Out K) :=
  match load topology infer f with
  | .error e => .error e
  | .ok ds => save mesh g used ds

end

end Verif.DatasetCopy
