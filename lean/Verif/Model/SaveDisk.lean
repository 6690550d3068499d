import Verif.Model.DatasetCopy
import Verif.Model.UIO

/-!
# Saving a dataset where there may be a file already

`Dataset.save` creates the file, which empties one that is there, before it asks the grid to write.
-/

set_option autoImplicit false

namespace Verif.SaveDisk
open Verif

/-- The contents of a file: a mesh and its variables, what a failed save leaves, or anything else. -/
inductive Content (K : Type) where
  | mesh (grid : UIO.NC K) (vars : List (UVars.OutVar K))
  | unfinished
  | other (bytes : List Nat)

/-- Files by path. -/
abbrev Disk (K : Type) := String → Option (Content K)

/-- The disk after a file is written. -/
def put {K : Type} (d : Disk K) (path : String) (c : Content K) : Disk K :=
  fun q => if q = path then some c else d q

/-- The grid of a dataset. Only unstructured grids have a method `save`
(`gridded/pyugrid/ugrid.py:992`); structured ones have `save_as_netcdf`
(`gridded/pysgrid/sgrid.py:276`), rectangular ones none. -/
inductive AnyGrid (K : Type) where
  | unstructured (mesh : String) (g : UIO.UGrid K)
  | structured
  | rectangular

/-- `Dataset.save`, `gridded/gridded.py:204-223`, for a path (`get_writable_dataset`,
`gridded/utilities.py:447-449`, opens it with `mode="w", clobber=True`). `used` are the names the grid
takes in the file. -/
def save {K : Type} (used : List String) (grid : AnyGrid K) (ds : DatasetCopy.DS K) (format path : String)
    (d : Disk K) : Except Err Unit × Disk K :=
  if format ≠ "netcdf3" ∧ format ≠ "netcdf4" then (.error .valueError, d)
  else
    let opened := put d path .unfinished
    match grid with
    | .unstructured mesh g => match UIO.save g with
      | .error e => (.error e, opened)
      | .ok nc => match DatasetCopy.save mesh g used ds with
        | .error e => (.error e, opened)
        | .ok out => (.ok (), put opened path (.mesh nc out.vars))
    | .structured => (.error .attributeError, opened)
    | .rectangular => (.error .attributeError, opened)

/-- `VectorVariable.save`, `gridded/variable.py:1346-1362`: the format is checked, and that is all. The
components `vars` and the path are not used. -/
def saveVector {K : Type} (_vars : List (UVars.SVar K)) (format _path : String) (d : Disk K) :
    Except Err Unit × Disk K :=
  if format ≠ "netcdf3" ∧ format ≠ "netcdf4" then (.error .valueError, d) else (.ok (), d)

end Verif.SaveDisk
