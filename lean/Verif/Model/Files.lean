import Verif.Model.Util

/-!
# Results and points, and datasets named by arguments (`gridded/utilities.py:266-439`)
-/

set_option autoImplicit false

namespace Verif.Util
open Verif

/-! ## Results aligned with points -/

section
variable {K : Type*}

/-- `a.T`: an array of one dimension is its own transpose. Arrays of three dimensions or more are left
out. -/
def transposed (a : Arr K) : Except Err (Arr K) :=
  match a.shape with
  | [] => .ok a
  | [_] => .ok a
  | [r, c] => .ok ⟨[c, r], transposeData r c a.data⟩
  | _ => .error .notImplemented

/-- `_align_results_to_spatial_data` (`utilities.py:306-330`) for points that are not `None`. -/
def align (result points : Arr K) : Except Err (Arr K) :=
  let p := squeeze points
  match p.shape with
  | [] => .error .indexError
  | [n] => if n = 2 ∨ n = 3 then .ok result else .error .valueError
  | r :: c :: rest =>
    if rest = [] ∧ (r = 2 ∨ r = 3) ∧ (c = 2 ∨ c = 3) then .ok result
    else if 3 < r ∧ 3 < c then .error .valueError
    else match result.shape with
      | [] => .error .indexError
      | n :: more =>
        if r < c ∧ n = c then transposed result
        else if r = n ∧ more = [] then .ok ⟨[n, 1], result.data⟩
        else .ok result

end

/-! ## Datasets named by arguments -/

/-- What a caller gives for a file: a text, a path object, a list of names, or an open dataset, which is
known by its number. -/
inductive Src where
  | text (name : String)
  | path (name : String)
  | files (names : List String)
  | handle (h : Nat)
  deriving DecidableEq, Repr

/-- The datasets opened so far, each with the files it was opened from. A new one gets a new number. -/
structure Opened where
  next : Nat
  log : List (Nat × List String)
  deriving DecidableEq, Repr

/-- `nc4.Dataset(name)` or `nc4.MFDataset(names)`; `readable` tells which files can be opened (together).
Every failure to open is one exception here. -/
def openFiles (readable : List String → Bool) (names : List String) (s : Opened) :
    Except Err Nat × Opened :=
  if readable names ∧ names ≠ [] then (.ok s.next, ⟨s.next + 1, (s.next, names) :: s.log⟩)
  else (.error .runtimeError, s)

/-- `get_dataset` (`utilities.py:379-395`) without its second argument. `None` and the empty list end in
`MFDataset`, which refuses them. -/
def getDataset (readable : List String → Bool) (ncfile : Option Src) (s : Opened) :
    Except Err Nat × Opened :=
  match ncfile with
  | none => (.error .runtimeError, s)
  | some (.handle h) => (.ok h, s)
  | some (.text n) => openFiles readable [n] s
  | some (.path n) => openFiles readable [n] s
  | some (.files ns) => openFiles readable ns s

/-- `os.fspath` if it applies (`utilities.py:418-421`). -/
def fspath : Src → Src
  | .path n => .text n
  | x => x

/-- `parse_filename_dataset_args` (`utilities.py:398-436`): the dataset of the data and that of the
grid. `==` on paths and texts is equality of the objects as given: a text never equals a path. -/
def parseArgs (readable : List String → Bool) (filename : Option Src) (dataset : Option Nat)
    (dataFile gridFile : Option Src) (s : Opened) : Except Err (Nat × Nat) × Opened :=
  let dataFile := match filename with
    | some f => some (fspath f)
    | none => dataFile
  let gridFile := match filename with
    | some f => some (fspath f)
    | none => gridFile
  match dataset with
  | none =>
    if gridFile = dataFile then
      match getDataset readable gridFile s with
      | (.error e, s) => (.error e, s)
      | (.ok h, s) => (.ok (h, h), s)
    else
      match getDataset readable dataFile s with
      | (.error e, s) => (.error e, s)
      | (.ok d, s) =>
        match getDataset readable gridFile s with
        | (.error e, s) => (.error e, s)
        | (.ok g, s) => (.ok (d, g), s)
  | some d =>
    match gridFile with
    | none => (.ok (d, d), s)
    | some g =>
      match getDataset readable (some g) s with
      | (.error e, s) => (.error e, s)
      | (.ok g, s) => (.ok (d, g), s)

end Verif.Util
