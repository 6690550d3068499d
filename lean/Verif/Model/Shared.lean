import Verif.Model.Files

/-!
# Arguments shared by the parts of a vector, and two searches of datasets
(`variable.py:1298-1344`, `depth.py:112-139`, `utilities.py:496-510`)
-/

set_option autoImplicit false

namespace Verif.Shared
open Verif
open Verif.Util

/-! ## Shared arguments -/

/-- A grid that a function is called with: one the caller gave, known by its number, or one read from
the dataset of that number. -/
inductive GridArg where
  | given (n : Nat)
  | read (h : Nat)
  deriving DecidableEq, Repr

/-- The keyword arguments that matter here. The outer `none` is a keyword that is not given, `some none`
one that is given as `None`. Other keywords are passed on as they are and left out. -/
structure Kws where
  filename : Option (Option Src) := none
  dataFile : Option (Option Src) := none
  gridFile : Option (Option Src) := none
  dataset : Option (Option Nat) := none
  grid : Option (Option GridArg) := none
  deriving DecidableEq, Repr

/-- `_mod` (`variable.py:1310-1313`) for a keyword that is shared: it is missing or `None`. -/
def missing {α : Type} (x : Option (Option α)) : Bool := match x with
  | some (some _) => false
  | _ => true

/-- `kws["data_file"] = kws["grid_file"] = kws["filename"]` (`variable.py:1315-1316`). -/
def spread (k : Kws) : Kws := match k.filename with
  | some (some f) => { k with dataFile := some (some f), gridFile := some (some f) }
  | _ => k

/-- The datasets of the data and of the grid (`variable.py:1317-1332`) and the arguments with the first of
them set. -/
def datasets (readable : List String → Bool) (shareDataset : Bool) (k : Kws) (s : Opened) :
    Except Err (Option Nat × Kws) × Opened :=
  if shareDataset && missing k.dataset then
    match k.gridFile, k.dataFile with
    | some g, some d =>
      if g = d then
        match getDataset readable g s with
        | (.error e, s) => (.error e, s)
        | (.ok h, s) => (.ok (some h, { k with dataset := some (some h) }), s)
      else
        match getDataset readable d s with
        | (.error e, s) => (.error e, s)
        | (.ok h, s) =>
          match getDataset readable g s with
          | (.error e, s) => (.error e, s)
          | (.ok h', s) => (.ok (some h', { k with dataset := some (some h) }), s)
    | _, _ => (.ok (none, { k with dataset := some none }), s)
  else
    match k.gridFile with
    | some (some g) =>
      match getDataset readable (some g) s with
      | (.error e, s) => (.error e, s)
      | (.ok h, s) => match k.dataset with
        | none => (.error .keyError, s)
        | some _ => (.ok (some h, k), s)
    | _ => match k.dataset with
      | none => (.error .keyError, s)
      | some d => (.ok (d, k), s)

/-- What the decorated function is called with (`variable.py:1306-1340`). `shareDataset` and `shareGrid`
tell whether these two are among the shared names, as they are by default. `Grid.from_netCDF`
(`grids.py:534-536`) works out the dataset it reads from its own arguments, the file name and the dataset
of the grid; whether it can make a grid of it is left to `makes`. -/
def shared (readable : List String → Bool) (makes : Nat → Except Err Unit)
    (shareDataset shareGrid : Bool) (k : Kws) (s : Opened) : Except Err Kws × Opened :=
  match datasets readable shareDataset (spread k) s with
  | (.error e, s) => (.error e, s)
  | (.ok (dg, k), s) =>
    if shareGrid && missing k.grid then
      match k.filename with
      | none => (.error .keyError, s)
      | some f =>
        match parseArgs readable f dg none none s with
        | (.error e, s) => (.error e, s)
        | (.ok (_, h), s) => match makes h with
          | .error e => (.error e, s)
          | .ok _ => (.ok { k with grid := some (some (.read h)) }, s)
    else (.ok k, s)

/-! ## Searches -/

/-- `DepthBase._gen_varname` (`depth.py:112-139`) for given lists. The second loop compares the *names* of
variables that have a description. -/
def genDepthName (names stdNames : List String) (ds : List FVar) : Except Err String :=
  match names.find? (fun n => ds.any (fun v => v.name == n)) with
  | some n => .ok n
  | none =>
    match stdNames.find? (fun n =>
        ds.any (fun v => (v.standardName.isSome || v.longName.isSome) && v.name == n)) with
    | some n => .ok n
    | none => .error .keyError

/-- `search_dataset_for_any_long_name` (`utilities.py:496-510`) for a list of names; nothing found is
`None`. -/
def anyLongName (ds : List FVar) : List String → Option (List FVar)
  | [] => none
  | n :: ns => match byAttr ds n with
    | [] => anyLongName ds ns
    | v :: vs => some (v :: vs)

/-- What a table of names has for a key: a list of names or a single text. -/
inductive NamesFor where
  | list (ns : List String)
  | text (n : String)
  deriving DecidableEq, Repr

/-- `sum(list(names.values()), [])` (`utilities.py:504`): a text cannot be added to a list. -/
def flatNames : List (String × NamesFor) → Except Err (List String)
  | [] => .ok []
  | (_, .text _) :: _ => .error .typeError
  | (_, .list ns) :: rest => match flatNames rest with
    | .error e => .error e
    | .ok more => .ok (ns ++ more)

/-- The same search for a table of names. -/
def anyLongNameOf (ds : List FVar) (table : List (String × NamesFor)) : Except Err (Option (List FVar)) :=
  match flatNames table with
  | .error e => .error e
  | .ok ns => .ok (anyLongName ds ns)

end Verif.Shared
