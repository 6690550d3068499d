import Verif.Model.Util
import Verif.Model.Depth
import Verif.Model.SIndex

/-!
# Depth objects loaded from files (`gridded/depth.py:142-189, 395-608, 833-857, 893-915, 983-1027`)
-/

set_option autoImplicit false

namespace Verif.DepthFile
open Verif Verif.Util

/-! ## Which systems a file can make -/

/-- `ROMS_Depth.default_names` (`depth.py:839-847`). -/
def romsNames : List (String × List String) :=
  [("Cs_r", ["Cs_r"]), ("Cs_w", ["Cs_w"]), ("s_rho", ["s_rho"]), ("s_w", ["s_w"]), ("hc", ["hc"]),
    ("bathymetry", ["h"]), ("zeta", ["zeta"])]

/-- `ROMS_Depth.cf_names` (`depth.py:849-857`). -/
def romsCf : List (String × List String) :=
  [("Cs_r", ["S-coordinate stretching curves at RHO-points"]),
    ("Cs_w", ["S-coordinate stretching curves at W-points"]),
    ("s_rho", ["S-coordinate at RHO-points"]), ("s_w", ["S-coordinate at W-points"]),
    ("hc", ["S-coordinate parameter, critical depth"]),
    ("bathymetry", ["bathymetry at RHO-points", "Final bathymetry at RHO-points"]),
    ("zeta", ["free-surface"])]

/-- `FVCOM_Depth.default_names` (`depth.py:895-903`). -/
def fvcomNames : List (String × List String) :=
  [("siglay", ["siglay"]), ("siglev", ["siglev"]), ("bathymetry", ["h"]), ("zeta", ["zeta"])]

/-- `FVCOM_Depth.cf_names` (`depth.py:905-913`). -/
def fvcomCf : List (String × List String) :=
  [("siglay", ["ocean_sigma/general_coordinate"]), ("siglev", ["ocean_sigma/general_coordinate"]),
    ("bathymetry", ["sea_floor_depth_below_geoid"]), ("zeta", ["sea_surface_height_above_geoid"])]

/-- `L_Depth.default_names` (`depth.py:144`). -/
def levelNames : List (String × List String) := [("depth_levels", ["depth", "depth_levels", "Depth"])]

/-- `L_Depth.cf_names` (`depth.py:145`). The entry is the text "depth" and not a list; the search goes
through its letters. -/
def levelCf : List (String × List String) := [("depth_levels", ["d", "e", "p", "t", "h"])]

/-- `S_Depth._can_create_from_netCDF` (`depth.py:588-608`) with the tables of a subclass: zeta may be
missing. -/
def canSigma (defaults cf : List (String × List String)) (ds : List FVar) (dg : Option (List FVar)) :
    Bool :=
  ((search defaults cf ds dg).filter fun kv => !(kv.1 == "zeta" && kv.2.isNone)).all
    fun kv => kv.2.isSome

/-- `Depth.from_netCDF` (`depth.py:998-1027`): class 0 is ROMS, class 1 FVCOM and class 2 level
depths. -/
def systemOf (ds : List FVar) (dg : Option (List FVar)) : Except Err DepthM.Kind :=
  DepthM.factory [canSigma romsNames romsCf ds dg, canSigma fvcomNames fvcomCf ds dg,
    canCreate levelNames levelCf ds dg]

/-! ## Averages of center data at the nodes -/

section
variable {K : Type} [Field K]

/-- `(a + b) / 2` of two entries, masked if one of them is. -/
def half : Option K → Option K → Option K
  | some a, some b => some ((a + b) / 2)
  | _, _ => none

/-- `(v[0:-1] + v[1:]) / 2` along one axis. -/
def means {α : Type} (f : α → α → α) (l : List α) : List α := List.zipWith f l.dropLast l.tail

/-- `psi_h` (`depth.py:523-524`), and `psi_z` for one time (`depth.py:549-550`). -/
def psi (A : List (List (Option K))) : List (List (Option K)) :=
  (means (List.zipWith half) A).map (means half)

end

/-! ## Loading a sigma depth -/

/-- Where the time of the depth comes from. -/
inductive TimeFrom where
  | given
  | ofZeta
  | ofFile
  | constant
  deriving DecidableEq, Repr

/-- Where bathymetry and zeta come from. -/
inductive FieldFrom (β : Type) where
  | given
  | zero
  | file (data : β)
  deriving DecidableEq

/-- A term as the object has it: the name a caller gave, or the variable of the file. -/
inductive Term where
  | text (name : String)
  | data (v : FVar)
  deriving DecidableEq, Repr

/-- The loaded object. -/
structure Made (β ζ : Type) where
  time : TimeFrom
  bathymetry : FieldFrom β
  zeta : FieldFrom ζ
  terms : List (String × Term)
  deriving DecidableEq

/-- What the caller of `S_Depth.from_netCDF` gives. `zeta` tells whether the given zeta has a time. -/
structure SArgs where
  time : Bool := false
  bathymetry : Bool := false
  zeta : Option Bool := none
  terms : Option (List (String × String)) := none

/-- `time` (`depth.py:484-509`). `Time.from_netCDF` without a variable is a `TypeError`. -/
def timeOf (a : SArgs) (zetaInFile : Bool) : Except Err TimeFrom :=
  if a.time then .ok .given
  else match a.zeta with
    | none => .ok (if zetaInFile then .ofFile else .constant)
    | some true => .ok .ofZeta
    | some false => .error .typeError

/-- `'node' in grid.infer_location(bathy_var)` (`depth.py:520,545`); `None` contains nothing. -/
def atNodes (loc : Option SIndex.Loc) : Except Err Bool :=
  match loc with
  | none => .error .typeError
  | some l => .ok (l == .node)

section
variable {β ζ : Type}

/-- `bathymetry` (`depth.py:511-530`). -/
def bathyOf (loc : β → Option SIndex.Loc) (avg : β → β) (a : SArgs) (bathyVar : Option β) :
    Except Err (FieldFrom β) :=
  if a.bathymetry then .ok .given
  else match bathyVar with
    | none => .error .valueError
    | some b => match atNodes (loc b) with
      | .error e => .error e
      | .ok n => .ok (.file (if n then b else avg b))

/-- `zeta` (`depth.py:532-551`). The location asked for is that of the bathymetry variable, which has
not been assigned if the bathymetry was given. -/
def zetaOf (loc : β → Option SIndex.Loc) (avg : ζ → ζ) (a : SArgs) (bathyVar : Option β)
    (zetaVar : Option ζ) : Except Err (FieldFrom ζ) :=
  match a.zeta with
  | some _ => .ok .given
  | none => match zetaVar with
    | none => .ok .zero
    | some z =>
      if a.bathymetry then .error .unboundLocal
      else match bathyVar with
        | none => .error .valueError
        | some b => match atNodes (loc b) with
          | .error e => .error e
          | .ok n => .ok (.file (if n then z else avg z))

/-- `terms` (`depth.py:553-562`, and `setattr` of each in `depth.py:384-386`). -/
def termsOf (a : SArgs) (found : List (String × Option FVar)) : List (String × Term) :=
  match a.terms with
  | some ts => ts.map fun kv => (kv.1, .text kv.2)
  | none => (found.filter fun kv => !(kv.1 == "bathymetry" || kv.1 == "zeta")).filterMap
      fun kv => kv.2.map fun v => (kv.1, .data v)

/-- `S_Depth.from_netCDF` (`depth.py:455-574`) of a subclass with a structured grid. `loc` is the
location that the grid infers for data; `bathyVar` and `zetaVar` are what the search found in the file;
`found` are all variables found. The name, the grid and `vtransform` are left out. -/
def makeSigma (loc : β → Option SIndex.Loc) (avgB : β → β) (avgZ : ζ → ζ) (a : SArgs)
    (bathyVar : Option β) (zetaVar : Option ζ) (found : List (String × Option FVar)) :
    Except Err (Made β ζ) :=
  match timeOf a zetaVar.isSome with
  | .error e => .error e
  | .ok time =>
    match bathyOf loc avgB a bathyVar with
    | .error e => .error e
    | .ok bathymetry =>
      match zetaOf loc avgZ a bathyVar zetaVar with
      | .error e => .error e
      | .ok zeta => .ok ⟨time, bathymetry, zeta, termsOf a found⟩

end

/-- The same for a ROMS file: shapes decide the location, and center data are averaged. -/
def makeRoms {K : Type} [Field K] (g : SIndex.Shapes) (a : SArgs)
    (bathyVar : Option (List (List (Option K)))) (zetaVar : Option (List (List (List (Option K)))))
    (found : List (String × Option FVar)) :
    Except Err (Made (List (List (Option K))) (List (List (List (Option K))))) :=
  makeSigma (fun b => SIndex.inferLocation g [b.length, SIndex.ncols b]) psi (List.map psi) a bathyVar
    zetaVar found

/-! ## Loading level depths -/

section
variable {K : Type} [Field K] [LinearOrder K]

/-- `L_Depth.from_netCDF` (`depth.py:171-189`): the levels of the object, and afterwards the array that
the caller gave. An array given by the caller is the array of the object. -/
def makeLevels (given : Option (List K)) (inFile : Option (List K)) :
    Except Err (List K × Option (List K)) :=
  match given with
  | some l => match DepthM.zeroTop l with
    | .error e => .error e
    | .ok l => .ok (l, some l)
  | none => match inFile with
    | none => .error .typeError
    | some l => match DepthM.zeroTop l with
      | .error e => .error e
      | .ok l => .ok (l, none)

end

end Verif.DepthFile
