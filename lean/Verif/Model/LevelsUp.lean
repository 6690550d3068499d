import Verif.Model.DepthFile

/-!
# Level depths of a variable with a `positive` attribute

CF requires the attribute `positive` of a vertical coordinate to say whether its values count upwards
or downwards. No code in `gridded` reads it.
-/

set_option autoImplicit false

namespace Verif.LevelsUp
open Verif

/-- The variable of a file that holds the levels. -/
structure LevelVar (K : Type) where
  values : List K
  positive : Option String

/-- `L_Depth.from_netCDF`, `gridded/depth.py:171-189`, without terms of the caller: `tvar[:]` (line 184)
is all that is read of the variable. -/
def loadVar {K : Type} [Field K] [LinearOrder K] (v : LevelVar K) : Except Err (List K) :=
  match DepthFile.makeLevels none (some v.values) with
  | .error e => .error e
  | .ok r => .ok r.1

end Verif.LevelsUp
