import Verif.Model.Evaluate

/-!
# The options of a query: units and boundary conditions, `gridded/variable.py:524-635, 712-731` and
`gridded/depth.py:20-40, 145-156, 335-393, 232-239, 653-660`

`Verif.Model.Evaluate` takes the boundary conditions as part of the depth. Here they are chosen from
what the query, the variable and the depth object were given. Left out: the result cache (C19) and
the other keyword arguments, which change neither.
-/

set_option autoImplicit false

namespace Verif.Query
open Verif.DepthM Verif.At Verif.Evaluate

/-- Keyword arguments that are texts or `None`. -/
abbrev Kw := List (String × Option String)

/-- A named parameter with a default, or `kwargs.pop(name, default)`. -/
def Kw.get (kw : Kw) (name : String) (default : Option String) : Option String :=
  match kw.lookup name with
  | some x => x
  | none => default

/-- The two attributes of an object for points above the surface and below the bottom. -/
structure Conds where
  surface : Option String
  bottom : Option String
  deriving DecidableEq, Repr

/-- `DepthBase.__init__`, `depth.py:20-40`; the second parameter is spelt as it is there. -/
def baseConds (kw : Kw) : Conds where
  surface := kw.get "default_surface_boundary_condition" (some "extrapolate")
  bottom := kw.get "default_bottom_boundary_conditon" (some "mask")

/-- `L_Depth.__init__`, `depth.py:147-148`: all but the terms goes to `DepthBase`. -/
def levelConds (kw : Kw) : Conds := baseConds kw

/-- `S_Depth.__init__`, `depth.py:327-393`: what `DepthBase` sets is replaced at the end. -/
def sigmaConds (kw : Kw) : Conds where
  surface := kw.get "surface_boundary_condition" (some "extrapolate")
  bottom := kw.get "bottom_boundary_condition" (some "mask")

/-- `Variable.__init__`, `variable.py:58-59, 130-131`. -/
def variableConds (kw : Kw) : Conds where
  surface := kw.get "surface_boundary_condition" (some "extrapolate")
  bottom := kw.get "bottom_boundary_condition" (some "mask")

/-- What the comparisons with `"mask"` and `"extrapolate"` see. -/
def bc : Option String → BC
  | some "mask" => .mask
  | some "extrapolate" => .extrapolate
  | _ => .other

/-- A depth object: its conditions, and what it does under given ones. -/
structure DepthO (K P : Type) where
  conds : Conds
  sys : BC → BC → DepthSys K P

/-- `interpolation_alphas`, `depth.py:232-239` and `653-660`: `None` stands for the condition of the
object. -/
def DepthO.under {K P : Type} (d : DepthO K P) (surface bottom : Option String) : DepthSys K P :=
  d.sys (bc (match surface with | none => d.conds.surface | some s => some s))
    (bc (match bottom with | none => d.conds.bottom | some s => some s))

/-- A variable with its units, its conditions and its depth object; `base` has everything else. -/
structure QVar (K P σ : Type) where
  base : Variable K P σ
  depth : Option (DepthO K P)
  conds : Conds
  units : Option String

section
variable {K P σ : Type} [Field K] [DecidableEq K]

/-- The depth a query sees, `variable.py:712-713, 720-728`. -/
def QVar.depthFor (v : QVar K P σ) (kw : Kw) : DepthObj K P :=
  match v.depth with
  | none => .absent
  | some d => .sys (d.under (kw.get "surface_boundary_condition" v.conds.surface)
      (kw.get "bottom_boundary_condition" v.conds.bottom))

/-- `Variable.at`, `variable.py:524-628`: the units are a parameter nothing reads. -/
def QVar.at (v : QVar K P σ) (xy : Rest σ → List P → Except Err (List (Cell K))) (limit : Nat)
    (pts : List P) (t : Int) (_units : Option String) (extrapolate : Bool) (kw : Kw) :
    Except Err (List (Cell K)) :=
  at' { v.base with depth := v.depthFor kw } xy limit pts t extrapolate

/-- `VectorVariable.at`, `variable.py:1274-1292`: the columns of the components, each asked with the
units and the other options. -/
def vectorAt (vs : List (QVar K P σ)) (xy : Rest σ → List P → Except Err (List (Cell K)))
    (limit : Nat) (pts : List P) (t : Int) (units : Option String) (extrapolate : Bool) (kw : Kw) :
    Except Err (List (List (Cell K))) :=
  mapE (fun v => v.at xy limit pts t units extrapolate kw) vs

end

end Verif.Query
