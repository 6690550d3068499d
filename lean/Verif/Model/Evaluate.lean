import Verif.Model.At
import Verif.Model.Var

/-!
# A variable object and its evaluation, `gridded/variable.py:477-770`

`Verif.Model.At` has the stages of an evaluation for given axes. Here the variable decides which
stages there are: by its order of dimensions, assigned or made up from the number of dimensions of
the data, and by the axes it happens to have. Left out: the result cache and the arrangement of the
points (see `Verif.Model.At`), and `unmask`.
-/

set_option autoImplicit false

namespace Verif.Evaluate
open Verif.TimeM Verif.DepthM Verif.At

/-- What `variable.depth` is: nothing, a `DepthBase` (surface only, with its surface index), or a
depth with levels. -/
inductive DepthObj (K P : Type) where
  | absent
  | surface (index : Int)
  | sys (ds : DepthSys K P)

/-- Whether there is one. -/
def DepthObj.isSome {K P : Type} : DepthObj K P → Bool
  | .absent => false
  | _ => true

/-- Data by their dimensions before the horizontal ones; `σ` is one horizontal slice. -/
inductive Lead (σ : Type) where
  | zero (s : σ)
  | one (d : List σ)
  | two (d : List (List σ))

/-- The sizes of these dimensions. -/
def Lead.shape {σ : Type} : Lead σ → List Nat
  | .zero _ => []
  | .one d => [d.length]
  | .two d => [d.length, (d.headD []).length]

/-- What indexing leaves: one horizontal slice, or an array with more or fewer dimensions. -/
inductive Rest (σ : Type) where
  | slice (s : σ)
  | other

/-- `data[slices]`. -/
def Lead.get {σ : Type} : Lead σ → List Int → Except Err (Rest σ)
  | .zero s, [] => .ok (.slice s)
  | .one d, [i] => match Np.pyGet d i with
    | .error e => .error e
    | .ok s => .ok (.slice s)
  | .two d, [i, k] => match slice2 d i k with
    | .error e => .error e
    | .ok s => .ok (.slice s)
  | _, _ => .ok .other

/-- A variable: whether its grid is structured, its axes, its data (dimensions before the horizontal
ones, and the sizes of those), and the order of dimensions if one was assigned. -/
structure Variable (K P σ : Type) where
  structured : Bool
  time : Option (List Int)
  depth : DepthObj K P
  data : Lead σ
  horiz : List Nat
  order : Option (List String)

/-- The three kinds of stages. -/
inductive Axis where
  | time
  | depth
  | xy
  deriving DecidableEq, Repr

section
variable {K P σ : Type} [Field K] [DecidableEq K]

/-- The property `dimension_ordering`, `variable.py:477-518`. -/
def Variable.ordering (v : Variable K P σ) : Except Err (List String) :=
  match v.order with
  | some o => .ok o
  | none => Var.generate v.structured v.time.isSome v.depth.isSome
      (v.data.shape.length + v.horiz.length)

/-- `order.index(name)` and `order[... + 1]`, `variable.py:675-676, 715-716`. -/
def place (order : List String) (name : String) : Except Err (Nat × String) :=
  match order.findIdx? (· = name) with
  | none => .error .valueError
  | some i => match order[i + 1]? with
    | none => .error .indexError
    | some next => .ok (i, next)

/-- The body of `_time_interp`, `variable.py:681-694`: `val slices` is what the next stage gives. At
and beyond the ends the slices so far are dropped (lines 683 and 685). -/
def timeBody (times : List Int) (val : List Int → Except Err (List (Cell K))) (pre : List Int)
    (t : Int) (extrapolate : Bool) : Except Err (List (Cell K)) :=
  match minTime times with
  | .error e => .error e
  | .ok lo =>
    if t = lo ∨ (extrapolate = true ∧ t < lo) then val [0]
    else match maxTime times with
      | .error e => .error e
      | .ok hi =>
        if t = hi ∨ (extrapolate = true ∧ hi < t) then val [-1]
        else match indexOf times t false with
          | .error e => .error e
          | .ok ind =>
            match val (pre ++ [(ind : Int) - 1]), val (pre ++ [(ind : Int)]),
              interpAlpha (fun x => x) times t extrapolate with
            | .ok v0, .ok v1, .ok a => .ok (List.zipWith (fun x y => mixCell x y (some a)) v0 v1)
            | .error e, _, _ => .error e
            | _, .error e, _ => .error e
            | _, _, .error e => .error e

/-- `_xy_interp`, `variable.py:646-656`. -/
def read (d : Lead σ) (xy : Rest σ → List P → Except Err (List (Cell K))) (pre : List Int)
    (pts : List P) : Except Err (List (Cell K)) :=
  match d.get pre with
  | .error e => .error e
  | .ok r => xy r pts

/-- The stages calling each other: `_xy_interp`, `_time_interp` and `_depth_interp`,
`variable.py:630-770`. The first argument bounds the depth of calls (Python's recursion limit). A
variable without the axis fails with `AttributeError`; so does one with a surface-only depth, which
has no `num_levels` (line 724). `xy` is the horizontal interpolation. -/
def stage (v : Variable K P σ) (order : List String)
    (xy : Rest σ → List P → Except Err (List (Cell K))) (t : Int) (extrapolate : Bool) :
    Nat → Axis → List Int → List P → Except Err (List (Cell K))
  | 0, _, _, _ => .error .runtimeError
  | _ + 1, .xy, pre, pts => read v.data xy pre pts
  | n + 1, .time, pre, pts => match place order "time" with
    | .error e => .error e
    | .ok (_, next) => match v.time with
      | none => .error .attributeError
      | some times => timeBody times
          (fun s => stage v order xy t extrapolate n (if next = "depth" then .depth else .xy) s pts)
          pre t extrapolate
  | n + 1, .depth, pre, pts => match place order "depth" with
    | .error e => .error e
    | .ok (i, next) => match v.depth with
      | .absent => .error .attributeError
      | .surface _ => .error .attributeError
      | .sys ds => match (v.data.shape ++ v.horiz)[i]? with
        | none => .error .indexError
        | some m => depthStage ds m
            (fun k ps => stage v order xy t extrapolate n (if next = "time" then .time else .xy)
              (pre ++ [k]) ps) pts

/-- `Variable.at`, `variable.py:610-616`. -/
def at' (v : Variable K P σ) (xy : Rest σ → List P → Except Err (List (Cell K))) (limit : Nat)
    (pts : List P) (t : Int) (extrapolate : Bool) : Except Err (List (Cell K)) :=
  match v.ordering with
  | .error e => .error e
  | .ok order => match order[0]? with
    | none => .error .indexError
    | some first => stage v order xy t extrapolate limit
        (if first = "time" then .time else if first = "depth" then .depth else .xy) [] pts

/-- Time and depth of a variable of a file, `variable.py:243-273`, when neither is given: `found` is
the time axis found for the data, `now` the time of `Time()`, used without one; `axis` is what
`Depth.from_netCDF` makes of the file. -/
def ofFile (structured : Bool) (found : Option (List Int)) (now : Int) (axis : DepthObj K P)
    (data : Lead σ) (horiz : List Nat) : Variable K P σ where
  structured := structured
  time := some (found.getD [now])
  depth := if data.shape.length + horiz.length
      = (if structured then 3 else 2) + (if found.isSome then 1 else 0) then axis else .absent
  data := data
  horiz := horiz
  order := none

end

end Verif.Evaluate
