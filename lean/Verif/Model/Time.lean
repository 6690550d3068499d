import Verif.Model.Np
import Mathlib.Algebra.Order.Field.Basic
import Mathlib.Data.Int.Order.Basic
import Mathlib.Data.Int.Cast.Lemmas

/-!
# `gridded/time.py`: the `Time` class

A datetime is an integer number of microseconds; `timedelta` likewise. The conversion
`timedelta(hours=·)` is a parameter `td : H → Int` (an arbitrary function), so nothing depends on
how Python rounds it. Overflow of the datetime range is not modelled.
-/

set_option autoImplicit false

namespace Verif.TimeM

/-- The value of a `Time` object: its array, `_tz_offset` and `_displacement`
(`gridded/time.py:91-175`). A missing `_displacement` attribute and the value `None` behave the
same (lines 398, 404), so both are `none`. File and variable names are informational only and
left out. -/
structure TimeObj (H : Type) where
  data : List Int
  tz : Option H
  disp : Option Int
  deriving DecidableEq, Repr

/-- What may be assigned to `displacement`: a number of hours or a timedelta
(`gridded/time.py:408-409`). -/
inductive Displ (H : Type) where
  | hours (h : H)
  | delta (d : Int)
  deriving DecidableEq, Repr

/-- `data += d` on the array (elementwise). -/
def shift (d : Int) (l : List Int) : List Int := l.map (· + d)

/-- `_timeseries_is_ascending`, `gridded/time.py:346-347`: `np.all(np.sort(ts) == ts)`. -/
def isAscending (ts : List Int) : Bool := decide (Np.sort ts = ts)

/-- `_has_duplicates`, `gridded/time.py:349-350`. -/
def hasDuplicates (ts : List Int) : Bool :=
  decide ((Np.unique ts).length ≠ ts.length) && decide (ts.length ≠ 1)

variable {H : Type} (td : H → Int)

/-- `tz_offset` setter, `gridded/time.py:379-394`: undo the old offset, apply the new one, only if
both are known. -/
def setTz (o : Option H) (t : TimeObj H) : TimeObj H :=
  match t.tz, o with
  | some old, some new => { t with data := shift (td new) (shift (-(td old)) t.data), tz := o }
  | _, _ => { t with tz := o }

/-- Microseconds of an assigned displacement, `gridded/time.py:408-409`. -/
def Displ.micros : Displ H → Int
  | .hours h => td h
  | .delta d => d

/-- `displacement` setter, `gridded/time.py:402-414`. On the `AttributeError` the object is
unchanged. -/
def setDisp (d : Option (Displ H)) (t : TimeObj H) : Except Err (TimeObj H) :=
  match t.disp with
  | none =>
    match d with
    | none => .ok { t with disp := none }
    | some x => .ok { t with data := shift (x.micros td) t.data, disp := some (x.micros td) }
  | some _ => .error .attributeError

/-- Keyword arguments of the constructor, `gridded/time.py:91-103`. -/
structure Args (H : Type) where
  tz : Option H := none
  newTz : Option H := none
  origin : Option Int := none
  disp : Option (Displ H) := none

/-- The origin shift, `gridded/time.py:146-148`; `self.data[0]` on an empty array raises
`IndexError`. -/
def originShift (origin : Option Int) (data : List Int) : Except Err (List Int) :=
  match origin with
  | none => .ok data
  | some o =>
    match data with
    | [] => .error .indexError
    | x :: _ => .ok (shift (-(x - o)) data)

/-- `Time.__init__`, `gridded/time.py:133-175`, for data given as a sequence of datetimes. (An empty
Python list makes an array of floats, which is refused with `TypeError` at line 142; the empty list here
is an empty array of objects.)
The order of the steps is the program's: `+= 0`, origin, offset, new offset, displacement, checks.
-/
def construct (data : List Int) (a : Args H) : Except Err (TimeObj H) :=
  match originShift a.origin (shift 0 data) with
  | .error e => .error e
  | .ok d0 =>
    let t0 : TimeObj H := { data := d0, tz := a.tz, disp := none }
    let t1 : Except Err (TimeObj H) :=
      match a.newTz with
      | none => .ok t0
      | some n => match t0.tz with
        | none => .error .valueError
        | some _ => .ok (setTz td (some n) t0)
    match t1 with
    | .error e => .error e
    | .ok t1 =>
      let t2 : Except Err (TimeObj H) :=
        match a.disp with
        | none => .ok t1
        | some d => setDisp td (some d) t1
      match t2 with
      | .error e => .error e
      | .ok t2 =>
        if !isAscending t2.data then .error .timeSeriesError
        else if hasDuplicates t2.data then .error .timeSeriesError
        else .ok t2

/-- `min_time`, `gridded/time.py:352-359`: `data[0]`. -/
def minTime (data : List Int) : Except Err Int := Np.pyGet data 0

/-- `max_time`, `gridded/time.py:361-368`: `data[-1]`. -/
def maxTime (data : List Int) : Except Err Int := Np.pyGet data (-1)

/-- `time_in_bounds`, `gridded/time.py:422-430`; `or` does not evaluate `max_time` when the first
comparison holds. -/
def timeInBounds (data : List Int) (t : Int) : Except Err Bool :=
  match minTime data with
  | .error e => .error e
  | .ok lo =>
    if t < lo then .ok false
    else match maxTime data with
      | .error e => .error e
      | .ok hi => .ok (!decide (hi < t))

/-- `valid_time`, `gridded/time.py:432-443`. -/
def validTime (data : List Int) (t : Int) : Except Err Unit :=
  match timeInBounds data t with
  | .error e => .error e
  | .ok true => .ok ()
  | .ok false => .error .outOfTimeRange

/-- `index_of`, `gridded/time.py:445-464`. -/
def indexOf (data : List Int) (t : Int) (extrapolate : Bool) : Except Err Nat :=
  let body : Nat := if data.length = 1 then 0 else Np.searchsortedLeft data t
  if !(extrapolate || decide (data.length = 1)) then
    match validTime data t with
    | .error e => .error e
    | .ok _ => .ok body
  else .ok body

/-- The end of `interp_alpha`, `gridded/time.py:487-493`, after `index_of` returned `i0`. The
arithmetic on the result is in a field `K` with every operation passed through `rnd` (the identity
gives exact arithmetic): `(time - t0).total_seconds()` and `(t1 - t0).total_seconds()` are one
rounded conversion each and the quotient is rounded once more; a zero denominator raises
`ZeroDivisionError`. -/
def alphaFrom {K : Type*} [Field K] [DecidableEq K] (rnd : K → K) (data : List Int) (t : Int)
    (i0 : Nat) : Except Err K :=
  if (i0 : Int) > (data.length : Int) - 1 then .ok 1
  else if i0 = 0 then .ok 0
  else match Np.pyGet data ((i0 : Int) - 1), Np.pyGet data (i0 : Int) with
    | .ok t0, .ok t1 =>
      let num := rnd (((t - t0 : Int) : K) / 1000000)
      let den := rnd (((t1 - t0 : Int) : K) / 1000000)
      if den = 0 then .error .zeroDivision else .ok (rnd (num / den))
    | .error e, _ => .error e
    | _, .error e => .error e

/-- `interp_alpha`, `gridded/time.py:466-493`. -/
def interpAlpha {K : Type*} [Field K] [DecidableEq K] (rnd : K → K) (data : List Int) (t : Int)
    (extrapolate : Bool) : Except Err K :=
  let rest : Except Err K :=
    match indexOf data t extrapolate with
    | .error e => .error e
    | .ok i0 => alphaFrom rnd data t i0
  if !extrapolate && !decide (data.length = 1) then
    match validTime data t with
    | .error e => .error e
    | .ok _ => rest
  else rest

/-- `__eq__`, `gridded/time.py:336-341`, between two `Time` objects of the same class. -/
def eqTime [DecidableEq H] (a b : TimeObj H) : Bool :=
  decide (a.data = b.data) && decide (a.tz = b.tz)

/-! ## Histories of assignments to one object -/

/-- An assignment a user can make to a `Time`. -/
inductive Op (H : Type) where
  | setTz (o : Option H)
  | setDisp (d : Option (Displ H))
  deriving DecidableEq, Repr

/-- One assignment: the new object and the exception raised, if any. -/
def step (t : TimeObj H) : Op H → TimeObj H × Option Err
  | .setTz o => (setTz td o t, none)
  | .setDisp d => match setDisp td d t with
    | .ok t' => (t', none)
    | .error e => (t, some e)

/-- A history of assignments; exceptions are caught by the user and recorded. -/
def run (t : TimeObj H) : List (Op H) → TimeObj H × List (Option Err)
  | [] => (t, [])
  | op :: ops =>
    let (t1, r) := step td t op
    let (t2, rs) := run t1 ops
    (t2, r :: rs)

/-! ## Loading from netCDF -/

/-- The `tz_offset` argument of `from_netCDF`, `gridded/time.py:193, 257-268`. -/
inductive TzArg (H : Type) where
  | absent
  | naive
  | given (h : H)
  deriving DecidableEq, Repr

/-- The offset and its name as resolved in `gridded/time.py:256-270`: `parsed` is the result of
`parse_time_offset` on the units, `isoName` is `offset_as_iso_string`, `userName` the
`tz_offset_name` argument. -/
def resolveTz (zero : H) (isoName : H → String) (arg : TzArg H) (parsed : Option H × Option String)
    (userName : Option String) : Option H × Option String :=
  let (off, name) : Option H × Option String :=
    match arg with
    | .naive => (none, some "No Timezone Specified")
    | .absent =>
      match parsed.1 with
      | none => (some zero, some "UTC")
      | some p => (some p, parsed.2)
    | .given h => (some h, some (isoName h))
  (off, match userName with
    | none => name
    | some n => some n)

/-- `from_netCDF` after the variable has been found, `gridded/time.py:256-285`: `data` is what
`num2date` returned. -/
def fromNetCDF (zero : H) (isoName : H → String) (data : List Int) (arg : TzArg H)
    (parsed : Option H × Option String) (userName : Option String) (newTz : Option H)
    (origin : Option Int) (disp : Option (Displ H)) :
    Except Err (TimeObj H × Option String) :=
  let (off, name) := resolveTz zero isoName arg parsed userName
  match construct td data { tz := off, newTz := newTz, origin := origin, disp := disp } with
  | .error e => .error e
  | .ok t => .ok (t, name)

end Verif.TimeM
