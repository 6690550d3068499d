import Verif.Model.TimeFile
import Verif.Model.OffsetName

/-!
# The units of a time variable (`gridded/time.py:48-83, 256-285`)

The reading of dates is done by libraries: `dateutil.parser.parse` and `netCDF4.num2date` are
parameters. An offset from UTC is a whole number of seconds, as both libraries have it.
-/

set_option autoImplicit false

namespace Verif.TimeText
open Verif Verif.TimeM

/-- What `dateutil.parser.parse` makes of a date: `utcoffset()` in seconds and `tzname()`, if there
are any. -/
structure Stamp where
  offset : Option Int
  name : Option String
  deriving DecidableEq, Repr

/-- The libraries. `parse` is `none` for a `ParserError`; other exceptions of it are not modelled.
`num2date` has the units and the numbers of the variable. -/
structure Library where
  parse : List Char → Option Stamp
  num2date : List Char → List Int → Except Err (List Int)

/-- The text before and after the first occurrence of a word. -/
def cut (w : List Char) : List Char → Option (List Char × List Char)
  | [] => (SText.lit w []).map fun r => ([], r)
  | c :: s => match SText.lit w (c :: s) with
    | some r => some ([], r)
    | none => (cut w s).map fun p => (c :: p.1, p.2)

/-- `unit_str.split("since")[1]`, `time.py:66`: up to the next `since`, if there is one. -/
def reference (units : List Char) : Except Err (List Char) :=
  match cut "since".toList units with
  | none => .error .indexError
  | some (_, r) => match cut "since".toList r with
    | none => .ok r
    | some (a, _) => .ok a

/-- `parse_time_offset`, `time.py:66-83`: hours, `offset.total_seconds() / 3600`, with one rounding,
and a name. -/
def parseOffset (rnd : ℚ → ℚ) (lib : Library) (units : List Char) :
    Except Err (Option ℚ × Option String) :=
  match reference units with
  | .error e => .error e
  | .ok r =>
    let offset : Option Int := match lib.parse r with
      | none => none
      | some d => d.offset
    match offset with
    | none => .ok (none, none)
    | some s =>
      let hours := rnd ((s : ℚ) / 3600)
      let name : Option String := match lib.parse r with
        | none => none
        | some d => d.name
      .ok (some hours, match name with
        | none => some (String.ofList (OffsetName.isoString rnd hours))
        | some n => some n)

/-- `timedelta(hours=h)` in microseconds, as CPython computes it for a float: the whole hours exactly,
the rest times the microseconds of an hour with one rounding, and then the nearest whole number. -/
def deltaHours (rnd : ℚ → ℚ) (h : ℚ) : Int :=
  let whole : Int := if 0 ≤ h then ⌊h⌋ else ⌈h⌉
  whole * 3600000000 + round (rnd ((h - whole) * 3600000000))

/-- The time variable of a file: `tvar.units` raises if there is no such attribute,
`time.py:263, 272`. -/
def timeVar (rnd : ℚ → ℚ) (lib : Library) (name : String) (dims : List String)
    (units : Option (List Char)) (vals : List Int) : TVar ℚ :=
  { name := name, dims := dims, timeAttr := none,
    times := match units with
      | none => .error .attributeError
      | some u => lib.num2date u vals,
    zone := match units with
      | none => .error .attributeError
      | some u => parseOffset rnd lib u }

/-- `Time.from_netCDF(varname=name)`, `time.py:256-285`. -/
def load (rnd : ℚ → ℚ) (lib : Library) (w : TVar ℚ) (a : LoadArgs ℚ) :
    Except Err (TimeObj ℚ × Option String) :=
  loadTime (deltaHours rnd) 0 (fun h => String.ofList (OffsetName.isoString rnd h)) w a

end Verif.TimeText
