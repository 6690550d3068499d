import Verif.Model.TimeHeap
import Verif.Model.SText

/-!
# Time axes of files, constant times (`gridded/time.py`)

The search for the time variable of a data variable, loading, and the constant time, which is one
object for the whole program.
-/

set_option autoImplicit false

namespace Verif.TimeM
open Verif

/-! ## The time axis of a variable in a file -/

/-- A netCDF variable: its dimensions, its attribute `time`, what `num2date` makes of its content
with its units, and what `parse_time_offset` (`time.py:48-83`) makes of its units; either fails if
there are no units or if they cannot be understood. -/
structure TVar (H : Type) where
  name : String
  dims : List String
  timeAttr : Option String
  times : Except Err (List Int)
  zone : Except Err (Option H × Option String)

/-- A file: its dimensions and variables. Files without groups. -/
structure TFile (H : Type) where
  dims : List String
  vars : List (TVar H)

/-- What is given as `varname`: a text, or something else that is not `None`. -/
inductive NameArg where
  | text (s : String)
  | other
  deriving DecidableEq, Repr

section
variable {H : Type}

/-- `dataset.variables[name]`. -/
def TFile.find (f : TFile H) (n : String) : Option (TVar H) := f.vars.find? (fun w => w.name == n)

/-- `Time.locate_time_var_from_var` (`time.py:178-184`): the attribute counts if there is a
dimension of that name; otherwise the first dimension, if it has `time` in its name. -/
def locateTime (f : TFile H) (v : TVar H) : Except Err (Option String) :=
  let byDimension : Except Err (Option String) := match v.dims with
    | [] => .error .indexError
    | d :: _ => .ok (if SText.contains "time".toList d.toList then some d else none)
  match v.timeAttr with
  | some n => if n ∈ f.dims then .ok (some n) else byDimension
  | none => byDimension

/-- The options passed on by all callers. -/
structure LoadArgs (H : Type) where
  tz : TzArg H := .absent
  userName : Option String := none
  newTz : Option H := none
  origin : Option Int := none
  disp : Option (Displ H) := none

/-- `time.py:256-285` for the variable found: the units are read only if no offset is given, the
content afterwards. -/
def loadTime (td : H → Int) (zero : H) (iso : H → String) (w : TVar H) (a : LoadArgs H) :
    Except Err (TimeObj H × Option String) :=
  let parsed : Except Err (Option H × Option String) := match a.tz with
    | .absent => w.zone
    | _ => .ok (none, none)
  match parsed with
  | .error e => .error e
  | .ok z => match w.times with
    | .error e => .error e
    | .ok data => fromNetCDF td zero iso data a.tz z a.userName a.newTz a.origin a.disp

/-- What `Time.from_netCDF` returns: the constant time, or a time of the file. -/
inductive Axis (H : Type) where
  | constant
  | read (t : TimeObj H) (name : Option String)

/-- `Time.from_netCDF` (`time.py:186-285`) on an open file. A name that is no text leaves the
variable unset. -/
def timeFromFile (td : H → Int) (zero : H) (iso : H → String) (f : TFile H) (varname : Option NameArg)
    (datavar : Option (String ⊕ TVar H)) (a : LoadArgs H) : Except Err (Axis H) :=
  let read (n : String) : Except Err (Axis H) := match f.find n with
    | none => .error .keyError
    | some w => (loadTime td zero iso w a).map fun r => .read r.1 r.2
  match varname, datavar with
  | none, none => .error .typeError
  | some (.text n), _ => read n
  | some .other, _ => .error .unboundLocal
  | none, some d =>
    let v : Except Err (TVar H) := match d with
      | .inl n => match f.find n with
        | none => .error .keyError
        | some v => .ok v
      | .inr v => .ok v
    match v with
    | .error e => .error e
    | .ok v => match locateTime f v with
      | .error e => .error e
      | .ok none => .ok .constant
      | .ok (some n) => read n

/-- The time of a variable loaded from a file without a time given (`variable.py:246-263`, the same in
`variable.py:975-992` with the first component): `Time()` is one time, that of the call. -/
def axisOf (td : H → Int) (zero : H) (iso : H → String) (now : Int) (f : TFile H) (v : TVar H)
    (a : LoadArgs H) : Except Err (TimeObj H) :=
  match locateTime f v with
  | .error e => .error e
  | .ok none => construct td [now] {}
  | .ok (some n) => match timeFromFile td zero iso f (some (.text n)) none a with
    | .error e => .error e
    | .ok (.read t _) => .ok t
    | .ok .constant => .error .runtimeError

end

/-! ## The constant time -/

/-- A program with the constant time: `Time._const_time` is the number of an object. -/
structure CWorld (H : Type) where
  world : World H := {}
  const : Option Nat := none

/-- Statements: those without the constant time, and `Time.constant_time()` at a time. -/
inductive CCmd (H : Type) where
  | base (c : Cmd H)
  | constant (now : Int)

variable {H : Type} (td : H → Int)

/-- One statement. `Time.constant_time` (`time.py:287-298`) makes an object at the first call and
returns it at all calls; `np.array` makes a new array, which no user holds. -/
def cexec (w : CWorld H) : CCmd H → CWorld H
  | .base c => { w with world := exec td w.world c }
  | .constant now => match w.const with
    | some _ => w
    | none => { world := exec td w.world (.timeFromList [now] {}),
                const := some w.world.objs.length }

/-- A whole program. -/
def cexecAll (w : CWorld H) (p : List (CCmd H)) : CWorld H := p.foldl (cexec td) w

end Verif.TimeM
