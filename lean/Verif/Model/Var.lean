import Verif.Model.Np

/-!
# The state of a variable (`gridded/variable.py`)

Location, data, time, and the order of the dimensions. Data are represented by their shape and
their attribute `location`, a time axis by its length.
-/

set_option autoImplicit false

namespace Verif.Var
open Verif

/-- Data: the shape, and the attribute `location` of a netCDF variable. -/
structure Data where
  shape : List Nat
  location : Option String := none
  deriving DecidableEq, Repr

/-- The attributes of a `Variable` that matter here. `depth` says whether there is one; `loc` is
`_location`, `order` is `_order`. -/
structure State (γ : Type) where
  grid : Option γ
  depth : Bool
  loc : Option String
  data : Option Data
  time : Option Nat
  order : Option (List String)

/-- What can be assigned as time: nothing, a `Time` or a series that makes one, a series that
`Time` refuses, or something without a length. -/
inductive TimeArg where
  | none
  | series (n : Nat)
  | refused (n : Nat)
  | unsized
  deriving DecidableEq, Repr

/-- `VALID_LOCATIONS` (`gridded/__init__.py:7-9`), besides `None`. -/
def validLocations : List String := ["center", "edge1", "edge2", "node", "face", "edge", "boundary"]

section
variable {γ : Type}

/-- The property `location` (`variable.py:318-323`). -/
def State.location (s : State γ) : Option String :=
  match s.loc with
  | some l => some l
  | none => s.data.bind Data.location

/-- Assigning a location (`variable.py:325-331`). -/
def setLocation (s : State γ) (l : Option String) : Except Err (State γ) :=
  match l with
  | none => .ok { s with loc := none }
  | some x => if x ∈ validLocations then .ok { s with loc := some x } else .error .valueError

/-- `len(d) != len(self.time)` (`variable.py:382-383`). -/
def checkLength (time : Option Nat) (d : Data) : Except Err Unit :=
  match time with
  | none => .ok ()
  | some n => match d.shape with
    | [] => .error .typeError
    | m :: _ => if m = n then .ok () else .error .valueError

/-- Assigning data (`variable.py:378-393`); `infer` is `grid.infer_location`. -/
def setData (infer : γ → Data → Except Err (Option String)) (s : State γ) (d : Data) :
    Except Err (State γ) := do
  checkLength s.time d
  match s.grid with
  | none => .ok { s with data := some d }
  | some g => match s.location with
    | some _ => .ok { s with data := some d }
    | none => do
      let l ← infer g d
      let s' ← setLocation s l
      match s'.location with
      | none => .error .valueError
      | some _ => .ok { s' with data := some d }

/-- Assigning a time (`variable.py:358-372`). -/
def setTime (s : State γ) (t : TimeArg) : Except Err (State γ) :=
  let check (n : Nat) : Except Err Unit := match s.data with
    | none => .ok ()
    | some d => match d.shape with
      | [] => .error .indexError
      | m :: _ => if n ≠ m ∧ 1 < n then .error .valueError else .ok ()
  match t with
  | .none => .ok { s with time := none }
  | .series n => do
    check n
    .ok { s with time := some n }
  | .refused n => do
    check n
    .error .timeSeriesError
  | .unsized => if s.data.isSome then .error .typeError else .error .valueError

/-- `Variable.__init__` (`variable.py:106-118`). Data not given are `np.array(None)`, of shape
`()`. -/
def make (infer : γ → Data → Except Err (Option String)) (grid : Option γ) (depth : Bool)
    (location : Option String) (data : Option Data) (time : TimeArg) : Except Err (State γ) := do
  let s ← setLocation ⟨grid, depth, none, none, none, none⟩ location
  let s ← setData infer s (data.getD ⟨[], none⟩)
  setTime s time

/-- Assignments by the user. -/
inductive Op (γ : Type) where
  | location (l : Option String)
  | data (d : Data)
  | time (t : TimeArg)
  | order (o : Option (List String))
  | grid (g : Option γ)
  | depth (b : Bool)

/-- An assignment that raises changes nothing. -/
def keep (s : State γ) (r : Except Err (State γ)) : State γ :=
  match r with
  | .ok s' => s'
  | .error _ => s

/-- One assignment. -/
def step (infer : γ → Data → Except Err (Option String)) (s : State γ) (op : Op γ) : State γ :=
  match op with
  | .location l => keep s (setLocation s l)
  | .data d => keep s (setData infer s d)
  | .time t => keep s (setTime s t)
  | .order o => { s with order := o }
  | .grid g => { s with grid := g }
  | .depth b => { s with depth := b }

/-- `del order[1]`, `del order[0]`, `order[2:]`, and the errors
(`variable.py:499-518`). -/
def generate (structured time depth : Bool) (ndim : Nat) : Except Err (List String) :=
  let order := if structured then ["time", "depth", "lon", "lat"] else ["time", "depth", "ele"]
  if ndim = order.length then .ok order
  else if ndim + 1 = order.length then
    if time then .ok (order.eraseIdx 1)
    else if depth then .ok (order.eraseIdx 0)
    else .error .valueError
  else if ndim + 2 = order.length then .ok (order.drop 2)
  else .error .valueError

/-- The property `dimension_ordering` (`variable.py:477-518`). -/
def ordering (structured : γ → Bool) (s : State γ) : Except Err (List String) :=
  match s.order with
  | some o => .ok o
  | none => match s.data with
    | none => .error .attributeError
    | some d => generate ((s.grid.map structured).getD false) s.time.isSome s.depth d.shape.length

/-- Time and depth in `Variable.from_netCDF` (`variable.py:243-272`): `located` is the length of
the time axis found for the data in the file, `time` and `depth` are the arguments. Every grid is
structured or not. Without a time axis `Time()` is used, of length 1. -/
def fileParts (structured : Bool) (ndim : Nat) (located time : Option Nat) (depth : Bool) :
    Nat × Bool :=
  let istime : Nat := match time, located with
    | some _, _ => 1
    | none, some _ => 1
    | none, none => 0
  let t := match time, located with
    | some n, _ => n
    | none, some n => n
    | none, none => 1
  (t, depth || (ndim == (if structured then 3 else 2) + istime))

/-- `Variable.from_netCDF` (`variable.py:224-291`), with the grid and the data at hand. -/
def fromFile (structured : γ → Bool) (infer : γ → Data → Except Err (Option String)) (g : γ)
    (d : Data) (located time : Option Nat) (depth : Bool) (location : Option String) :
    Except Err (State γ) :=
  let p := fileParts (structured g) d.shape.length located time depth
  make infer (some g) p.2 (location.or d.location) (some d) (.series p.1)

end

end Verif.Var
