import Verif.Model.Var
import Verif.Model.Vector

/-!
# Vector variables: assignments and loading (`gridded/variable.py`)
-/

set_option autoImplicit false

namespace Verif.Vector
open Verif

/-! ## Assigning a time or units -/

/-- A component: the shape of its data, its time and its units. -/
structure Comp (τ : Type) where
  shape : Option (List Nat)
  time : Option τ
  units : Units

/-- A vector variable. -/
structure VState (τ : Type) where
  comps : List (Comp τ)
  time : Option τ
  units : Units

/-- What can be assigned as time: nothing, a `Time`, a series that makes one, a series of some length
that `Time` refuses, or something without a length. -/
inductive TimeGiven (τ : Type) where
  | none
  | object (t : τ)
  | series (t : τ)
  | refused (n : Nat)
  | unsized

section
variable {τ : Type} (len : τ → Nat)

/-- `self.data is not None and len(t) != self.data.shape[0] and len(t) > 1` raises
(`variable.py:365-366`). -/
def lengthFits (c : Comp τ) (n : Nat) : Except Err Unit :=
  match c.shape with
  | none => .ok ()
  | some [] => .error .indexError
  | some (m :: _) => if n ≠ m ∧ 1 < n then .error .valueError else .ok ()

/-- Assigning a time to a component (`variable.py:359-372`). -/
def compSetTime (c : Comp τ) (t : TimeGiven τ) : Except Err (Comp τ) :=
  match t with
  | .none => .ok { c with time := none }
  | .object t | .series t => match lengthFits c (len t) with
    | .error e => .error e
    | .ok () => .ok { c with time := some t }
  | .refused n => match lengthFits c n with
    | .error e => .error e
    | .ok () => .error .timeSeriesError
  | .unsized => if c.shape.isSome then .error .typeError else .error .valueError

/-- `ValueError` and the exceptions derived from it are raised again as `ValueError`
(`variable.py:1128-1131`). -/
def reraised : Err → Err
  | .timeSeriesError => .valueError
  | .outOfTimeRange => .valueError
  | e => e

/-- `for v in self.variables: v.time = t` (`variable.py:1125-1131`): the components after the loop,
also if it was left early. -/
def eachSetTime (t : TimeGiven τ) : List (Comp τ) → List (Comp τ) × Except Err Unit
  | [] => ([], .ok ())
  | c :: cs => match compSetTime len c t with
    | .error e => (c :: cs, .error (reraised e))
    | .ok c' =>
      let r := eachSetTime t cs
      (c' :: r.1, r.2)

/-- Assigning a time to a vector variable (`variable.py:1121-1137`). `collections.Iterable` does not
exist (Python 3.10 and later), so whatever is not a `Time` ends in `AttributeError`, after the
components were set. -/
def setVectorTime (v : VState τ) (t : TimeGiven τ) : VState τ × Except Err Unit :=
  let r := eachSetTime len t v.comps
  let v' := { v with comps := r.1 }
  match r.2 with
  | .error e => (v', .error e)
  | .ok () => match t with
    | .object x => ({ v' with time := some x }, .ok ())
    | _ => (v', .error .attributeError)

/-- Assigning units to a vector variable (`variable.py:1154-1159`). -/
def setVectorUnits (v : VState τ) (u : Units) : VState τ :=
  { v with units := u, comps := v.comps.map fun c => { c with units := u } }

end

/-! ## Loading -/

section
variable {γ : Type}

/-- A variable of a file: its data, and the length of the time axis found for it. -/
structure FileVar where
  data : Var.Data
  located : Option Nat

/-- `[Variable.from_netCDF(varname=vn, ...) for vn in varnames if vn is not None]` with the time and
depth of the vector (`variable.py:1010-1029`). -/
def loadParts (structured : γ → Bool) (infer : γ → Var.Data → Except Err (Option String)) (g : γ)
    (find : String → Option FileVar) (time : Nat) (depth : Bool) :
    List (Option String) → Except Err (List (Var.State γ))
  | [] => .ok []
  | none :: ns => loadParts structured infer g find time depth ns
  | some n :: ns => match find n with
    | none => .error .indexError
    | some v => match Var.fromFile structured infer g v.data v.located (some time) depth none with
      | .error e => .error e
      | .ok s => match loadParts structured infer g find time depth ns with
        | .error e => .error e
        | .ok ss => .ok (s :: ss)

/-- `VectorVariable.from_netCDF` (`variable.py:885-1045`) and the naming of the components in
`variable.py:863-883`, with the grid at hand: `given` are names given by the caller, `found` those of
`_gen_varnames`. Time and depth come from the variable of the first name. Units and the names of files
are left out; loading a depth is taken to succeed. -/
def loadVector (order : List String) (structured : γ → Bool)
    (infer : γ → Var.Data → Except Err (Option String)) (g : γ) (find : String → Option FileVar)
    (given : Option (List (Option String))) (found : List (Option String)) (time : Option Nat)
    (depth : Bool) : Except Err (List (Var.State γ) × List (String × Var.State γ)) :=
  let names := given.getD found
  if given.isNone && names.all Option.isNone then .error .valueError
  else match names with
    | [] => .error .indexError
    | none :: _ => .error .typeError
    | some n :: _ => match find n with
      | none => .error .indexError
      | some v =>
        let p := Var.fileParts (structured g) v.data.shape.length v.located time depth
        match loadParts structured infer g find p.1 p.2 names with
        | .error e => .error e
        | .ok vs =>
          if vs.length < 2 then .error .valueError
          else if vs.length < order.length then .error .indexError
          else .ok (vs, order.zip vs)

end

end Verif.Vector
