import Verif.Model.UFlexIO

/-!
# Flexible meshes in files written by others

As `Model/UFlexIO.lean`, with a fill value and a first number of the file's own.
-/

set_option autoImplicit false

namespace Verif.UFlexFile
open Verif Verif.UFlexIO

/-- `var[:, :]`, `gridded/pyugrid/read_netcdf.py:215`, for a variable with the fill value `f`. -/
def readFill (f : Int) (t : List (List Int)) : List (List Entry) :=
  t.map (fun r => r.map (fun v => { value := v, masked := decide (v = f) }))

/-- The first number, lines 220-226: the attribute, or 1 if the largest number is the number of nodes.
The reduction skips masked entries; without others the comparison counts as false. An empty table
raises. -/
def firstNumber (n : Nat) (attr : Option Int) (a : List (List Entry)) : Except Err Int :=
  match attr with
  | some s => .ok s
  | none => if a.flatten = [] then .error .valueError
    else match UTopo.maxL (seen a) with
    | none => .ok 0
    | some mx => .ok (if mx = n then 1 else 0)

/-- `array -= start_index`, line 228: masked entries stay as they are. -/
def lower (s : Int) (a : List (List Entry)) : List (List Entry) :=
  a.map (fun r => r.map (fun e => if e.masked then e else { e with value := e.value - s }))

/-- Loading the faces, lines 207-236, for `n` nodes; the variable has no attribute `flag_values`. -/
def load (n : Nat) (attr : Option Int) (f : Int) (file : List (List Int)) :
    Except Err (List (List Entry)) :=
  let a := readFill f file
  let a := if a.length = 3 then transpose a else a
  match firstNumber n attr a with
  | .error e => .error e
  | .ok s => UFlexIO.setFaces n (if 1 ≤ s then lower s a else a)

end Verif.UFlexFile
