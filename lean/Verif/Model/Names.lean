import Verif.Model.Np

/-!
# Automatic names of objects

Classes count their objects in an attribute `_instance_count`; a class that has none yet reads that of
the classes it is derived from.
-/

set_option autoImplicit false

namespace Verif.Names
open Verif

/-- The classes: their names, and the classes searched for an attribute, in order, the class itself
first. -/
structure Classes where
  name : Nat → String
  mro : Nat → List Nat

/-- `cls._instance_count`: the own value or the first inherited one. `own c` is `none` while the
class has no value itself. -/
def read (cs : Classes) (own : Nat → Option Nat) (c : Nat) : Except Err Nat :=
  match (cs.mro c).findSome? own with
  | none => .error .attributeError
  | some n => .ok n

/-- `cls._instance_count = n`. -/
def write (own : Nat → Option Nat) (c n : Nat) : Nat → Option Nat :=
  fun d => if d = c then some n else own d

/-- `cls.__name__ + "_" + str(n)`. -/
def auto (cs : Classes) (c n : Nat) : String := cs.name c ++ "_" ++ toString n

/-- What is loaded or made: a variable, vector variable or sigma depth (`variable.py:237-239,
970-972`, `depth.py:472-474`), a level depth (`depth.py:179-180`), a grid (`grids.py:22-27`); of
which class, and with which name given. Level depths do not count; grids always do. -/
inductive Event where
  | loaded (c : Nat) (given : Option String)
  | level (c : Nat) (given : Option String)
  | grid (c : Nat) (given : Option String)

/-- One event: the counters and the name made, if one is. -/
def make (cs : Classes) (own : Nat → Option Nat) : Event → (Nat → Option Nat) × Except Err (Option String)
  | .loaded c none => match read cs own c with
    | .error e => (own, .error e)
    | .ok n => (write own c (n + 1), .ok (some (auto cs c n)))
  | .loaded _ (some _) => (own, .ok none)
  | .level c none => match read cs own c with
    | .error e => (own, .error e)
    | .ok n => (own, .ok (some (auto cs c n)))
  | .level _ (some _) => (own, .ok none)
  | .grid c g => match read cs own c with
    | .error e => (own, .error e)
    | .ok n => (write own c (n + 1), .ok (match g with
      | none => some (auto cs c n)
      | some _ => none))

/-- The names made in a history. -/
def names (cs : Classes) (own : Nat → Option Nat) : List Event → List String
  | [] => []
  | ev :: evs =>
    let r := make cs own ev
    let rest := names cs r.1 evs
    match r.2 with
    | .ok (some n) => n :: rest
    | _ => rest

end Verif.Names
