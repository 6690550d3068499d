import Verif.Model.Time

/-!
# `Time` objects and shared arrays

`Time.__init__` keeps the array it is given (`gridded/time.py:134, 138, 311`: `np.asarray` returns
an existing ndarray itself, and a `Time` argument contributes its own array), and every shift is an
in-place `+=`/`-=` on that array (lines 142, 148, 390, 392, 410). Here arrays live in a heap and
`Time` objects hold references to them.
-/

set_option autoImplicit false

namespace Verif.TimeM

/-- A `Time` object: reference to its array, offset and displacement. -/
structure ObjRef (H : Type) where
  ref : Nat
  tz : Option H
  disp : Option Int
  deriving DecidableEq, Repr

/-- Everything a user program can see: arrays (by reference), which of them the user created, and
`Time` objects. -/
structure World (H : Type) where
  arrays : List (List Int) := []
  user : List Nat := []
  objs : List (ObjRef H) := []

variable {H : Type} (td : H → Int)

/-- `Time.__init__`, `gridded/time.py:140-175`, on an array that is modified in place: the final
content of the array, also when an exception is raised part way, and the outcome. -/
def initInPlace (data : List Int) (a : Args H) : List Int × Except Err (Option H × Option Int) :=
  let d0 := shift 0 data
  match originShift a.origin d0 with
  | .error e => (d0, .error e)
  | .ok d1 =>
    let r : List Int × Except Err (Option H) :=
      match a.newTz with
      | none => (d1, .ok a.tz)
      | some n => match a.tz with
        | none => (d1, .error .valueError)
        | some o => (shift (td n) (shift (-(td o)) d1), .ok (some n))
    match r with
    | (d2, .error e) => (d2, .error e)
    | (d2, .ok tz) =>
      let (d3, dp) : List Int × Option Int := match a.disp with
        | none => (d2, none)
        | some d => (shift (d.micros td) d2, some (d.micros td))
      if !isAscending d3 then (d3, .error .timeSeriesError)
      else if hasDuplicates d3 then (d3, .error .timeSeriesError)
      else (d3, .ok (tz, dp))

/-- Statements of a user program. -/
inductive Cmd (H : Type) where
  | mkArray (xs : List Int)
  | timeFromList (xs : List Int) (a : Args H)
  | timeFromArray (r : Nat) (a : Args H)
  | timeFromTime (k : Nat) (a : Args H)
  | setTz (k : Nat) (o : Option H)
  | setDisp (k : Nat) (d : Option (Displ H))

/-- Run the constructor on the array at `r`. -/
def initAt (w : World H) (r : Nat) (a : Args H) : World H :=
  match w.arrays[r]? with
  | none => w
  | some data =>
    match initInPlace td data a with
    | (d, .ok (tz, dp)) =>
      { w with arrays := w.arrays.set r d, objs := w.objs ++ [{ ref := r, tz := tz, disp := dp }] }
    | (d, .error _) => { w with arrays := w.arrays.set r d }

/-- One statement. A statement about an object or array that does not exist does nothing. -/
def exec (w : World H) : Cmd H → World H
  | .mkArray xs => { w with arrays := w.arrays ++ [xs], user := w.user ++ [w.arrays.length] }
  | .timeFromList xs a => initAt td { w with arrays := w.arrays ++ [xs] } w.arrays.length a
  | .timeFromArray r a => if r ∈ w.user then initAt td w r a else w
  | .timeFromTime k a => match w.objs[k]? with
    | none => w
    | some o => initAt td w o.ref a
  | .setTz k o => match w.objs[k]? with
    | none => w
    | some ob => match w.arrays[ob.ref]? with
      | none => w
      | some data =>
        let t := TimeM.setTz td o { data := data, tz := ob.tz, disp := ob.disp }
        { w with arrays := w.arrays.set ob.ref t.data,
                 objs := w.objs.set k { ref := ob.ref, tz := t.tz, disp := t.disp } }
  | .setDisp k d => match w.objs[k]? with
    | none => w
    | some ob => match w.arrays[ob.ref]? with
      | none => w
      | some data =>
        match TimeM.setDisp td d { data := data, tz := ob.tz, disp := ob.disp } with
        | .error _ => w
        | .ok t => { w with arrays := w.arrays.set ob.ref t.data,
                            objs := w.objs.set k { ref := ob.ref, tz := t.tz, disp := t.disp } }

/-- A whole program. -/
def execAll (w : World H) (p : List (Cmd H)) : World H := p.foldl (exec td) w

/-- The data a user sees in object `k`. -/
def World.dataOf (w : World H) (k : Nat) : Option (List Int) :=
  match w.objs[k]? with
  | none => none
  | some o => w.arrays[o.ref]?

/-- Statements that build `Time`s from lists only (or do not build any). -/
def Cmd.listOnly : Cmd H → Bool
  | .timeFromArray _ _ => false
  | .timeFromTime _ _ => false
  | _ => true

end Verif.TimeM
