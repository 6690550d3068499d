import Verif.Model.Util

/-!
# Vector variables (`gridded/variable.py`)

The names of the components, the constructor, the reported units and the evaluation at points.
-/

set_option autoImplicit false

namespace Verif.Vector
open Verif
open Verif.Util (Arr FVar reorganize)
open Verif.Cache (lookup Obj query store)

/-! ## Names of the components -/

/-- `hasattr(var, "standard_name") and var.standard_name == n or hasattr(var, "long_name") and
var.long_name == n` (`variable.py:801-806`). -/
def described (n : String) (v : FVar) : Bool := v.standardName == some n || v.longName == some n

/-- `Variable._gen_varname` (`variable.py:773-808`). -/
def genVarname (names stdNames : List String) (ds : List FVar) : Except Err String :=
  match names.find? (fun n => ds.any (fun v => v.name == n)) with
  | some n => .ok n
  | none => match stdNames.findSome? (fun n => ds.find? (described n)) with
    | some v => .ok v.name
    | none => .error .valueError

/-- The first loop for one component (`variable.py:1071-1077`): `continue` goes on with the
search. -/
def byName (ds : List FVar) (names : List String) : Option String :=
  names.foldl (fun acc n => if ds.any (fun v => v.name == n) then some n else acc) none

/-- The second loop for one component (`variable.py:1080-1090`): `break` leaves the loop over the
variables only. -/
def byDescription (ds : List FVar) (names : List String) : Option String :=
  names.foldl (fun acc n => match ds.find? (described n) with
    | some v => some v.name
    | none => acc) none

/-- `VectorVariable._gen_varnames` (`variable.py:1048-1091`). -/
def genVarnames (order : List String) (names stdNames : List (String × List String))
    (ds : List FVar) : List (String × Option String) :=
  order.map (fun k => (k,
    match byName ds ((lookup names k).getD []) with
    | some n => some n
    | none => byDescription ds ((lookup stdNames k).getD [])))

/-! ## Units -/

/-- What can be given as units: nothing, a text, or one for each component. -/
inductive Units where
  | missing
  | text (s : String)
  | each (us : List (Option String))
  deriving DecidableEq, Repr

/-- `len(set(l)) > 1`. -/
def varied {α : Type} [DecidableEq α] (l : List α) : Bool :=
  match l with
  | [] => false
  | a :: t => t.any (fun b => b ≠ a)

/-- The property `units` (`variable.py:1140-1152`). A text can be iterated over, too. -/
def reportedUnits : Units → Except Err Units
  | .missing => .ok .missing
  | .text s =>
    if varied s.toList then .ok (.text s)
    else match s.toList with
      | [] => .error .indexError
      | c :: _ => .ok (.text (String.ofList [c]))
  | .each us =>
    if varied us then .ok (.each us)
    else match us with
      | [] => .error .indexError
      | none :: _ => .ok .missing
      | some u :: _ => .ok (.text u)

/-- The units `VectorVariable.from_netCDF` passes on if none are given (`variable.py:1030-1033`). -/
def collectUnits (us : List (Option String)) : Except Err Units :=
  match us with
  | [] => .error .indexError
  | u :: t => if t.all (fun b => b == u) then
      .ok (match u with
        | none => .missing
        | some s => .text s)
    else .ok (.each (u :: t))

/-! ## Construction -/

/-- A component: a `Variable` with its units, time and grid, or any other array. -/
inductive Part (τ γ : Type) where
  | variable (units : Units) (time : τ) (grid : γ)
  | array
  deriving DecidableEq

/-- A vector variable. `named` are the attributes set for the components. -/
structure Made (τ γ : Type) where
  units : Units
  time : Option τ
  grid : Option γ
  parts : List (Part τ γ)
  named : List (String × Part τ γ)

section
variable {τ γ : Type}

/-- `isinstance(v, Variable)`. -/
def Part.isVariable : Part τ γ → Bool
  | .variable .. => true
  | .array => false

/-- `variables[0].units`. -/
def firstUnits : List (Part τ γ) → Except Err Units
  | [] => .error .indexError
  | .variable u _ _ :: _ => .ok u
  | .array :: _ => .error .attributeError

/-- `variables[0].time`. -/
def firstTime : List (Part τ γ) → Except Err τ
  | [] => .error .indexError
  | .variable _ t _ :: _ => .ok t
  | .array :: _ => .error .attributeError

/-- `for i, comp in enumerate(comp_order): setattr(self, comp, self.variables[i])`. -/
def nameParts : List String → List (Part τ γ) → Except Err (List (String × Part τ γ))
  | [], _ => .ok []
  | _ :: _, [] => .error .indexError
  | n :: ns, p :: ps => match nameParts ns ps with
    | .ok r => .ok ((n, p) :: r)
    | .error e => .error e

/-- `VectorVariable.__init__` (`variable.py:841-889`). Depth and file names, treated like the grid,
are left out, and times are given as `Time` objects. -/
def make (order : List String) (units : Units) (time : Option τ) (grid : Option γ)
    (variables : Option (List (Part τ γ))) : Except Err (Made τ γ) :=
  match variables with
  | none => .error .typeError
  | some vs => do
    let (u, t) ← if vs.all Part.isVariable then do
        let u ← if units = .missing then firstUnits vs else pure units
        let t ← match time with
          | none => (firstTime vs).map some
          | some t => pure (some t)
        pure (u, t)
      else pure (units, time)
    let u ← if u = .missing then firstUnits vs else pure u
    if vs.length < 2 then .error .valueError
    else do
      let g := match vs with
        | .variable _ _ g :: _ => some (grid.getD g)
        | _ => none
      let named ← nameParts order vs
      pure ⟨u, t, g, vs, named⟩

end

/-! ## Evaluation -/

/-- A query with its points normalised: points, time, and the options (units, extrapolation, ...). -/
structure Query (K T O : Type) where
  pts : Arr K
  time : T
  opts : O

/-- Points as given by the caller. -/
structure Given (K : Type) where
  points : Option (Arr K) := none
  lons : Option (List K) := none
  lats : Option (List K) := none

section
variable {K T O κ δ ν : Type} [DecidableEq κ]

/-- `np.column_stack((lons, lats))`. -/
def interleave : List K → List K → List K
  | x :: xs, y :: ys => x :: y :: interleave xs ys
  | _, _ => []

/-- `variable.py:599-602` and `1257-1260`. -/
def Given.resolve (g : Given K) : Except Err (Arr K) :=
  match g.points with
  | some p => .ok p
  | none => match g.lons, g.lats with
    | some xs, some ys =>
      if xs.length = ys.length then .ok ⟨[xs.length, 2], interleave xs ys⟩
      else .error .valueError
    | _, _ => .error .valueError

/-- `Variable.at` (`variable.py:520-629`): `key` is the pair of hashes, of the bytes of the points
and of the time; `hash` is the argument `_hash`; `eval` is the interpolation. -/
def componentAt (key : List K → T → κ) (eval : δ → Query K T O → Except Err (List ν))
    (o : Obj κ δ (List ν)) (g : Given K) (t : T) (opts : O) (hash : Option κ) (mem : Bool) :
    Obj κ δ (List ν) × Except Err (List ν) :=
  match g.resolve with
  | .error e => (o, .error e)
  | .ok p => match reorganize p with
    | .error e => (o, .error e)
    | .ok p' =>
      query .variable (fun _ => hash.getD (key p'.data t)) eval o ⟨p', t, opts⟩ mem

/-- `[var.at(...) for var in self.variables]`. -/
def allAt (at' : Obj κ δ (List ν) → Obj κ δ (List ν) × Except Err (List ν)) :
    List (Obj κ δ (List ν)) → List (Obj κ δ (List ν)) × Except Err (List (List ν))
  | [] => ([], .ok [])
  | o :: os => match at' o with
    | (o', .error e) => (o' :: os, .error e)
    | (o', .ok v) =>
      let r := allAt at' os
      (o' :: r.1, r.2.map (fun vs => v :: vs))

/-- `np.ma.column_stack` of columns. -/
def stack (cols : List (List ν)) : Except Err (List (List ν)) :=
  match cols with
  | [] => .error .valueError
  | c :: cs =>
    if cs.all (fun d => d.length == c.length) then
      .ok ((List.range c.length).map (fun i => (c :: cs).filterMap (fun d => d[i]?)))
    else .error .valueError

/-- A vector variable: its components and its own cache. -/
structure Vec (κ δ ν : Type) where
  comps : List (Obj κ δ (List ν))
  memo : List (κ × List (List ν))

/-- `VectorVariable.at` (`variable.py:1201-1286`). -/
def vectorAt (key : List K → T → κ) (eval : δ → Query K T O → Except Err (List ν))
    (s : Vec κ δ ν) (g : Given K) (t : T) (opts : O) (mem : Bool) :
    Vec κ δ ν × Except Err (List (List ν)) :=
  match g.resolve with
  | .error e => (s, .error e)
  | .ok p => match reorganize p with
    | .error e => (s, .error e)
    | .ok p' =>
      let h := key p'.data t
      match (if mem then lookup s.memo h else none) with
      | some v => (s, .ok v)
      | none =>
        let r := allAt (fun o => componentAt key eval o { points := some p' } t opts (some h) mem)
          s.comps
        match r.2 with
        | .error e => ({ s with comps := r.1 }, .error e)
        | .ok cols => match stack cols with
          | .error e => ({ s with comps := r.1 }, .error e)
          | .ok v =>
            (⟨r.1, if mem then store .vector s.memo h v else s.memo⟩, .ok v)

/-- What a user does: ask the vector, ask a component, assign data to a component. -/
inductive Op (K T O δ : Type) where
  | ask (g : Given K) (t : T) (opts : O) (mem : Bool)
  | askPart (i : Nat) (g : Given K) (t : T) (opts : O) (mem : Bool)
  | setData (i : Nat) (d : δ)

def step (key : List K → T → κ) (eval : δ → Query K T O → Except Err (List ν)) (s : Vec κ δ ν) :
    Op K T O δ → Vec κ δ ν
  | .ask g t opts mem => (vectorAt key eval s g t opts mem).1
  | .askPart i g t opts mem =>
    { s with comps := s.comps.modify i (fun o => (componentAt key eval o g t opts none mem).1) }
  | .setData i d => { s with comps := s.comps.modify i (fun o => { o with data := d }) }

/-- A history from components with empty caches. -/
def run (key : List K → T → κ) (eval : δ → Query K T O → Except Err (List ν)) (ds : List δ)
    (h : List (Op K T O δ)) : Vec κ δ ν :=
  h.foldl (step key eval) ⟨ds.map (fun d => ⟨d, []⟩), []⟩

end

end Verif.Vector
