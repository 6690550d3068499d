import Verif.Model.Depth

/-!
# `Variable._depth_interp`, `gridded/variable.py:696-770`

`cols` holds, for every point, the values the next stage gives at that point for each level (or
layer) of the data; `m` is the number of levels (or layers) of the data. Reading a level is Python
indexing. Entries are what the depth object returned. Arithmetic is exact.

Simplification: the masked-array idioms (`np.unique` of a masked array, skipping the trailing masked
element, `d_indices == idx` being false where masked) are modelled as the comments in the source
say: masked points take no part. A horizontal mask of the values themselves is not modelled.
-/

set_option autoImplicit false

namespace Verif.DepthM

/-- One entry of the result array; `none` is NaN. -/
structure Cell (K : Type*) where
  value : Option K
  masked : Bool
  deriving DecidableEq, Repr

section
variable {K : Type*} [Field K]

/-- `uniq_idx`, `gridded/variable.py:745-747`. -/
def uniqIdx (ents : List (Entry K)) : List Int :=
  Np.unique ((ents.filter fun e => !e.masked).map Entry.idx)

/-- `np.where(d_indices == idx)[0]`, `gridded/variable.py:754, 764`. -/
def groupOf (ents : List (Entry K)) (k : Int) : List Nat :=
  (List.range ents.length).filter fun i => match ents[i]? with
    | some e => !e.masked && decide (e.idx = k)
    | none => false

/-- `values.put(lay_idxs, vals)`: stores and unmasks. -/
def putAll (out : List (Cell K)) : List (Nat × Option K) → List (Cell K)
  | [] => out
  | (i, v) :: t => putAll (out.set i { value := v, masked := false }) t

/-- Value of one level at one point. -/
def valAt (cols : List (List K)) (k : Int) (i : Nat) : Except Err K :=
  match cols[i]? with
  | some c => Np.pyGet c k
  | none => .error .indexError

/-- `v0 + (v1 - v0) * d_alphas`, `gridded/variable.py:765-767`, at one point; NaN alpha gives NaN. -/
def blendAt (ents : List (Entry K)) (cols : List (List K)) (k : Int) (i : Nat) :
    Except Err (Nat × Option K) :=
  match valAt cols (k + 1) i, valAt cols k i with
  | .ok v1, .ok v0 => match ents[i]? with
    | some e => .ok (i, e.alpha.map fun a => v0 + (v1 - v0) * a)
    | none => .error .indexError
  | .error e, _ => .error e
  | _, .error e => .error e

/-- A plain level or layer value at one point. -/
def plainAt (cols : List (List K)) (k : Int) (i : Nat) : Except Err (Nat × Option K) :=
  match valAt cols k i with
  | .ok v => .ok (i, some v)
  | .error e => .error e

/-- The loop for data on levels, `gridded/variable.py:758-769`. The variable `lay_idxs` is carried
from one turn to the next; the turn for the last level uses the one left by the turn before. -/
def levelLoop (m : Nat) (ents : List (Entry K)) (cols : List (List K)) :
    List Int → Option (List Nat) × List (Cell K) → Except Err (Option (List Nat) × List (Cell K))
  | [], st => .ok st
  | k :: ks, (lay, out) =>
    if k = (m : Int) - 1 then
      match lay with
      | none => .error .unboundLocal
      | some l => match mapE (plainAt cols k) l with
        | .error e => .error e
        | .ok vs => levelLoop m ents cols ks (some l, putAll out vs)
    else
      match mapE (blendAt ents cols k) (groupOf ents k) with
      | .error e => .error e
      | .ok vs => levelLoop m ents cols ks (some (groupOf ents k), putAll out vs)

/-- The loop for data on layers, `gridded/variable.py:750-755`. -/
def layerLoop (ents : List (Entry K)) (cols : List (List K)) :
    List Int → List (Cell K) → Except Err (List (Cell K))
  | [], out => .ok out
  | k :: ks, out =>
    let idx : Int := if k = -1 then 0 else k
    match mapE (plainAt cols idx) (groupOf ents idx) with
    | .error e => .error e
    | .ok vs => layerLoop ents cols ks (putAll out vs)

/-- `Variable._depth_interp`, `gridded/variable.py:731-770`. -/
def depthInterp (m numLayers : Nat) (ents : List (Entry K)) (cols : List (List K)) :
    Except Err (List (Cell K)) :=
  let init : List (Cell K) := ents.map fun e => { value := none, masked := e.masked }
  if ents.all Entry.masked then .ok init
  else if m = numLayers then layerLoop ents cols (uniqIdx ents) init
  else match levelLoop m ents cols (uniqIdx ents) (none, init) with
    | .ok st => .ok st.2
    | .error e => .error e

end

end Verif.DepthM
