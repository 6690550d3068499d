import Verif.Model.Np
import Mathlib.Algebra.Order.Field.Basic

/-!
# `gridded/depth.py`: depth objects

Arrays over the queried points are lists; a masked array entry is an `Entry`. The masks of the index
array and of the alpha array are changed together throughout (`gridded/depth.py:280-286, 766-783`),
so an entry has one flag. NaN is `none`. Every floating-point operation is passed through `rnd`.
-/

set_option autoImplicit false

namespace Verif.DepthM

/-- A boundary condition argument: the two documented strings, or any other string. -/
inductive BC where
  | mask
  | extrapolate
  | other
  deriving DecidableEq, Repr

/-- One point's depth index, alpha (`none` = NaN) and mask. -/
structure Entry (K : Type*) where
  idx : Int
  alpha : Option K
  masked : Bool
  deriving DecidableEq, Repr

/-- Apply a function that may raise to every element, stopping at the first exception. -/
def mapE {α β : Type*} (f : α → Except Err β) : List α → Except Err (List β)
  | [] => .ok []
  | a :: as => match f a with
    | .error e => .error e
    | .ok b => match mapE f as with
      | .error e => .error e
      | .ok bs => .ok (b :: bs)

/-- `DepthBase.interpolation_alphas`, `gridded/depth.py:67-90`. -/
def surfaceOnly {K : Type*} [Zero K] (surfaceIndex : Int) (n : Nat) : List (Entry K) :=
  List.replicate n { idx := surfaceIndex, alpha := some 0, masked := false }

section
variable {K : Type*} [Field K] [LinearOrder K]

/-- `(d - L0) / (L1 - L0)` with rounding; a zero denominator gives NaN (for a non-zero numerator
numpy gives an infinity instead; levels never repeat in the theorems). -/
def ratio (rnd : K → K) (d l0 l1 : K) : Option K :=
  let den := rnd (l1 - l0)
  if den = 0 then none else some (rnd (rnd (d - l0) / den))

/-- Index of the first smallest element (`np.argmin`); 0 for an empty list. -/
def argminFrom (best : K) (bestI i : Nat) : List K → Nat
  | [] => bestI
  | x :: xs => if x < best then argminFrom x i (i + 1) xs else argminFrom best bestI (i + 1) xs

/-- `np.argmin`; `ValueError` on an empty array. -/
def argmin : List K → Except Err Nat
  | [] => .error .valueError
  | x :: xs => .ok (argminFrom x 0 1 xs)

/-- `np.argmax`, as the `argmin` of the negatives. -/
def argmax (l : List K) : Except Err Nat := argmin (l.map fun x => -x)

/-! ## `L_Depth` -/

/-- First part of `L_Depth.interpolation_alphas` for one point, `gridded/depth.py:253-286`: from the
`digitize` result to the entry before in-range alphas are computed. `asc` is `L0 < L1`, `n` the
number of levels. -/
def levelEnds (n : Nat) (asc : Bool) (sbc bbc : BC) (idx : Int) : Entry K :=
  let above := if asc then decide (idx = -1) else decide (idx = (n : Int) - 1)
  let below := if asc then decide (idx = (n : Int) - 1) else decide (idx = -1)
  let aboveAlpha : K := if asc then 1 else 0
  let belowAlpha : K := if asc then 0 else 1
  -- lines 276-277
  let a0 : Option K := none
  let a1 := if above then some aboveAlpha else a0
  let a2 := if below then some belowAlpha else a1
  -- lines 280-282
  let m1 := if sbc = .mask then above else false
  -- line 283; a masked index compares unequal to -1
  let a3 := if idx = -1 ∧ m1 = false then some 1 else a2
  -- lines 284-286
  let m2 := if bbc = .mask then m1 || below else m1
  { idx := idx, alpha := a3, masked := m2 }

/-- `gridded/depth.py:288-293` for one point: alphas of points within the levels. -/
def levelWithin (rnd : K → K) (levels : List K) (d : K) (e : Entry K) : Except Err (Entry K) :=
  match e.alpha with
  | some _ => .ok e
  | none =>
    match Np.pyGet levels e.idx, Np.pyGet levels (e.idx + 1) with
    | .ok l0, .ok l1 => .ok { e with alpha := ratio rnd d l0 l1 }
    | .error x, _ => .error x
    | _, .error x => .error x

/-- `L_Depth.interpolation_alphas`, `gridded/depth.py:208-298`, for the array of the points' depths.
`shape0` is `data_shape[0]` when a shape is given. -/
def levelAlphas (rnd : K → K) (levels : List K) (shape0 : Option Nat) (sbc bbc : BC)
    (depths : List K) : Except Err (List (Entry K)) :=
  if shape0 = some 1 ∨ levels.length = 1 then
    match argmin levels with
    | .error e => .error e
    | .ok s => .ok (surfaceOnly (s : Int) depths.length)
  else
    match Np.pyGet levels 0, Np.pyGet levels (-1) with
    | .ok l0, .ok l1 =>
      let asc := decide (l0 < l1)
      match mapE (fun d => Np.digitize d levels (!asc)) depths with
      | .error e => .error e
      | .ok ks =>
        let ents : List (Entry K) :=
          ks.map fun k : Nat => levelEnds levels.length asc sbc bbc ((k : Int) - 1)
        match mapE (fun p : K × Entry K => levelWithin rnd levels p.1 p.2) (depths.zip ents) with
        | .error e => .error e
        | .ok out =>
          if out.any (fun e => e.alpha.isNone && !e.masked) then .error .valueError else .ok out
    | .error e, _ => .error e
    | _, .error e => .error e

/-- `L_Depth.from_netCDF`, `gridded/depth.py:186-187`: the shallowest level is set to zero. -/
def zeroTop (levels : List K) : Except Err (List K) :=
  match argmin levels with
  | .error e => .error e
  | .ok s => .ok (levels.set s 0)

/-! ## `S_Depth` -/

/-- `_apply_boundary_conditions`, `gridded/depth.py:741-784`, for one point. -/
def applyBC (surfIdx botIdx : Int) (sbc bbc : BC) (e : Entry K) : Entry K :=
  let excl := e.masked
  let above := if surfIdx = 0 then decide (e.idx < surfIdx) else decide (surfIdx ≤ e.idx)
  let below := if surfIdx = 0 then decide (botIdx ≤ e.idx) else decide (e.idx < botIdx)
  let aboveAlpha : K := if surfIdx = 0 then 1 else 0
  let belowAlpha : K := if surfIdx = 0 then 0 else 1
  let a1 := if above then some aboveAlpha else e.alpha
  let a2 := if below then some belowAlpha else a1
  let m0 := e.masked || (above || below)
  let m1 := if sbc = .extrapolate ∧ above = true then false else m0
  let m2 := if sbc = .mask ∧ above = true then true else m1
  let m3 := if bbc = .extrapolate ∧ below = true then false else m2
  let m4 := if bbc = .mask ∧ below = true then true else m3
  { idx := e.idx, alpha := a2, masked := m4 || excl }

/-- `gridded/depth.py:713-717` for one point and its own row of the depth profiles. The index is
replaced by 0 when masked and clipped to `[0, columns - 2]`; the bracketing depths are taken from
the row whether or not they are needed. -/
def sigmaWithin (rnd : K → K) (d : K) (row : List K) (e : Entry K) : Except Err (Entry K) :=
  let filled : Int := if e.masked then 0 else e.idx
  let clipped : Int := min (max filled 0) ((row.length : Int) - 2)
  match Np.pyGet row clipped, Np.pyGet row (clipped + 1) with
  | .ok l0, .ok l1 =>
    match e.alpha with
    | some _ => .ok e
    | none => .ok { e with alpha := ratio rnd d l0 l1 }
  | .error x, _ => .error x
  | _, .error x => .error x

/-- `S_Depth.interpolation_alphas`, `gridded/depth.py:628-723`. `profiles` is the result of
`get_depth_profile` (one row per point) and `colMask` its mask. -/
def sigmaAlphas (rnd : K → K) (surfIdx botIdx : Int) (numLevels numLayers shape0 : Nat)
    (sbc bbc : BC) (depths : List K) (profiles : List (List K)) (colMask : List Bool) :
    Except Err (List (Entry K)) :=
  if shape0 = 1 ∨ numLevels = 1 then .ok (surfaceOnly surfIdx depths.length)
  else if shape0 ≠ numLevels ∧ shape0 ≠ numLayers then .error .valueError
  else
    match mapE (fun p : K × List K => Np.digitize p.1 p.2 false) (depths.zip profiles) with
    | .error e => .error e
    | .ok ks =>
      let ents : List (Entry K) := (ks.zip colMask).map fun p =>
        applyBC surfIdx botIdx sbc bbc { idx := (p.1 : Int) - 1, alpha := none, masked := p.2 }
      match mapE (fun p : K × List K × Entry K => sigmaWithin rnd p.1 p.2.1 p.2.2)
          (depths.zip (profiles.zip ents)) with
      | .error e => .error e
      | .ok out =>
        if out.any (fun e => e.alpha.isNone && !e.masked) then .error .valueError
        else if out.any (fun e => match e.alpha with
            | some a => (decide (a < 0) || decide (1 < a)) && !e.masked
            | none => false) then .error .valueError
        else .ok out

/-! ## Water columns -/

/-- `ROMS_Depth.get_s_coordinate`, `gridded/depth.py:882-891`, one level at one point. Exact
arithmetic. An unknown transform leaves `s_coord` unbound. Division by zero is an error here (numpy
gives NaN or infinity). -/
def romsS (vtransform : Nat) (hc h zeta s c : K) : Except Err K :=
  if vtransform = 1 then
    let S := hc * s + h * c - hc * c
    if h = 0 then .error .zeroDivision else .ok (-(S + zeta * (1 + S / h)))
  else if vtransform = 2 then
    if hc + h = 0 then .error .zeroDivision
    else
      let S := (hc * s + h * c) / (hc + h)
      .ok (-(zeta + (zeta + h) * S))
  else .error .unboundLocal

/-- `FVCOM_Depth.get_s_coordinate`, `gridded/depth.py:946`, one level at one point. -/
def fvcomS (h zeta sigma : K) : K := -(zeta + (zeta + h) * sigma)

/-- `get_depth_profile`, `gridded/depth.py:829-830`, for ROMS: one row, levels `sc` paired with
their stretching. -/
def romsProfile (vtransform : Nat) (hc h zeta : K) (sc : List (K × K)) : Except Err (List K) :=
  mapE (fun p : K × K => match romsS vtransform hc h zeta p.1 p.2 with
    | .ok x => .ok (x + zeta)
    | .error e => .error e) sc

/-- `get_depth_profile`, `gridded/depth.py:829-830`, for FVCOM: one row. -/
def fvcomProfile (h zeta : K) (sigma : List K) : List K :=
  sigma.map fun s => fvcomS h zeta s + zeta

/-- `ROMS_Depth` used through `S_Depth.interpolation_alphas` for data on levels: surface and bottom
index (`gridded/depth.py:859-865`), number of levels (867-869), profiles (875-891). A point is its
depth, the bathymetry and free surface there, and whether they are masked. -/
def romsAlphas (rnd : K → K) (vtransform : Nat) (hc : K) (sc : List (K × K)) (numLayers : Nat)
    (sbc bbc : BC) (pts : List (K × K × K × Bool)) : Except Err (List (Entry K)) :=
  match argmax (sc.map Prod.fst), argmin (sc.map Prod.fst) with
  | .ok surf, .ok bot =>
    match mapE (fun p : K × K × K × Bool => romsProfile vtransform hc p.2.1 p.2.2.1 sc) pts with
    | .error e => .error e
    | .ok profiles => sigmaAlphas rnd surf bot sc.length numLayers sc.length sbc bbc
        (pts.map (·.1)) profiles (pts.map (·.2.2.2))
  | .error e, _ => .error e
  | _, .error e => .error e

/-- `FVCOM_Depth` used through `S_Depth.interpolation_alphas` for data on levels:
`gridded/depth.py:915-947`. `node0` is the sigma list of the first node, from which the surface and
bottom index are taken; a point is its depth, bathymetry, free surface, mask and the sigma list
interpolated to it. -/
def fvcomAlphas (rnd : K → K) (node0 : List K) (numLayers : Nat)
    (sbc bbc : BC) (pts : List (K × K × K × Bool × List K)) : Except Err (List (Entry K)) :=
  match argmax node0, argmin node0 with
  | .ok surf, .ok bot => sigmaAlphas rnd surf bot node0.length numLayers node0.length sbc bbc
        (pts.map (·.1)) (pts.map fun p => fvcomProfile p.2.1 p.2.2.1 p.2.2.2.2)
        (pts.map (·.2.2.2.1))
  | .error e, _ => .error e
  | _, .error e => .error e

end

/-! ## The factory -/

/-- Which class a loaded depth has. -/
inductive Kind where
  | surface
  | cls (k : Nat)
  deriving DecidableEq, Repr

/-- First index holding `true` (`np.argmax` of booleans), 0 if none. -/
def argmaxBool : List Bool → Nat
  | [] => 0
  | true :: _ => 0
  | false :: t => if t.any id then argmaxBool t + 1 else 0

/-- `Depth.from_netCDF`, `gridded/depth.py:994-1022`: `avail` are the outcomes of
`_can_create_from_netCDF` of the candidate classes, in order. -/
def factory (avail : List Bool) : Except Err Kind :=
  if ¬ avail.any id then .ok .surface
  else if 1 < (avail.filter id).length then .error .valueError
  else .ok (.cls (argmaxBool avail))

/-- `DepthBase.__init__` and `DepthBase.from_netCDF`, `gridded/depth.py:21-39, 51-53`: the stored
`name` and `surface_index`. The class method passes its `surface_index` positionally, where the
constructor's first parameter is `name`. -/
def baseInit (name : Option Int) (surfaceIndex : Option Int) : Option Int × Int :=
  (name, surfaceIndex.getD (-1))

def baseFromNetCDF (surfaceIndex : Option Int) : Option Int × Int :=
  baseInit (some (surfaceIndex.getD (-1))) none

end Verif.DepthM
