import Verif.Model.SIndex
import Verif.Model.Depth
import Mathlib.Algebra.Order.Field.Basic

/-!
# Interpolation on structured grids

`SGrid._compute_transform_coeffs`, `x_to_l`, `geo_to_logical`, `compute_interpolant` and
`interpolate_var_to_points` (`gridded/pysgrid/sgrid.py:543-582`, `940-1342`).

Simplifications. Numbers are exact elements of an ordered field; the square root is a parameter. A
result that is masked or not a finite number is `none`. Point location and the conversion of the
land mask are done before (`Verif.Model.SCelltree`, `Verif.Model.Masks`); the index of a point
off the grid is `none`.
-/

set_option autoImplicit false

namespace Verif.SInterp
open Verif Verif.SIndex Verif.DepthM

/-- A value of a masked array. -/
structure MV (K : Type*) where
  val : K
  masked : Bool
  deriving DecidableEq, Repr

/-- The four coefficients of `c1 + c2*l + c3*m + c4*l*m`. -/
structure Coeffs (K : Type*) where
  c1 : K
  c2 : K
  c3 : K
  c4 : K
  deriving DecidableEq, Repr

section
variable {K : Type*} [Field K] [LinearOrder K]

/-- `np.dot(AI, poly)` (`sgrid.py:561-579`) where `AI` is the inverse of the matrix with the rows
[1,0,0,0], [1,0,1,0], [1,1,1,1], [1,1,0,0]. The inverse is written out. -/
def coeffs (v : K × K × K × K) : Coeffs K :=
  ⟨v.1, v.2.2.2 - v.1, v.2.1 - v.1, v.1 - v.2.1 + v.2.2.1 - v.2.2.2⟩

/-- The test `l1 < 0 or l1 > 1` on a quotient in floating point: with denominator 0 the quotient is
infinite (outside) or, for 0/0, not a number (every comparison is false). -/
def quotOutside (num den : K) : Bool :=
  if den = 0 then decide (num ≠ 0) else decide (num / den < 0) || decide (1 < num / den)

/-- A quotient, `none` if it is not finite. -/
def quot (num den : K) : Option K := if den = 0 then none else some (num / den)

/-- `x_to_l` (`sgrid.py:1283-1342`) for one point. The pair is `(l, m)`. With a negative
discriminant the entries are masked in between. -/
def xToL (sqrt : K → K) (x y : K) (a b : Coeffs K) : Option (K × K) :=
  let aa := a.c4 * b.c3 - a.c3 * b.c4
  let bb := a.c4 * b.c1 - a.c1 * b.c4 + a.c2 * b.c3 - a.c3 * b.c2 + x * b.c4 - y * a.c4
  let cc := a.c2 * b.c1 - a.c1 * b.c2 + x * b.c2 - y * a.c2
  let num := fun m : K => x - a.c1 - a.c3 * m
  let den := fun m : K => a.c2 + a.c4 * m
  if aa = 0 then
    match quot (-cc) bb with
    | none => none
    | some m => (quot (num m) (den m)).map (fun l => (l, m))
  else
    let k := bb * bb - 4 * aa * cc
    if k < 0 then none
    else
      let det := sqrt k
      let m1 := (-bb - det) / (2 * aa)
      let m2 := (-bb + det) / (2 * aa)
      let t := quotOutside (num m1) (den m1) || (decide (m1 < 0) || decide (1 < m1))
      let m := if t then m2 else m1
      (quot (num m) (den m)).map (fun l => (l, m))

/-- What a grid contributes to interpolation: node coordinates, the padding of each location, the
decoded land mask of the full center array, and `masked_interpolant_behavior`. -/
structure Grid (K : Type*) where
  lon : List (List K)
  lat : List (List K)
  pads : Loc → Pad × Pad
  centerMask : Option (List (List Bool))
  behavior : String

/-- The logical offsets of a point in its cell: coefficients of the cell (`sgrid.py:1271-1273`), then
`x_to_l`. -/
def offset (sqrt : K → K) (g : Grid K) (p : K × K) (ij : Int × Int) : Except Err (Option (K × K)) :=
  match byIndex g.lon ij with
  | .error e => .error e
  | .ok px =>
    match byIndex g.lat ij with
    | .error e => .error e
    | .ok py => .ok (xToL sqrt p.1 p.2 (coeffs px) (coeffs py))

/-- `geo_to_logical` (`sgrid.py:1254-1281`) for a located point: the index pair plus the stacked
`(l, m)`. -/
def geoToLogical (sqrt : K → K) (g : Grid K) (p : K × K) (ij : Int × Int) :
    Except Err (Option (K × K)) :=
  match offset sqrt g p ij with
  | .error e => .error e
  | .ok o => .ok (o.map (fun lm => ((ij.1 : K) + lm.1, (ij.2 : K) + lm.2)))

/-- `per_cell_log_offset = logical_coords - ind` (`sgrid.py:1120-1124`). -/
def cellOffset (sqrt : K → K) (g : Grid K) (p : K × K) (ij : Int × Int) :
    Except Err (Option (K × K)) :=
  match geoToLogical sqrt g p ij with
  | .error e => .error e
  | .ok o => .ok (o.map (fun q => (q.1 - (ij.1 : K), q.2 - (ij.2 : K))))

/-! ## compute_interpolant -/

/-- `np.sum(filled_values * alphas, axis=-1)` for one point. -/
def dot (xs ys : List K) : K := (List.zipWith (· * ·) xs ys).sum

/-- `np.ma.filled(values, 0)` for one point. -/
def filledZero (row : List (MV K)) : List K := row.map (fun v => if v.masked then 0 else v.val)

/-- `mirror_mask_values` (`sgrid.py:951-962`) for one point: `np.where(mask, -values[:, ::-1],
values)`. -/
def mirrored (row : List (MV K)) : List K :=
  List.zipWith (fun v w : MV K => if v.masked then -w.val else v.val) row row.reverse

/-- Whether any value of a point is masked. -/
def anyMasked (row : List (MV K)) : Bool := row.any (·.masked)

/-- The mask of result `i` under 'mask' (`sgrid.py:1018-1031`): the flat array
`np.tile(any, 2)` is written into the mask of shape (N, width) in order, repeating if it is too
short, and a result is masked if any entry of its row is. -/
def tiledMask (anys : List Bool) (width i : Nat) : Bool :=
  (List.range width).any (fun c => anys[((i * width + c) % (2 * anys.length)) % anys.length]? == some true)

/-- `compute_interpolant` (`sgrid.py:964-1032`) on N points with the same number of values each. A
masked weight row (`none`) gives a masked result. -/
def computeInterpolant (behavior : String) (rows : List (List (MV K)))
    (alphas : List (Option (List K))) : Except Err (List (Option K)) :=
  if behavior = "mirror" ∧ 2 < rows.length then .error .valueError
  else if behavior = "zero" then
    .ok (List.zipWith (fun row al => al.map (dot (filledZero row))) rows alphas)
  else if behavior = "mirror" then
    if rows.any (fun r => r.length == 4) then .error .valueError
    else .ok (List.zipWith (fun row al => al.map (dot (mirrored row))) rows alphas)
  else if behavior = "mask" then
    let anys := rows.map anyMasked
    .ok ((List.zipWith (fun (ri : List (MV K) × Nat) (al : Option (List K)) =>
      if tiledMask anys ri.1.length ri.2 then none else al.map (dot (ri.1.map (·.val))))
      rows.zipIdx alphas))
  else .error .valueError

/-! ## interpolate_var_to_points -/

/-- The column and row offsets of the second edge of a cell (`sgrid.py:1165`, `1203`). -/
def edgeStep : Loc → Int × Int
  | .edge1 => (0, 1)
  | _ => (1, 0)

/-- Add two index pairs. -/
def plus (p q : Int × Int) : Int × Int := (p.1 + q.1, p.2 + q.2)

/-- Subtract two index pairs. -/
def minus (p q : Int × Int) : Int × Int := (p.1 - q.1, p.2 - q.2)

/-- The land mask used for edges (`sgrid.py:1158-1163`): without a center mask all cells are
water. -/
def maskAt (g : Grid K) (ij : Int × Int) : Except Err Bool :=
  match g.centerMask with
  | some cm => atIndex cm ij
  | none => .ok false

/-- The two edge values of a cell with their masks (`sgrid.py:1174-1188`, `1212-1226`). -/
def edgeValues (g : Grid K) (loc : Loc) (var : List (List (MV K))) (ij : Int × Int) :
    Except Err (List (MV K)) :=
  match applyPadding (g.pads .center) ij, applyPadding (g.pads loc) ij with
  | .ok ctr, .ok idx =>
    match atIndex var idx, maskAt g ctr, maskAt g (minus ctr (edgeStep loc)),
        atIndex var (plus idx (edgeStep loc)), maskAt g (plus ctr (edgeStep loc)) with
    | .ok u1, .ok m0, .ok mb, .ok u2, .ok ma =>
      .ok [⟨u1.val, u1.masked || (m0 ^^ mb)⟩, ⟨u2.val, u2.masked || (m0 ^^ ma)⟩]
    | _, _, _, _, _ => .error .indexError
  | .error e, _ => .error e
  | _, .error e => .error e

/-- The weights of the two edges (`sgrid.py:1171-1172`, `1209-1210`): the last column is kept
(after a swap for edge1) and the first becomes its complement. -/
def edgeWeights (loc : Loc) (lm : K × K) : List K :=
  match loc with
  | .edge1 => [1 - lm.1, lm.1]
  | _ => [1 - lm.2, lm.2]

/-- The four node weights (`sgrid.py:1234-1237`). -/
def nodeWeights (lm : K × K) : List K :=
  [1 - lm.1 - lm.2 + lm.1 * lm.2, lm.2 - lm.1 * lm.2, lm.1 * lm.2, lm.1 - lm.1 * lm.2]

/-- `np.ma.sum(vals * alphas)` (`sgrid.py:1241-1244`): masked values are left out, and the result
is masked if all are. -/
def maskedDot (row : List (MV K)) (ws : List K) : Option K :=
  if row.all (·.masked) then none else some (dot (filledZero row) ws)

/-- Node interpolation of one located point (`sgrid.py:1228-1244`). The weights of a position that is
not finite do not sum to 1, so that the assertion of line 1239 fails; those of any other position do.
Simplifies: a negative discriminant, which no point of the cell has, is treated like a quotient that is
not finite, while the code goes on with the numbers left under the mask; and if several points fail,
the code asserts before any value is looked up. -/
def nodeValue (sqrt : K → K) (g : Grid K) (var : List (List (MV K))) (p : K × K) (ij : Int × Int) :
    Except Err (Option K) :=
  match cellOffset sqrt g p ij with
  | .error e => .error e
  | .ok o =>
    match applyPadding (g.pads .node) ij with
    | .error e => .error e
    | .ok idx =>
      match o with
      | none => .error .assertionError
      | some lm =>
        match byIndex var idx with
        | .error e => .error e
        | .ok (v0, v1, v2, v3) => .ok (maskedDot [v0, v1, v2, v3] (nodeWeights lm))

/-- Edge values and weights of one point; a point off the grid has everything masked. -/
def edgeRow (sqrt : K → K) (g : Grid K) (loc : Loc) (var : List (List (MV K)))
    (q : (K × K) × Option (Int × Int)) : Except Err (List (MV K) × Option (List K)) :=
  match q.2 with
  | none => .ok ([⟨0, true⟩, ⟨0, true⟩], none)
  | some ij =>
    match cellOffset sqrt g q.1 ij with
    | .error e => .error e
    | .ok o =>
      match edgeValues g loc var ij with
      | .error e => .error e
      | .ok row => .ok (row, o.map (edgeWeights loc))

/-- Value of the cell's center (`sgrid.py:1149-1154`). -/
def centerValue (g : Grid K) (var : List (List (MV K))) (ij : Int × Int) : Except Err (Option K) :=
  match applyPadding (g.pads .center) ij with
  | .error e => .error e
  | .ok idx =>
    match atIndex var idx with
    | .error e => .error e
    | .ok v => .ok (if v.masked then none else some v.val)

/-- `interpolate_var_to_points` (`sgrid.py:1034-1250`) for points already located, without slices
and without unmasking. `location` is what the location name stands for; a name that is in no list
has no padding (`get_padding_by_location` returns `None`) and raises `TypeError`. `alphasGiven`
tells whether the caller passed `alphas`: then `per_cell_log_offset` is never assigned. -/
def interpolate (sqrt : K → K) (g : Grid K) (location : Option Loc) (alphasGiven : Bool)
    (var : List (List (MV K))) (pts : List ((K × K) × Option (Int × Int))) :
    Except Err (List (Option K)) :=
  if pts.all (fun q => q.2.isNone) then .ok (pts.map (fun _ => none))
  else
    match location with
    | none => .error .typeError
    | some .center =>
      mapE (fun q : (K × K) × Option (Int × Int) => match q.2 with
        | none => .ok none
        | some ij => centerValue g var ij) pts
    | some .node =>
      if alphasGiven then .error .unboundLocal
      else mapE (fun q : (K × K) × Option (Int × Int) => match q.2 with
        | none => .ok none
        | some ij => nodeValue sqrt g var q.1 ij) pts
    | some loc =>
      if alphasGiven then .error .unboundLocal
      else
        match mapE (edgeRow sqrt g loc var) pts with
        | .error e => .error e
        | .ok rows => computeInterpolant g.behavior (rows.map (·.1)) (rows.map (·.2))

end
end Verif.SInterp
