import Verif.Model.Np
import Mathlib.Analysis.SpecialFunctions.Trigonometric.Basic

/-!
# Vectors on a plane (`gridded/pysgrid/processing_2d.py`) and points in polygons
(`points_in_polys`, `gridded/pysgrid/utils.py:215-251`)

Exact arithmetic: reals for vectors, any ordered field for polygons. Masks are left out.
-/

set_option autoImplicit false

namespace Verif.Plane
open Verif

/-! ## Vectors -/

/-- One element of `vector_sum` (`processing_2d.py:11-24`). -/
noncomputable def vectorSum (x y : ℝ) : ℝ := Real.sqrt (x ^ 2 + y ^ 2)

/-- One element of `rotate_vectors` (`processing_2d.py:27-47`). -/
noncomputable def rotate (x y angle : ℝ) : ℝ × ℝ :=
  (x * Real.cos angle - y * Real.sin angle, x * Real.sin angle + y * Real.cos angle)

/-- `rotate_vectors` on one-dimensional arrays of one length; other lengths do not broadcast (a
length of one, which does, is left out). -/
noncomputable def rotateVectors (xs ys angles : List ℝ) : Except Err (List ℝ × List ℝ) :=
  if xs.length = ys.length ∧ xs.length = angles.length then
    let r := List.zipWith (fun (p : ℝ × ℝ) a => rotate p.1 p.2 a) (xs.zip ys) angles
    .ok (r.map Prod.fst, r.map Prod.snd)
  else .error .valueError

/-- A two-dimensional array. -/
structure Arr (K : Type*) where
  rows : Nat
  cols : Nat
  get : Fin rows → Fin cols → K

section
variable {K : Type*}

/-- `np.transpose`. -/
def Arr.transpose (a : Arr K) : Arr K := ⟨a.cols, a.rows, fun i j => a.get j i⟩

/-- `a[:, 1:]`. -/
def Arr.dropFirst (a : Arr K) : Arr K :=
  ⟨a.rows, a.cols - 1, fun i j => a.get i ⟨j.1 + 1, by have := j.2; omega⟩⟩

/-- `a[:, :-1]`. -/
def Arr.dropLast (a : Arr K) : Arr K :=
  ⟨a.rows, a.cols - 1, fun i j => a.get i ⟨j.1, by have := j.2; omega⟩⟩

/-- `0.5 * (a[:, 1:] + a[:, :-1])`. -/
def Arr.avgCols [Field K] (a : Arr K) : Arr K :=
  ⟨a.rows, a.cols - 1, fun i j => 1 / 2 * (a.dropFirst.get i j + a.dropLast.get i j)⟩

/-- `avg_to_cell_center` (`processing_2d.py:50-75`): every `avg_dim` other than 0 is treated as 1. -/
def avgToCellCenter [Field K] (a : Arr K) (avgDim : Int) : Arr K :=
  let da := if avgDim = 0 then a.transpose else a
  let r := da.avgCols
  if avgDim = 0 then r.transpose else r

end

/-! ## Points in polygons -/

section
variable {K : Type*} [Field K] [LinearOrder K]

/-- One pass of the loop (`utils.py:229-250`) for one point: the edge from `v1` to `v2`. -/
def crosses (p v1 v2 : K × K) : Bool :=
  (decide (v2.2 > p.2) != decide (v1.2 > p.2)) &&
    decide (p.1 < (v1.1 - v2.1) * (p.2 - v2.2) / (v1.2 - v2.2) + v2.1)

/-- The loop over the vertices, after the vertex `prev`. -/
def loop (p : K × K) : K × K → List (K × K) → Bool → Bool
  | _, [], result => result
  | prev, v :: vs, result => loop p v vs (result ^^ crosses p prev v)

/-- `points_in_polys` for one point and its polygon: the vertex before the first, `polys[:, -1]`,
is the last. -/
def inPoly (p : K × K) (poly : List (K × K)) : Bool :=
  match poly.getLast? with
  | none => false
  | some l => loop p l poly false

/-- `points_in_polys(points, polys)`: each point against its own polygon. -/
def pointsInPolys (points : List (K × K)) (polys : List (List (K × K))) : List Bool :=
  List.zipWith inPoly points polys

end

end Verif.Plane
