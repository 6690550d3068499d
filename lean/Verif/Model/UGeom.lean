import Verif.Model.Depth
import Mathlib.Algebra.Order.Field.Basic
import Mathlib.Algebra.Order.AbsoluteValue.Basic

/-!
# Triangles, point location and interpolation on an unstructured grid

Exact arithmetic in an ordered field. `Option K` is a float result: `none` stands for a value that
is not finite (inf or nan), which absorbs in sums and products.
-/

set_option autoImplicit false

namespace Verif.UGeom
open Verif.DepthM (mapE)

section
variable {K : Type*} [Field K] [LinearOrder K]

/-- `_signed_area_tri`, `gridded/pyugrid/util.py:44-55`. -/
def signedArea (p1 p2 p3 : K × K) : K :=
  ((p1.1 - p3.1) * (p2.2 - p3.2) - (p2.1 - p3.1) * (p1.2 - p3.2)) / 2

/-- `point_in_tri`, `gridded/pyugrid/util.py:11-41`, without `return_weights`; `eps` is the module's
`epsilon` (1e-5). With zero area the division gives inf or nan, and the comparison is false. -/
def pointInTri (eps : K) (p q r pt : K × K) : Bool :=
  let total := |signedArea p q pt| + |signedArea q r pt| + |signedArea p r pt|
  let area := signedArea p q r
  if area = 0 then false else decide (|total - area| / area ≤ eps)

/-- A mesh: nodes, and faces as rows of node indices. -/
structure Mesh (K : Type*) where
  nodes : List (K × K)
  faces : List (List Int)
  deriving DecidableEq

/-- `point_in_tri(self._nodes[face], point)`: only the first three vertices are used; a face with
fewer raises. Vertices after the third are taken to exist (indexing would raise otherwise); the `faces`
setter makes sure that they do. -/
def faceTest (eps : K) (nodes : List (K × K)) (face : List Int) (pt : K × K) : Except Err Bool :=
  match face with
  | a :: b :: c :: _ =>
    match Np.pyGet nodes a, Np.pyGet nodes b, Np.pyGet nodes c with
    | .ok p, .ok q, .ok r => .ok (pointInTri eps p q r pt)
    | _, _, _ => .error .indexError
  | _ => .error .indexError

/-- The inner loop of the simple method, `gridded/pyugrid/ugrid.py:634-640`: `i` is the number of
the first face of the list, `cur` the current value of `indices[n]`. -/
def simpleLoop (eps : K) (nodes : List (K × K)) (pt : K × K) : List (List Int) → Nat → Int →
    Except Err Int
  | [], _, cur => .ok cur
  | f :: fs, i, _ => match faceTest eps nodes f pt with
    | .error e => .error e
    | .ok true => .ok i
    | .ok false => simpleLoop eps nodes pt fs (i + 1) (-1)

/-- `locate_faces(points, 'simple')` without the memo, `gridded/pyugrid/ugrid.py:632-640`:
`indices` starts as zeros. -/
def simpleLocate (eps : K) (m : Mesh K) (pts : List (K × K)) : Except Err (List Int) :=
  mapE (fun pt => simpleLoop eps m.nodes pt m.faces 0 0) pts

/-- The weights of one point in one triangle, `gridded/pyugrid/ugrid.py:695-706`. Each is a float
division by `denoms`. -/
def denom (p q r : K × K) : K :=
  (r.2 - p.2) * (q.1 - p.1) - (r.1 - p.1) * (q.2 - p.2)

def num1 (_p q r pt : K × K) : K := (pt.2 - r.2) * (r.1 - q.1) - (pt.1 - r.1) * (r.2 - q.2)
def num2 (p _q r pt : K × K) : K := (pt.1 - p.1) * (r.2 - p.2) - (pt.2 - p.2) * (r.1 - p.1)
def num3 (p q _r pt : K × K) : K := (pt.2 - p.2) * (q.1 - p.1) - (pt.1 - p.1) * (q.2 - p.2)

/-- Float division: not finite when the denominator is zero. -/
def fdiv (a b : K) : Option K := if b = 0 then none else some (a / b)

def fmul (a b : Option K) : Option K :=
  match a, b with
  | some x, some y => some (x * y)
  | _, _ => none

def fadd (a b : Option K) : Option K :=
  match a, b with
  | some x, some y => some (x + y)
  | _, _ => none

/-- The three weights; multiplied by zero for index -1 (line 707). -/
def alphas (ind : Int) (p q r pt : K × K) : Option K × Option K × Option K :=
  let d := denom p q r
  let a := (fdiv (num1 p q r pt) d, fdiv (num2 p q r pt) d, fdiv (num3 p q r pt) d)
  if ind = -1 then (fmul a.1 (some 0), fmul a.2.1 (some 0), fmul a.2.2 (some 0)) else a

/-- One point of `interpolate_var_to_points` for data on the faces,
`gridded/pyugrid/ugrid.py:780-783`; `ind` is the located face. -/
def interpFace (data : List (Option K)) (ind : Int) : Except Err (Option K) :=
  match Np.pyGet data ind with
  | .error e => .error e
  | .ok v => .ok (if ind = -1 then fmul v (some 0) else v)

/-- One point of `interpolate_var_to_points` for data on the nodes,
`gridded/pyugrid/ugrid.py:786-792`, one value per node. Faces that are not triangles cannot be
unpacked (line 692). -/
def interpNode (m : Mesh K) (data : List (Option K)) (ind : Int) (pt : K × K) :
    Except Err (Option K) :=
  match Np.pyGet m.faces ind with
  | .error e => .error e
  | .ok [a, b, c] =>
    match Np.pyGet m.nodes a, Np.pyGet m.nodes b, Np.pyGet m.nodes c with
    | .ok p, .ok q, .ok r =>
      match Np.pyGet data a, Np.pyGet data b, Np.pyGet data c with
      | .ok u, .ok v, .ok w =>
        let z := fun x : Option K => if ind = -1 then fmul x (some 0) else x
        let al := alphas ind p q r pt
        .ok (fadd (fadd (fmul (z u) al.1) (fmul (z v) al.2.1)) (fmul (z w) al.2.2))
      | _, _, _ => .error .indexError
    | _, _, _ => .error .indexError
  | .ok _ => .error .valueError

/-- Where the data sit, as given or inferred. -/
inductive Loc where
  | node
  | face
  | boundary
  deriving DecidableEq, Repr

/-- `interpolate_var_to_points`, `gridded/pyugrid/ugrid.py:777-793`, for points with located faces
`inds` (from the cell tree). Data on boundaries give `None`. -/
def interpolate (m : Mesh K) (loc : Loc) (data : List (Option K)) (pts : List (Int × (K × K))) :
    Except Err (Option (List (Option K))) :=
  match loc with
  | .face => match mapE (fun q => interpFace data q.1) pts with
    | .error e => .error e
    | .ok vs => .ok (some vs)
  | .node => match mapE (fun q => interpNode m data q.1 q.2) pts with
    | .error e => .error e
    | .ok vs => .ok (some vs)
  | .boundary => .ok none

end

end Verif.UGeom
