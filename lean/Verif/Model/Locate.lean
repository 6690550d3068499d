import Verif.Model.UGeom
import Verif.Model.Cache

/-!
# `UGrid.locate_faces` with its memo and its cell tree, `gridded/pyugrid/ugrid.py:587-652`

The cell tree (package `cell_tree2d`) is a parameter: the function from a mesh and points to the
indices it reports. The memo key (a hash of the bytes of the points) is the list of points.
-/

set_option autoImplicit false

namespace Verif.Locate
open Verif.UGeom

/-- The `method` argument. -/
inductive Method where
  | celltree
  | simple
  | other
  deriving DecidableEq, Repr

section
variable {K : Type} [Field K] [LinearOrder K]

/-- A grid: its mesh, the mesh its cell tree was built from (`_cell_tree`, `None` at first), and
`_ind_memo_dict`. -/
structure Grid (K : Type) where
  mesh : Mesh K
  tree : Option (Mesh K)
  memo : List (List (K × K) × List Int)

/-- What a method gives for a mesh, lines 621-642. -/
def fresh (celltree : Mesh K → List (K × K) → List Int) (eps : K) (m : Mesh K) (μ : Method)
    (pts : List (K × K)) : Except Err (List Int) :=
  match μ with
  | .celltree => .ok (celltree m pts)
  | .simple => simpleLocate eps m pts
  | .other => .error .valueError

/-- Lines 613-645: memo, then the method, then the memo again. The cell tree is built on first use
and kept. -/
def locate (celltree : Mesh K → List (K × K) → List Int) (eps : K) (g : Grid K)
    (pts : List (K × K)) (μ : Method) (memo : Bool) : Grid K × Except Err (List Int) :=
  match (if memo then Cache.lookup g.memo pts else none) with
  | some r => (g, .ok r)
  | none =>
    let g1 : Grid K := if μ = .celltree then { g with tree := some (g.tree.getD g.mesh) } else g
    let used := if μ = .celltree then g.tree.getD g.mesh else g.mesh
    match fresh celltree eps used μ pts with
    | .error e => (g1, .error e)
    | .ok r => (if memo then { g1 with memo := Cache.store .ugrid g1.memo pts r } else g1, .ok r)

/-- What a user does: assign nodes or faces (`gridded/pyugrid/ugrid.py:278-330`; neither setter
touches the tree or the memo), or locate. -/
inductive Op (K : Type) where
  | setMesh (m : Mesh K)
  | locate (pts : List (K × K)) (μ : Method) (memo : Bool)

def step (celltree : Mesh K → List (K × K) → List Int) (eps : K) (g : Grid K) : Op K → Grid K
  | .setMesh m => { g with mesh := m }
  | .locate pts μ memo => (locate celltree eps g pts μ memo).1

def run (celltree : Mesh K → List (K × K) → List Int) (eps : K) (m : Mesh K) (h : List (Op K)) :
    Grid K :=
  h.foldl (step celltree eps) { mesh := m, tree := none, memo := [] }

/-- The `points` argument: one point (a one-dimensional array) or several; and whether it is
already a float64 array, which `np.asarray` (line 609) does not copy. -/
structure Arg (K : Type) where
  pts : List (K × K)
  oneD : Bool
  isFloatArray : Bool

/-- The result: an index or an array of indices. -/
inductive Answer where
  | one (i : Int)
  | many (is : List Int)
  deriving DecidableEq, Repr

/-- The whole call, lines 609-652: `points.shape = (-1, 2)` changes the argument itself if it was
not copied; a memo hit returns the array; otherwise a single index for a single point. -/
def call (celltree : Mesh K → List (K × K) → List Int) (eps : K) (g : Grid K) (a : Arg K)
    (μ : Method) (memo : Bool) : Grid K × Arg K × Except Err Answer :=
  let a' : Arg K := if a.isFloatArray then { a with oneD := false } else a
  match (if memo then Cache.lookup g.memo a.pts else none) with
  | some r => (g, a', .ok (.many r))
  | none =>
    let r := locate celltree eps g a.pts μ memo
    (r.1, a', match r.2 with
      | .error e => .error e
      | .ok is => if a.oneD then (match is with | i :: _ => .ok (.one i) | [] => .error .indexError)
          else .ok (.many is))

end

end Verif.Locate
