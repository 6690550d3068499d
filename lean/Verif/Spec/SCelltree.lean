import Verif.Spec.SGrid

/-!
# What locating points in a masked structured grid means
-/

set_option autoImplicit false

namespace Verif.Spec

/-- The corners of the cell in row `i` and column `j`, in order around the cell: the nodes
(i, j), (i, j+1), (i+1, j+1), (i+1, j) of a row-major node list. -/
def corners {P : Type} (nodes : List P) (cols i j : Nat) : List (Option P) :=
  [nodes[i * cols + j]?, nodes[i * cols + (j + 1)]?, nodes[(i + 1) * cols + (j + 1)]?,
    nodes[(i + 1) * cols + j]?]

/-- The node coordinates a face row stands for. -/
def faceCoords {P : Type} (nodes : List P) (face : List Int) : List (Option P) :=
  face.map (fun k => if 0 ≤ k then nodes[k.toNat]? else none)

end Verif.Spec
