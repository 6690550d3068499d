import Verif.Model.Cache
import Mathlib.Data.List.Dedup
import Mathlib.Data.List.Rotate

/-!
# Mesh topology of `UGrid`: assigning faces, neighbours, edges, boundaries

A face table is a list of rows of node numbers. It is a rectangular array: every row has
`num_vertices` entries (`Rect` in the theorems), so no lookup below misses. Masked (flexible) face
tables are in `Model/UFlex.lean`; -1 is an ordinary number for the builders, as in the program.
-/

set_option autoImplicit false

namespace Verif.UTopo
open Verif

/-- `faces_indexes.max()` of a non-empty table. -/
def maxL : List Int → Option Int
  | [] => none
  | x :: xs => some (xs.foldl max x)

def minL : List Int → Option Int
  | [] => none
  | x :: xs => some (xs.foldl min x)

/-- The `faces` setter, `gridded/pyugrid/ugrid.py:299-323`, for `n` nodes. The reductions raise
`ValueError` on an empty table. -/
def setFaces (n : Nat) (faces : List (List Int)) : Except Err (List (List Int)) :=
  match maxL faces.flatten, minL faces.flatten with
  | some mx, some mn =>
    if (n : Int) < mx then .error .valueError
    else if mx = n then
      if 1 ≤ mn then
        let faces' := faces.map (fun r => r.map (fun e => if 0 < e then e - 1 else e))
        match minL faces'.flatten with
        | some mn' => if mn' < -1 then .error .valueError else .ok faces'
        | none => .error .valueError
      else .error .valueError
    else if mn < -1 then .error .valueError
    else .ok faces
  | _, _ => .error .valueError

/-- `face[j]` within a row. -/
def at' (face : List Int) (j : Nat) : Int := face.getD j 0

/-- The `j`-th side of a face as the loops spell it, `gridded/pyugrid/ugrid.py:821-824, 887-890`:
`(face[j], face[j+1])`, for the last `j` `(face[-1], face[0])`. -/
def side (nv : Nat) (face : List Int) (j : Nat) : Int × Int :=
  if j + 1 < nv then (at' face j, at' face (j + 1)) else (at' face (nv - 1), at' face 0)

/-- "Sort the node numbers", lines 825-826. -/
def sortEdge (e : Int × Int) : Int × Int := if e.2 < e.1 then (e.2, e.1) else e

/-- The state of `build_face_face_connectivity`: the dictionary of open edges, and the table. -/
structure FF where
  open_ : List ((Int × Int) × (Nat × Nat))
  table : Nat × Nat → Int

/-- `edges.pop(edge, None)`: the entry removed. -/
def popKey {κ ν : Type*} [DecidableEq κ] (d : List (κ × ν)) (k : κ) : List (κ × ν) :=
  d.filter (fun p => p.1 ≠ k)

def setAt (t : Nat × Nat → Int) (p : Nat × Nat) (v : Int) : Nat × Nat → Int :=
  fun q => if q = p then v else t q

/-- The loop body for side `p = (i, j)`, lines 825-835. -/
def ffStep (s : FF) (p : Nat × Nat) (e : Int × Int) : FF :=
  let k := sortEdge e
  match Cache.lookup s.open_ k with
  | some q =>
    { open_ := popKey s.open_ k,
      table := setAt (setAt s.table p (q.1 : Int)) q (p.1 : Int) }
  | none => { s with open_ := Cache.assign s.open_ k p }

/-- All sides of all faces in the order of the two loops. -/
def scan (nv : Nat) (faces : List (List Int)) : List ((Nat × Nat) × (Int × Int)) :=
  (faces.zipIdx).flatMap (fun fi => (List.range nv).map (fun j => ((fi.2, j), side nv fi.1 j)))

/-- `build_face_face_connectivity`, `gridded/pyugrid/ugrid.py:802-835`: the table starts at -1. -/
def ffRun (nv : Nat) (faces : List (List Int)) : FF :=
  (scan nv faces).foldl (fun s x => ffStep s x.1 x.2) { open_ := [], table := fun _ => -1 }

def buildFaceFace (nv : Nat) (faces : List (List Int)) : List (List Int) :=
  (List.range faces.length).map (fun i => (List.range nv).map (fun j => (ffRun nv faces).table (i, j)))

/-- `build_edges`, `gridded/pyugrid/ugrid.py:840-867`: the set of sorted `(face[j-1], face[j])`
(for `j = 0` the last and the first vertex). The order of a set is arbitrary; here it is one
particular order. -/
def buildEdges (nv : Nat) (faces : List (List Int)) : List (Int × Int) :=
  (faces.flatMap (fun f => (List.range nv).map (fun j =>
    sortEdge (at' f (if j = 0 then nv - 1 else j - 1), at' f j)))).dedup

/-- `build_boundaries`, `gridded/pyugrid/ugrid.py:869-893`, for a given neighbour table. -/
def boundsFrom (nv : Nat) (faces : List (List Int)) (ff : List (List Int)) : List (Int × Int) :=
  (ff.zipIdx).flatMap (fun ri => (ri.1.zipIdx).filterMap (fun vj =>
    if vj.1 = -1 then some (side nv (faces.getD ri.2 []) vj.2) else none))

/-- With the table computed when there is none (lines 882-883). -/
def buildBoundaries (nv : Nat) (faces : List (List Int)) (ff : Option (List (List Int))) :
    List (Int × Int) :=
  boundsFrom nv faces (ff.getD (buildFaceFace nv faces))

/-- `build_face_edge_connectivity`, `gridded/pyugrid/ugrid.py:908-930`, for unmasked faces.
`query` is `cKDTree(edges).query(...)[1]`, the index of a nearest edge. `face_edges[i, k]` is the
sorted pair of vertices `k` and `k-1`; the result is rolled back by one. -/
def buildFaceEdge (query : List (Int × Int) → Int × Int → Nat) (nv : Nat) (faces : List (List Int))
    (edges : List (Int × Int)) : List (List Nat) :=
  let es := edges.map sortEdge
  faces.map (fun f =>
    let row := (List.range nv).map (fun k =>
      query es (sortEdge (at' f k, at' f (if k = 0 then nv - 1 else k - 1))))
    row.rotate 1)

/-- `infer_location`, `gridded/pyugrid/ugrid.py:424-454`: shape of the data, counts of the mesh.
A shape without dimensions has no last entry. -/
inductive Where where
  | node
  | face
  | boundary
  deriving DecidableEq, Repr

def inferLocation (nodes : Nat) (faces boundaries : Option Nat) (shape : List Nat) :
    Option Where :=
  match shape.getLast? with
  | none => none
  | some size =>
    if size = nodes then some .node
    else if faces = some size then some .face
    else if boundaries = some size then some .boundary
    else none

end Verif.UTopo
