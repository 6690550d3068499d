import Verif.Model.UTopo
import Verif.Model.Depth

/-!
# Flexible meshes: face tables with masked entries

`UGrid.__init__` documents masked face tables for faces with varying numbers of nodes
(`gridded/pyugrid/ugrid.py:115-118`), and the `faces` setter keeps the mask (line 304). An entry is
`none` if it is masked. What is stored under the mask is not read by the functions below.
-/

set_option autoImplicit false

namespace Verif.UFlex
open Verif Verif.UTopo

/-- `face[j]` within a row; a masked entry is `np.ma.masked`. -/
def atM (face : List (Option Int)) (j : Nat) : Option Int := (face[j]?).join

/-- The `j`-th side as the loops spell it, `gridded/pyugrid/ugrid.py:821-824`. -/
def sideM (nv : Nat) (face : List (Option Int)) (j : Nat) : Option Int × Option Int :=
  if j + 1 < nv then (atM face j, atM face (j + 1)) else (atM face (nv - 1), atM face 0)

/-- The pair as the key of a dictionary or an element of a set, lines 828 and 866: the masked constant
cannot be hashed. (The comparison before, line 825, is then masked, which counts as false.) -/
def hashed (e : Option Int × Option Int) : Except Err (Int × Int) :=
  match e.1, e.2 with
  | some a, some b => .ok (a, b)
  | _, _ => .error .typeError

/-- All sides of all faces in the order of the two loops, lines 818-824. -/
def scanM (nv : Nat) (faces : List (List (Option Int))) : List ((Nat × Nat) × (Option Int × Option Int)) :=
  (faces.zipIdx).flatMap (fun fi => (List.range nv).map (fun j => ((fi.2, j), sideM nv fi.1 j)))

/-- The loop of `build_face_face_connectivity`, lines 818-835; the body is that of unmasked faces. -/
def ffLoop : FF → List ((Nat × Nat) × (Option Int × Option Int)) → Except Err FF
  | s, [] => .ok s
  | s, x :: xs => match hashed x.2 with
    | .error e => .error e
    | .ok e => ffLoop (ffStep s x.1 e) xs

/-- `build_face_face_connectivity`, `gridded/pyugrid/ugrid.py:802-836`. -/
def buildFaceFaceM (nv : Nat) (faces : List (List (Option Int))) : Except Err (List (List Int)) :=
  match ffLoop { open_ := [], table := fun _ => -1 } (scanM nv faces) with
  | .error e => .error e
  | .ok s => .ok ((List.range faces.length).map (fun i => (List.range nv).map (fun j => s.table (i, j))))

/-- `build_edges`, `gridded/pyugrid/ugrid.py:843-867`. -/
def buildEdgesM (nv : Nat) (faces : List (List (Option Int))) : Except Err (List (Int × Int)) :=
  match DepthM.mapE (fun e => (hashed e).map sortEdge) (faces.flatMap (fun f => (List.range nv).map
      (fun j => (atM f (if j = 0 then nv - 1 else j - 1), atM f j)))) with
  | .error e => .error e
  | .ok es => .ok es.dedup

/-- `build_boundaries`, `gridded/pyugrid/ugrid.py:881-893`, without a neighbour table in place. Here
the ends of a segment are never masked, because the table could be built. -/
def buildBoundariesM (nv : Nat) (faces : List (List (Option Int))) : Except Err (List (Int × Int)) :=
  match buildFaceFaceM nv faces with
  | .error e => .error e
  | .ok ff => .ok (boundsFrom nv (faces.map (fun f => f.map (fun v => v.getD 0))) ff)

/-- `build_face_edge_connectivity`, `gridded/pyugrid/ugrid.py:908-930`: a pair with a masked vertex is
masked, the others are looked up; the table is rolled back by one. -/
def buildFaceEdgeM (query : List (Int × Int) → Int × Int → Nat) (nv : Nat)
    (faces : List (List (Option Int))) (edges : List (Int × Int)) : List (List (Option Nat)) :=
  let es := edges.map sortEdge
  faces.map (fun f =>
    let row := (List.range nv).map (fun k =>
      match atM f k, atM f (if k = 0 then nv - 1 else k - 1) with
      | some a, some b => some (query es (sortEdge (a, b)))
      | _, _ => none)
    row.rotate 1)

end Verif.UFlex
