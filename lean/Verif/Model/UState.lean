import Verif.Model.UIO
import Mathlib.Algebra.Field.Defs
import Mathlib.Algebra.BigOperators.Group.List.Defs

/-!
# A `UGrid` object over time: assigning, deleting and building its parts

`gridded/pyugrid/ugrid.py:265-422` (setters and deleters), 525-552 (`locate_nodes`), 802-930 (the
builders), 932-979 (representative coordinates) and 219-232 (`__eq__`).

An operation that raises leaves the object as it was: no setter or builder changes anything before
its last chance to raise, except `build_boundaries`, which may have built the neighbour table; but
then it does not raise. Simplifications: masked (flexible) face tables are not modelled here (see `Model/UFlex.lean`), -1 pads
short faces; tables are rectangular; coordinates are assigned as lists of points (the program keeps
whatever it is given, lines 127-129). The caller's arrays are not part of the state.
-/

set_option autoImplicit false

namespace Verif.UState
open Verif

/-- The parts of the grid, and the nodes from which the search tree of `locate_nodes` was built. -/
structure Obj (K : Type) where
  grid : UIO.UGrid K
  kdtree : Option (List (K × K)) := none

section
variable {K : Type}

/-- `nodes[i]` for one index: negative indices count from the end. -/
def pick (nodes : List (K × K)) (i : Int) : Except Err (K × K) :=
  let j := if i < 0 then i + nodes.length else i
  if j < 0 then .error .indexError
  else match nodes[j.toNat]? with
    | some p => .ok p
    | none => .error .indexError

/-- One row of `nodes[table]`. -/
def pickRow (nodes : List (K × K)) (row : List Int) : Except Err (List (K × K)) :=
  row.mapM (pick nodes)

/-- `nodes[table]`. -/
def pickAll (nodes : List (K × K)) (table : List (List Int)) : Except Err (List (List (K × K))) :=
  table.mapM (pickRow nodes)

/-- The mean of the points of a row. -/
def meanPt [Field K] (ps : List (K × K)) : K × K :=
  ((ps.map Prod.fst).sum / (ps.length : K), (ps.map Prod.snd).sum / (ps.length : K))

/-- `self.nodes[table].mean(axis=1)`, lines 946, 963 and 979. Without a table the index is `None`,
which adds an axis: the mean over all nodes. -/
def meanCoords [Field K] (nodes : List (K × K)) (table : Option (List (List Int))) :
    Except Err (List (K × K)) :=
  match table with
  | none => .ok [meanPt nodes]
  | some t => match pickAll nodes t with
    | .error e => .error e
    | .ok rows => .ok (rows.map meanPt)

/-- Public operations on the object. -/
inductive Op (K : Type) where
  | setNodes (ns : Option (List (K × K)))
  | delNodes
  | setFaces (t : Option (List (List Int)))
  | delFaces
  | setEdges (t : Option (List (List Int)))
  | delEdges
  | setBoundaries (t : Option (List (List Int)))
  | delBoundaries
  | setFaceFace (t : Option (List (List Int)))
  | delFaceFace
  | setFaceEdge (t : Option (List (List Int)))
  | delFaceEdge
  | buildFaceFace
  | buildEdges
  | buildBoundaries
  | buildFaceEdge
  | buildFaceCoords
  | buildEdgeCoords
  | buildBoundaryCoords
  | locateNodes
  | getLines

/-- A table of the shape of the faces, lines 388-392 and 403-407. -/
def shapeCheck (faces : Option (List (List Int))) (t : List (List Int)) : Except Err Unit :=
  match faces with
  | none => .error .typeError
  | some f => if t.map List.length = f.map (fun _ => UIO.cols f) then .ok () else .error .valueError

/-- Pairs as rows of a table. -/
def rowsOf (ps : List (Int × Int)) : List (List Int) := ps.map (fun p => [p.1, p.2])

/-- `(row[0], row[1])` of a row of the edge table. -/
def pairsOf (t : List (List Int)) : List (Int × Int) :=
  t.map (fun r => (r.getD 0 0, r.getD 1 0))

/-- `build_boundaries`, lines 869-893. With a neighbour table but no faces `num_vertices - 1` raises
`TypeError` (if the table has an entry -1; without one nothing is looked up), with fewer faces than
rows of the table `IndexError`. -/
def boundariesOf (faces : Option (List (List Int))) (ff : List (List Int)) :
    Except Err (List (Int × Int)) :=
  match faces with
  | none => if ff.any (fun r => r.contains (-1)) then .error .typeError else .ok []
  | some f =>
    if (ff.zipIdx).any (fun ri => ri.1.contains (-1) && decide (f.length ≤ ri.2)) then
      .error .indexError
    else if ff.any (fun r => (r.zipIdx).any (fun vj => vj.1 == -1 && decide (UIO.cols f ≤ vj.2))) then
      .error .indexError
    else .ok (UTopo.boundsFrom (UIO.cols f) f ff)

/-- The neighbour table of the current faces; `None.shape` raises `AttributeError`. -/
def neighbours (faces : Option (List (List Int))) : Except Err (List (List Int)) :=
  match faces with
  | none => .error .attributeError
  | some f => .ok (UTopo.buildFaceFace (UIO.cols f) f)

/-- The neighbour table held, or else built, lines 882-883. -/
def tableOf (g : UIO.UGrid K) : Except Err (List (List Int)) :=
  match g.faceFace with
  | some t => .ok t
  | none => neighbours g.faces

/-- `build_edges`, lines 844-867. -/
def edgesOf (faces : Option (List (List Int))) : Option (List (List Int)) :=
  faces.map (fun f => rowsOf (UTopo.buildEdges (UIO.cols f) f))

variable [Field K] (query : List (Int × Int) → Int × Int → Nat)

/-- One operation: the new object, or the exception. -/
def step (s : Obj K) (op : Op K) : Except Err (Obj K) :=
  let g := s.grid
  match op with
  | .setNodes none => .ok { s with grid := { g with nodes := [] } }
  | .setNodes (some ns) => .ok { s with grid := { g with nodes := ns } }
  | .delNodes =>
    .ok { s with grid := { g with nodes := [], edges := none, faces := none, boundaries := none } }
  | .setFaces none =>
    .ok { s with grid := { g with faces := none, faceFace := none, faceEdge := none } }
  | .setFaces (some t) => match UTopo.setFaces g.nodes.length t with
    | .error e => .error e
    | .ok t' => .ok { s with grid := { g with faces := some t' } }
  | .delFaces =>
    .ok { s with grid := { g with faces := none, faceFace := none, faceEdge := none,
                                  edgeCoords := none } }
  | .setEdges (some t) => .ok { s with grid := { g with edges := some t } }
  | .setEdges none => .ok { s with grid := { g with edges := none, faceEdge := none } }
  | .delEdges =>
    .ok { s with grid := { g with edges := none, faceEdge := none, edgeCoords := none } }
  | .setBoundaries t => .ok { s with grid := { g with boundaries := t } }
  | .delBoundaries => .ok { s with grid := { g with boundaries := none, boundaryCoords := none } }
  | .setFaceFace none => .ok { s with grid := { g with faceFace := none } }
  | .setFaceFace (some t) => match shapeCheck g.faces t with
    | .error e => .error e
    | .ok _ => .ok { s with grid := { g with faceFace := some t } }
  | .delFaceFace => .ok { s with grid := { g with faceFace := none } }
  | .setFaceEdge none => .ok { s with grid := { g with faceEdge := none } }
  | .setFaceEdge (some t) => match shapeCheck g.faces t with
    | .error e => .error e
    | .ok _ => .ok { s with grid := { g with faceEdge := some t } }
  | .delFaceEdge => .ok { s with grid := { g with faceEdge := none } }
  | .buildFaceFace => match neighbours g.faces with
    | .error e => .error e
    | .ok t => .ok { s with grid := { g with faceFace := some t } }
  | .buildEdges => .ok { s with grid := { g with edges := edgesOf g.faces } }
  | .buildBoundaries =>
    match tableOf g with
    | .error e => .error e
    | .ok t => match boundariesOf g.faces t with
      | .error e => .error e
      | .ok b => .ok { s with grid := { g with faceFace := some t, boundaries := some (rowsOf b) } }
  | .buildFaceEdge => match g.edges, g.faces with
    | none, _ => .error .attributeError
    | some _, none => .error .typeError
    | some e, some f =>
      let t := (UTopo.buildFaceEdge query (UIO.cols f) f (pairsOf e)).map
        (fun r => r.map (fun i : Nat => (i : Int)))
      .ok { s with grid := { g with faceEdge := some t } }
  | .buildFaceCoords => match meanCoords g.nodes g.faces with
    | .error e => .error e
    | .ok c => .ok { s with grid := { g with faceCoords := some c } }
  | .buildEdgeCoords => match meanCoords g.nodes g.edges with
    | .error e => .error e
    | .ok c => .ok { s with grid := { g with edgeCoords := some c } }
  | .buildBoundaryCoords => match meanCoords g.nodes g.boundaries with
    | .error e => .error e
    | .ok c => .ok { s with grid := { g with boundaryCoords := some c } }
  | .locateNodes => .ok (match s.kdtree with
    | some _ => s
    | none => { s with kdtree := some g.nodes })
  | .getLines => .ok (match g.edges with
    | some _ => s
    | none => { s with grid := { g with edges := edgesOf g.faces } })

/-- An operation whose exception, if any, is caught. -/
def next (s : Obj K) (op : Op K) : Obj K :=
  match step query s op with
  | .ok s' => s'
  | .error _ => s

/-- A history of operations. -/
def run (s : Obj K) (ops : List (Op K)) : Obj K := ops.foldl (next query) s

/-- The nodes `locate_nodes` searches, lines 539-543. -/
def searched (s : Obj K) : List (K × K) := s.kdtree.getD s.grid.nodes

/-- `get_lines`, lines 837-840: the end points of every edge. Without faces there are no edges, and
indexing with `None` returns all nodes as a single line. -/
def lines (s : Obj K) : Except Err (List (List (K × K))) :=
  match (match s.grid.edges with
    | some t => some t
    | none => edgesOf s.grid.faces) with
  | some t => pickAll s.grid.nodes t
  | none => .ok [s.grid.nodes]

end

/-! ## Equality -/

/-- The class of an object: `UGrid` or a subclass. -/
inductive Cls where
  | ugrid
  | sub (n : Nat)
  deriving DecidableEq, Repr

/-- `__eq__`, lines 219-232, for objects with identities `ids`. `np.array_equal` compares shapes and
values; `None` equals `None` only. Numbers are not NaN here. -/
def eqGrid {K : Type} [DecidableEq K] (same : Bool) (c c' : Cls) (g g' : UIO.UGrid K) : Bool :=
  if same then true
  else if c ≠ c' then false
  else decide (g.nodes = g'.nodes) && decide (g.faces = g'.faces) &&
    decide (g.boundaries = g'.boundaries)

end Verif.UState
