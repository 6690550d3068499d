import Verif.Model.UState

/-!
# Making `UGrid` objects, and the arrays they share

`UGrid.__init__` (`gridded/pyugrid/ugrid.py:44-155`) over values, and the `faces` setter
(`ugrid.py:293-329`) with the arrays of the caller: `np.asanyarray(faces, dtype=IND_DT)` takes over an
array of that type and copies everything else, and indices counted from one are lowered in place.

Simplifications. Tables are rectangular and not masked, as in `Verif.UIO`; longitudes and latitudes are
vectors; `mesh_name` and `grid_topology` are kept as given and are left out (the latter has its entry
`topology_dimension` turned into an `int` in the dictionary of the caller). The other tables are shared
with the caller too, but nothing in the library writes to them. Writes by the caller are not modelled.
-/

set_option autoImplicit false

namespace Verif.UConstruct
open Verif

/-- A table of indices. -/
abbrev Table := List (List Int)

/-- The arguments of the constructor, `ugrid.py:44-66`. -/
structure Args (K : Type) where
  nodes : Option (List (K × K)) := none
  nodeLon : Option (List K) := none
  nodeLat : Option (List K) := none
  faces : Option Table := none
  edges : Option Table := none
  boundaries : Option Table := none
  faceFace : Option Table := none
  faceEdge : Option Table := none
  edgeCoords : Option (List (K × K)) := none
  faceCoords : Option (List (K × K)) := none
  boundaryCoords : Option (List (K × K)) := none

section
variable {K : Type}

/-- The nodes, `ugrid.py:115-120` and the `nodes` setter (`ugrid.py:265-272`). `column_stack` of vectors
of different lengths raises `ValueError`. -/
def nodesOf (a : Args K) : Except Err (List (K × K)) :=
  match a.nodes with
  | some ns => if a.nodeLon.isSome || a.nodeLat.isSome then .error .typeError else .ok ns
  | none => match a.nodeLon, a.nodeLat with
    | some x, some y => if x.length = y.length then .ok (x.zip y) else .error .valueError
    | _, _ => .ok []

/-- The `faces` setter (`ugrid.py:293-329`). -/
def facesOf (n : Nat) : Option Table → Except Err (Option Table)
  | none => .ok none
  | some t => match UTopo.setFaces n t with
    | .error e => .error e
    | .ok t' => .ok (some t')

/-- The setters of the tables that belong to the faces (`ugrid.py:383-392, 403-412`). -/
def checked (faces : Option Table) : Option Table → Except Err (Option Table)
  | none => .ok none
  | some t => match UState.shapeCheck faces t with
    | .error e => .error e
    | .ok _ => .ok (some t)

/-- `UGrid(...)` (`ugrid.py:115-132`). -/
def construct (a : Args K) : Except Err (UIO.UGrid K) :=
  match nodesOf a with
  | .error e => .error e
  | .ok ns => match facesOf ns.length a.faces with
    | .error e => .error e
    | .ok fs => match checked fs a.faceFace with
      | .error e => .error e
      | .ok ff => match checked fs a.faceEdge with
        | .error e => .error e
        | .ok fe =>
          .ok { nodes := ns, faces := fs, edges := a.edges, boundaries := a.boundaries, faceFace := ff,
                faceEdge := fe, edgeCoords := a.edgeCoords, faceCoords := a.faceCoords,
                boundaryCoords := a.boundaryCoords }

/-- The parts of a grid as arguments: `UGrid(nodes=g.nodes, faces=g.faces, ...)`. -/
def partsOf (g : UIO.UGrid K) : Args K :=
  { nodes := some g.nodes, faces := g.faces, edges := g.edges, boundaries := g.boundaries,
    faceFace := g.faceFace, faceEdge := g.faceEdge, edgeCoords := g.edgeCoords,
    faceCoords := g.faceCoords, boundaryCoords := g.boundaryCoords }

/-! ## Arrays -/

/-- A grid: its nodes, and which array holds its faces. -/
structure Held (K : Type) where
  nodes : List (K × K)
  faces : Option Nat := none

/-- The arrays there are, those of the caller included, and the grids. -/
structure World (K : Type) where
  arrays : List Table := []
  grids : List (Held K) := []

/-- What is given as faces: a list or an array of another type, an array of indices, or the faces of
a grid. -/
inductive Src where
  | values (t : Table)
  | arr (r : Nat)
  | ofGrid (k : Nat)

inductive Cmd (K : Type) where
  | create (nodes : List (K × K)) (faces : Option Src) (faceFace : Option Table)
  | setFaces (k : Nat) (faces : Option Src)

/-- `np.asanyarray(faces, dtype=IND_DT)` (`ugrid.py:299`): the arrays there are then, and the array
meant. Nothing if there is none. -/
def place (w : World K) : Src → Option (List Table × Nat)
  | .values t => some (w.arrays ++ [t], w.arrays.length)
  | .arr r => if r < w.arrays.length then some (w.arrays, r) else none
  | .ofGrid k => match w.grids[k]? with
    | some h => match h.faces with
      | some r => some (w.arrays, r)
      | none => none
    | none => none

/-- `ugrid.py:300-323` for `n` nodes, in place. -/
def adopt (n : Nat) (arrays : List Table) (r : Nat) : Except Err (List Table) :=
  match arrays[r]? with
  | none => .error .indexError
  | some t => match UTopo.setFaces n t with
    | .error e => .error e
    | .ok t' => .ok (arrays.set r t')

/-- One command: the world after it, and the exception if it raises. Commands about things that do not
exist do nothing. -/
def exec (w : World K) : Cmd K → World K × Option Err
  | .create ns none ff => match checked none ff with
    | .error e => (w, some e)
    | .ok _ => ({ w with grids := w.grids ++ [⟨ns, none⟩] }, none)
  | .create ns (some s) ff => match place w s with
    | none => (w, none)
    | some (arrays, r) => match adopt ns.length arrays r with
      | .error e => (w, some e)
      | .ok arrays' => match checked arrays'[r]? ff with
        | .error e => ({ w with arrays := arrays' }, some e)
        | .ok _ => ({ arrays := arrays', grids := w.grids ++ [⟨ns, some r⟩] }, none)
  | .setFaces k none => match w.grids[k]? with
    | none => (w, none)
    | some h => ({ w with grids := w.grids.set k { h with faces := none } }, none)
  | .setFaces k (some s) => match w.grids[k]? with
    | none => (w, none)
    | some h => match place w s with
      | none => (w, none)
      | some (arrays, r) => match adopt h.nodes.length arrays r with
        | .error e => (w, some e)
        | .ok arrays' =>
          ({ arrays := arrays', grids := w.grids.set k { h with faces := some r } }, none)

/-- A history of commands; exceptions are caught. -/
def run (w : World K) (cs : List (Cmd K)) : World K := cs.foldl (fun w c => (exec w c).1) w

/-- The faces of a grid. -/
def facesAt (w : World K) (k : Nat) : Option Table :=
  match w.grids[k]? with
  | none => none
  | some h => match h.faces with
    | none => none
    | some r => w.arrays[r]?

end

end Verif.UConstruct
