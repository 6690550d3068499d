import Verif.Spec.UTopo
import Verif.Model.UIO
import Mathlib.Algebra.Field.Defs
import Mathlib.Data.List.Forall2
import Mathlib.Algebra.BigOperators.Group.List.Defs

/-!
# What the parts of an unstructured grid should be
-/

set_option autoImplicit false

namespace Verif.Spec

/-- A table has one row for each face and one entry for each of its sides. -/
def ForFaces (faces : Option (List (List Int))) (t : List (List Int)) : Prop :=
  ∃ f, faces = some f ∧ t.map List.length = f.map List.length

/-- The connectivity tables a grid holds are tables for its faces. -/
def TablesFit {K : Type} (g : UIO.UGrid K) : Prop :=
  (∀ t, g.faceFace = some t → ForFaces g.faces t) ∧ (∀ t, g.faceEdge = some t → ForFaces g.faces t)

/-- One point for each row of a table that is there. -/
def OnePer {K : Type} (table : Option (List (List Int))) (c : Option (List (K × K))) : Prop :=
  ∀ ps, c = some ps → ∃ t, table = some t ∧ ps.length = t.length

/-- The representative points a grid holds belong to its faces, edges and boundary segments. -/
def CoordsFit {K : Type} (g : UIO.UGrid K) : Prop :=
  OnePer g.faces g.faceCoords ∧ OnePer g.edges g.edgeCoords ∧ OnePer g.boundaries g.boundaryCoords

/-- The node with a number, if there is one; -1 is no node. -/
def NodeAt {K : Type} (nodes : List (K × K)) (i : Int) (p : K × K) : Prop :=
  ∃ n : Nat, i = n ∧ nodes[n]? = some p

/-- The nodes of a row, in order, without padding. -/
def NodesOf {K : Type} (nodes : List (K × K)) (row : List Int) (ps : List (K × K)) : Prop :=
  List.Forall₂ (NodeAt nodes) (row.filter (fun i => i ≠ -1)) ps

/-- The point whose multiple by the number of points is their sum. -/
def AverageOf {K : Type} [Field K] (ps : List (K × K)) (c : K × K) : Prop :=
  (ps.length : K) * c.1 = (ps.map Prod.fst).sum ∧ (ps.length : K) * c.2 = (ps.map Prod.snd).sum

end Verif.Spec
