import Verif.Model.UIO
import Verif.Props.UTopo

/-!
# Lemmas about saving and loading unstructured grids
-/

set_option autoImplicit false

namespace Verif.UIO
open Verif Cache

theorem lookup_append {κ ν : Type*} [DecidableEq κ] (a b : List (κ × ν)) (k : κ) :
    lookup (a ++ b) k = (lookup a k).or (lookup b k) := by
  induction a with
  | nil => simp [lookup]
  | cons p a ih =>
    obtain ⟨k', v⟩ := p
    simp only [List.cons_append, lookup]
    split
    · simp
    · exact ih

variable {K : Type}

/-- The variables of longitudes and of latitudes. -/
def lonVar (c : List (K × K)) : Var K :=
  { standardName := some "longitude", units := some "degrees_east", values := c.map Prod.fst }

def latVar (c : List (K × K)) : Var K :=
  { standardName := some "latitude", units := some "degrees_north", values := c.map Prod.snd }

/-- The optional coordinates that are written. -/
def optC (l : Loc) (cs : Option (List (K × K))) : NC K :=
  match cs with
  | none => []
  | some c => coordVars l c

/-- The file `save` writes. -/
def saved (g : UGrid K) : NC K :=
  [(.mesh, meshVar g)] ++ tableVar "face_node_connectivity" .faceNodes g.faces ++
      tableVar "edge_node_connectivity" .edgeNodes g.edges ++
      tableVar "boundary_node_connectivity" .boundaryNodes g.boundaries ++
      optC .face g.faceCoords ++ optC .edge g.edgeCoords ++ optC .boundary g.boundaryCoords ++
      coordVars .node g.nodes

theorem lookup_tableVar (role : String) (name k : Name) (t : Option (List (List Int))) :
    lookup (tableVar (K := K) role name t) k =
      if name = k then t.map (fun rows => { cfRole := some role, startIndex := some 0, table := rows })
      else none := by
  cases t with
  | none => simp [tableVar, lookup]
  | some rows => simp [tableVar, lookup]

theorem lookup_optC (l : Loc) (cs : Option (List (K × K))) (k : Name) :
    lookup (optC l cs) k = match cs with
      | none => none
      | some c => lookup (coordVars l c) k := by
  cases cs <;> simp [optC, lookup]

theorem filter_tableVar (role : String) (name : Name) (t : Option (List (List Int)))
    (h : role ≠ "mesh_topology") :
    (tableVar (K := K) role name t).filter (fun p => isMesh p.2) = [] := by
  cases t <;> simp [tableVar, isMesh, h]

theorem filter_coordVars (l : Loc) (c : List (K × K)) :
    (coordVars l c).filter (fun p => isMesh p.2) = [] := by
  simp [coordVars, isMesh]

theorem filter_optC (l : Loc) (cs : Option (List (K × K))) :
    (optC l cs).filter (fun p => isMesh p.2) = [] := by
  cases cs
  · simp [optC]
  · simp [optC, filter_coordVars]

theorem filter_saved (g : UGrid K) :
    (saved g).filter (fun p => isMesh p.2) = [(.mesh, meshVar g)] := by
  have h1 : ("face_node_connectivity" : String) ≠ "mesh_topology" := by decide
  have h2 : ("edge_node_connectivity" : String) ≠ "mesh_topology" := by decide
  have h3 : ("boundary_node_connectivity" : String) ≠ "mesh_topology" := by decide
  simp only [saved, List.filter_append, filter_tableVar _ _ _ h1, filter_tableVar _ _ _ h2,
    filter_tableVar _ _ _ h3, filter_optC, filter_coordVars]
  simp [isMesh, meshVar]

theorem zip_fst_snd (c : List (K × K)) : (c.map Prod.fst).zip (c.map Prod.snd) = c := by
  induction c with
  | nil => rfl
  | cons p c ih => simp [ih]

/-- Reading the two variables of a location gives the coordinates. -/
theorem readCoords_of (mem : Loc → Nat → K × K) (nc : NC K) (mesh : Var K) (l : Loc) (c : List (K × K))
    (hr : lookup mesh.refs (.coordinates l) = some [.lon l, .lat l])
    (hx : lookup nc (.lon l) = some (lonVar c))
    (hy : lookup nc (.lat l) = some (latVar c)) :
    readCoords mem nc mesh l = .ok (some c) := by
  have a1 : axisOf (lonVar c) = .ok 0 := by
    simp [axisOf, lonVar, latVar]
  have a2 : axisOf (latVar c) = .ok 1 := by
    simp [axisOf, lonVar, latVar]
  simp only [readCoords, hr, getVars, hx, hy, fillCols, a1, a2, spread]
  simp [zip_fst_snd, lonVar, latVar]

theorem lookup_lon (l : Loc) (c : List (K × K)) :
    lookup (coordVars l c) (.lon l) = some (lonVar c) := by
  simp [coordVars, lookup, lonVar]

theorem lookup_lat (l : Loc) (c : List (K × K)) :
    lookup (coordVars l c) (.lat l) = some (latVar c) := by
  simp [coordVars, lookup, latVar]

theorem lookup_coord_ne (l l' : Loc) (c : List (K × K)) (h : l ≠ l') :
    lookup (coordVars l c) (.lon l') = none ∧ lookup (coordVars l c) (.lat l') = none := by
  simp [coordVars, lookup, h]

theorem lookup_coord_table (l : Loc) (c : List (K × K)) :
    lookup (coordVars l c) .faceNodes = none ∧ lookup (coordVars l c) .edgeNodes = none ∧
    lookup (coordVars l c) .boundaryNodes = none ∧ lookup (coordVars l c) .faceLinks = none := by
  simp [coordVars, lookup]

theorem lookup_optC_ne (l l' : Loc) (c : Option (List (K × K))) (h : l ≠ l') :
    lookup (optC l c) (.lon l') = none ∧ lookup (optC l c) (.lat l') = none := by
  cases c with
  | none => simp [optC, lookup]
  | some c => simpa [optC] using lookup_coord_ne l l' c h

theorem lookup_optC_table (l : Loc) (c : Option (List (K × K))) :
    lookup (optC l c) .faceNodes = none ∧ lookup (optC l c) .edgeNodes = none ∧
    lookup (optC l c) .boundaryNodes = none ∧ lookup (optC l c) .faceLinks = none := by
  cases c with
  | none => simp [optC, lookup]
  | some c => simpa [optC] using lookup_coord_table l c

theorem readCoords_node (mem : Loc → Nat → K × K) (g : UGrid K) :
    readCoords mem (saved g) (meshVar g) .node = .ok (some g.nodes) := by
  apply readCoords_of
  · simp [meshVar, lookup]
  · simp [saved, lookup_append, lookup, lookup_tableVar, lookup_lon,
      (lookup_optC_ne (K := K) .face .node _ (by decide)),
      (lookup_optC_ne (K := K) .edge .node _ (by decide)),
      (lookup_optC_ne (K := K) .boundary .node _ (by decide))]
  · simp [saved, lookup_append, lookup, lookup_tableVar, lookup_lat,
      (lookup_optC_ne (K := K) .face .node _ (by decide)),
      (lookup_optC_ne (K := K) .edge .node _ (by decide)),
      (lookup_optC_ne (K := K) .boundary .node _ (by decide))]

theorem readCoords_face (mem : Loc → Nat → K × K) (g : UGrid K) (h : g.faceCoords.isSome → g.faces.isSome) :
    readCoords mem (saved g) (meshVar g) .face = .ok g.faceCoords := by
  cases hc : g.faceCoords with
  | none =>
    have : lookup (meshVar g).refs (.coordinates .face) = none := by
      cases h1 : g.edges <;> cases h2 : g.edgeCoords <;> cases h3 : g.faces <;>
        cases h4 : g.faceEdge <;> cases h5 : g.faceFace <;> cases h6 : g.boundaries <;>
        simp [meshVar, lookup, hc, h1, h2, h3, h4, h5, h6]
    simp [readCoords, this]
  | some c =>
    have hf : g.faces.isSome := h (by simp [hc])
    apply readCoords_of
    · cases h1 : g.edges <;> cases h2 : g.edgeCoords <;>
        simp [meshVar, lookup, hc, h1, h2, hf]
    · simp [saved, lookup_append, lookup, lookup_tableVar, hc, lookup_optC, lookup_lon]
    · simp [saved, lookup_append, lookup, lookup_tableVar, hc, lookup_optC, lookup_lat]

theorem readCoords_edge (mem : Loc → Nat → K × K) (g : UGrid K) (h : g.edgeCoords.isSome → g.edges.isSome) :
    readCoords mem (saved g) (meshVar g) .edge = .ok g.edgeCoords := by
  cases hc : g.edgeCoords with
  | none =>
    have : lookup (meshVar g).refs (.coordinates .edge) = none := by
      cases h1 : g.edges <;> cases h2 : g.faceCoords <;> cases h3 : g.faces <;>
        cases h4 : g.faceEdge <;> cases h5 : g.faceFace <;> cases h6 : g.boundaries <;>
        simp [meshVar, lookup, hc, h1, h2, h3, h4, h5, h6]
    simp [readCoords, this]
  | some c =>
    have hf : g.edges.isSome := h (by simp [hc])
    apply readCoords_of
    · simp [meshVar, lookup, hc, hf]
    · simp [saved, lookup_append, lookup, lookup_tableVar, hc,
        (lookup_optC_ne (K := K) .face .edge _ (by decide)), lookup_optC, lookup_lon]
    · simp [saved, lookup_append, lookup, lookup_tableVar, hc,
        (lookup_optC_ne (K := K) .face .edge _ (by decide)), lookup_optC, lookup_lat]

theorem readCoords_boundary (mem : Loc → Nat → K × K) (g : UGrid K) :
    readCoords mem (saved g) (meshVar g) .boundary = .ok none := by
  have : lookup (meshVar g).refs (.coordinates .boundary) = none := by
    cases h1 : g.edges <;> cases h2 : g.faceCoords <;> cases h3 : g.faces <;>
      cases h4 : g.faceEdge <;> cases h5 : g.faceFace <;> cases h6 : g.boundaries <;>
      cases hc : g.edgeCoords <;>
      simp [meshVar, lookup, hc, h1, h2, h3, h4, h5, h6]
  simp [readCoords, this]

/-- A saved table is read back as `normalise` leaves it; it has a start index of zero. -/
theorem normalise_saved (numInd n : Nat) (role : String) (t : List (List Int)) :
    normalise numInd n ({ cfRole := some role, startIndex := some 0, table := t } : Var K) =
      .ok (if t.length = numInd then transpose t else t) := by
  simp [normalise]

theorem readTable_of (nc : NC K) (mesh : Var K) (role : Role) (name : Name) (numInd n : Nat)
    (t : Option (List (List Int))) (cf : String)
    (hr : lookup mesh.refs role = if t.isSome then some [name] else none)
    (hv : lookup nc name = t.map (fun rows => { cfRole := some cf, startIndex := some 0, table := rows })) :
    readTable nc mesh role numInd n =
      .ok (t.map (fun t => if t.length = numInd then transpose t else t)) := by
  cases t with
  | none => simp at hr hv; simp [readTable, hr]
  | some t =>
    simp at hr hv
    simp only [readTable, hr, hv, normalise_saved, Option.map_some]

theorem readTable_faces (g : UGrid K) (n : Nat) :
    readTable (saved g) (meshVar g) .faceNode 3 n =
      .ok (g.faces.map (fun t => if t.length = 3 then transpose t else t)) := by
  apply readTable_of (name := .faceNodes) (cf := "face_node_connectivity")
  · cases h1 : g.edges <;> cases h2 : g.faceCoords <;> cases h3 : g.faces <;>
      cases h4 : g.faceEdge <;> cases h5 : g.faceFace <;> cases h6 : g.boundaries <;>
      cases hc : g.edgeCoords <;>
      simp [meshVar, lookup, hc, h1, h2, h3, h4, h5, h6]
  · simp [saved, lookup_append, lookup, lookup_tableVar, lookup_optC_table, lookup_coord_table]

theorem readTable_edges (g : UGrid K) (n : Nat) :
    readTable (saved g) (meshVar g) .edgeNode 2 n =
      .ok (g.edges.map (fun t => if t.length = 2 then transpose t else t)) := by
  apply readTable_of (name := .edgeNodes) (cf := "edge_node_connectivity")
  · cases h1 : g.edges <;> cases h2 : g.faceCoords <;> cases h3 : g.faces <;>
      cases h4 : g.faceEdge <;> cases h5 : g.faceFace <;> cases h6 : g.boundaries <;>
      cases hc : g.edgeCoords <;>
      simp [meshVar, lookup, hc, h1, h2, h3, h4, h5, h6]
  · simp [saved, lookup_append, lookup, lookup_tableVar, lookup_optC_table, lookup_coord_table]

theorem readTable_boundaries (g : UGrid K) (n : Nat) :
    readTable (saved g) (meshVar g) .boundaryNode 2 n =
      .ok (g.boundaries.map (fun t => if t.length = 2 then transpose t else t)) := by
  apply readTable_of (name := .boundaryNodes) (cf := "boundary_node_connectivity")
  · cases h1 : g.edges <;> cases h2 : g.faceCoords <;> cases h3 : g.faces <;>
      cases h4 : g.faceEdge <;> cases h5 : g.faceFace <;> cases h6 : g.boundaries <;>
      cases hc : g.edgeCoords <;>
      simp [meshVar, lookup, hc, h1, h2, h3, h4, h5, h6]
  · simp [saved, lookup_append, lookup, lookup_tableVar, lookup_optC_table, lookup_coord_table]

theorem readTable_links (g : UGrid K) (n : Nat) :
    readTable (saved g) (meshVar g) .faceFace 3 n = .ok none := by
  have : lookup (saved g) .faceLinks = none := by
    simp [saved, lookup_append, lookup, lookup_tableVar, lookup_optC_table, lookup_coord_table]
  cases h1 : g.edges <;> cases h2 : g.faceCoords <;> cases h3 : g.faces <;>
      cases h4 : g.faceEdge <;> cases h5 : g.faceFace <;> cases h6 : g.boundaries <;>
      cases hc : g.edgeCoords <;>
      simp [readTable, meshVar, lookup, hc, h1, h2, h3, h4, h5, h6, this]

end Verif.UIO
