import Verif.Props.SLoad
import Mathlib.Tactic.Tauto
import Mathlib.Tactic.Set

/-!
# Saving a structured grid and loading it again: C111
-/

set_option autoImplicit false

namespace Verif
open Verif.Spec Verif.SFile

section C111
variable {α : Type} {ang : α → α → Except Err α}

/-- A variable as saved with the others. -/
def restVar (fill : α) (g : SObj α) (v : SVar) : NVar α :=
  { name := v.name, dims := v.dims, attrs := savedAttrs g v, data := fill }

/-- A variable as saved with an array. -/
def bareVar (v : NVar α) (x : α) : NVar α := { name := v.name, dims := v.dims, data := x }

/-- The variable that describes the grid, as saved. -/
def topSaved (fill : α) (g : SObj α) : NVar α :=
  { name := g.topVar, dims := [], attrs := topologyAttrs g, topDim := some (.ok 2), data := fill }

theorem saveRest_eq (fill : α) (g : SObj α) : ∀ (vs : List SVar) (made : List (NVar α)),
    (vs.map SVar.name).Nodup → saveRest fill g made vs =
      made ++ (vs.filter (fun v => decide (v.name ∉ made.map NVar.name))).map (restVar fill g)
  | [], made, _ => by simp [saveRest]
  | v :: vs, made, h => by
    rw [List.map_cons, List.nodup_cons] at h
    rw [saveRest]
    split
    · next hm =>
      rw [saveRest_eq fill g vs made h.2, List.filter_cons_of_neg (by simpa using hm)]
    · next hm =>
      rw [saveRest_eq fill g vs _ h.2, List.filter_cons_of_pos (by simpa using hm), List.map_cons,
        List.append_assoc]
      congr 1
      rw [List.singleton_append]
      congr 2
      apply List.filter_congr
      intro w hw
      have : w.name ≠ v.name := fun e => h.1 (List.mem_map.2 ⟨w, hw, e⟩)
      simp [this]

theorem var_ok {f : File α} {g : SObj α} (h : load ang f = .ok g) (hd : DistinctNames f)
    {v : NVar α} (hv : v ∈ f.vars) : ∃ s, g.var v.name = .ok s ∧ s.name = v.name ∧ s.dims = v.dims := by
  obtain ⟨hF, -⟩ := C110_variables f g h
  have : ∀ {l : List (NVar α)} {r : List SVar}, List.Forall₂ (fun (v : NVar α) (s : SVar) =>
      s.name = v.name ∧ s.dims = v.dims ∧ s.grid = v.attrs.lookup "grid".toList ∧
        s.standardName = v.attrs.lookup "standard_name".toList) l r → (l.map NVar.name).Nodup →
      v ∈ l → ∃ s, r.find? (fun w => w.name == v.name) = some s ∧ s.name = v.name ∧ s.dims = v.dims := by
    intro l r hF
    induction hF with
    | nil => intro _ h; cases h
    | @cons a b l r hab _ ih =>
      intro hn hm
      rw [List.map_cons, List.nodup_cons] at hn
      rcases List.mem_cons.1 hm with rfl | hm
      · exact ⟨b, by rw [List.find?_cons_of_pos (by simp [hab.1])], hab.1, hab.2.1⟩
      · have : b.name ≠ v.name := by
          rw [hab.1]
          exact fun e => hn.1 (e ▸ List.mem_map.2 ⟨v, hm, rfl⟩)
        rw [List.find?_cons_of_neg (by simpa using this)]
        exact ih hn.2 hm
  obtain ⟨s, hs, e1, e2⟩ := this hF hd hv
  exact ⟨s, by unfold SObj.var; rw [hs], e1, e2⟩

theorem var_none {f : File α} {g : SObj α} (h : load ang f = .ok g) {n : Txt}
    (hn : ∀ v ∈ f.vars, v.name ≠ n) : g.var n = .error .attributeError := by
  obtain ⟨hF, -⟩ := C110_variables f g h
  unfold SObj.var
  rw [List.find?_eq_none.2]
  intro s hs
  obtain ⟨v, hv, e, -⟩ := forall₂_right hF s hs
  simpa [e] using hn v hv

theorem names_eq {f : File α} {g : SObj α} (h : load ang f = .ok g) :
    g.variables.map SVar.name = f.vars.map NVar.name := by
  obtain ⟨hF, -⟩ := C110_variables f g h
  exact (forall₂_map NVar.name SVar.name (fun a b e => e.1.symm) hF).symm

theorem createFor_ok {f : File α} {g : SObj α} (h : load ang f = .ok g) (hd : DistinctNames f)
    {v : NVar α} (hv : v ∈ f.vars) (made : List (NVar α)) (x : α)
    (hn : v.name ∉ made.map NVar.name) :
    createFor g made v.name (some x) = .ok (made ++ [bareVar v x]) := by
  obtain ⟨s, hs, e1, e2⟩ := var_ok h hd hv
  unfold createFor
  rw [hs]
  simp only
  unfold create
  simp only [e1]
  rw [if_neg hn, e2]
  rfl

/-- The variable `angle` as saved, if there is one. -/
def angleSaved (f : File α) (g : SObj α) : List (NVar α) :=
  match f.find "angle".toList with
  | none => []
  | some v => [bareVar v g.angles]

variable {f : File α} {g : SObj α} {cx cy nx ny : NVar α}

/-- The variables that are saved with arrays or describe the grid. -/
def made (fill : α) (f : File α) (g : SObj α) (cx cy nx ny : NVar α) : List (NVar α) :=
  [bareVar cx cx.data, bareVar cy cy.data, bareVar nx nx.data, bareVar ny ny.data,
    topSaved fill g] ++ angleSaved f g

theorem arrays_of (h : load ang f = .ok g) (S : Survives f g cx cy nx ny) :
    g.centerLon = some cx.data ∧ g.centerLat = some cy.data ∧ g.nodeLon = some nx.data ∧
      g.nodeLat = some ny.data := by
  obtain ⟨hn, hc, -, -⟩ := C112_arrays_partial f g h
    (fun v hv e => S.free v hv (List.mem_cons_of_mem _ e))
  rcases hn with ⟨e, -⟩ | ⟨vx, h1, vy, h2, e, e1, e2⟩
  · rw [S.node] at e; cases e
  rcases hc with ⟨e', -⟩ | ⟨wx, h3, wy, h4, e', e3, e4⟩
  · rw [S.face] at e'; cases e'
  rw [S.node] at e
  rw [S.face] at e'
  simp only [Option.some.injEq, List.cons.injEq, and_true] at e e'
  rw [eq_of_name S.distinct S.hnx h1 e.1, eq_of_name S.distinct S.hny h2 e.2,
    eq_of_name S.distinct S.hcx h3 e'.1, eq_of_name S.distinct S.hcy h4 e'.2]
  exact ⟨e3, e4, e1, e2⟩

theorem made_names (fill : α) (S : Survives f g cx cy nx ny) :
    ((made fill f g cx cy nx ny).map NVar.name).Nodup := by
  have := S.apart
  unfold made angleSaved
  cases hf : f.find "angle".toList with
  | none =>
    simp only [List.append_nil, List.map_cons, List.map_nil, bareVar, topSaved]
    exact (List.nodup_append.1 (show ([cx.name, cy.name, nx.name, ny.name, g.topVar] ++
      ["angle".toList]).Nodup from this)).1
  | some v =>
    have e := (find_some hf).2
    simp only [List.cons_append, List.nil_append, List.map_cons, List.map_nil, bareVar, topSaved, e]
    exact this

/-- The file saved. -/
theorem save_eq (fill : α) (h : load ang f = .ok g) (S : Survives f g cx cy nx ny) :
    save fill g = .ok (File.mk f.dims (made fill f g cx cy nx ny ++
      (g.variables.filter (fun v => decide (v.name ∉
        (made fill f g cx cy nx ny).map NVar.name))).map (restVar fill g))) := by
  obtain ⟨a1, a2, a3, a4⟩ := arrays_of h S
  have hap := S.apart
  simp only [List.nodup_cons, List.mem_cons, List.not_mem_nil, or_false, not_or] at hap
  obtain ⟨⟨b1, b2, b3, b4, b5⟩, ⟨b6, b7, b8, b9⟩, ⟨b10, b11, b12⟩, ⟨b13, b14⟩, b15, -⟩ := hap
  have ht : ∃ t ∈ f.vars, t.name = g.topVar := by
    obtain ⟨-, t, ht, e, -⟩ := C110_texts f S.distinct g h
    exact ⟨t, ht, e⟩
  obtain ⟨t, ht, hte⟩ := ht
  obtain ⟨s, hs, e1, -⟩ := var_ok h S.distinct ht
  have hnodes : createNodes g [bareVar cx cx.data, bareVar cy cy.data] =
      .ok [bareVar cx cx.data, bareVar cy cy.data, bareVar nx nx.data, bareVar ny ny.data] := by
    unfold createNodes
    rw [S.node]
    simp only [twoNames, bind_ok]
    refine ⟨_, rfl, [bareVar cx cx.data, bareVar cy cy.data, bareVar nx nx.data], ?_, ?_⟩
    · rw [a3]
      exact createFor_ok h S.distinct S.hnx _ _ (by
        simp [bareVar, Ne.symm b2, Ne.symm b6])
    · rw [a4]
      exact createFor_ok h S.distinct S.hny _ _ (by
        simp [bareVar, Ne.symm b3, Ne.symm b7, Ne.symm b10])
  have hang : createAngle g [bareVar cx cx.data, bareVar cy cy.data, bareVar nx nx.data,
      bareVar ny ny.data, topSaved fill g] = .ok (made fill f g cx cy nx ny) := by
    unfold createAngle made angleSaved
    cases hf : f.find "angle".toList with
    | none =>
      rw [var_none h (fun v hv e => by
        obtain ⟨w, hw⟩ := find_of_mem ⟨v, hv, e⟩
        rw [hf] at hw
        cases hw)]
      simp
    | some v =>
      obtain ⟨m, e⟩ := find_some hf
      obtain ⟨s', hs', q1, q2⟩ := var_ok h S.distinct m
      rw [e] at hs' q1
      rw [hs']
      simp only
      unfold create
      rw [if_neg (by
        simp only [q1, bareVar, topSaved, List.map_cons, List.map_nil, List.mem_cons,
          List.not_mem_nil, or_false, not_or]
        exact ⟨Ne.symm b5, Ne.symm b9, Ne.symm b12, Ne.symm b14, Ne.symm b15⟩)]
      simp [bareVar, q1, q2, e]
  obtain ⟨L⟩ := load_inv h
  unfold save
  simp only [bind_ok]
  refine ⟨(cx.name, cy.name), by rw [S.face]; rfl, [bareVar cx cx.data], ?_,
    [bareVar cx cx.data, bareVar cy cy.data], ?_, _, hnodes, s, by rw [← hte]; exact hs, _, ?_, _,
    hang, ?_⟩
  · rw [a1]
    exact createFor_ok h S.distinct S.hcx [] _ (by simp)
  · rw [a2]
    exact createFor_ok h S.distinct S.hcy _ _ (by simp [bareVar, Ne.symm b1])
  · unfold create
    rw [if_neg (by
      simp only [e1, hte, bareVar, List.map_cons, List.map_nil, List.mem_cons, List.not_mem_nil,
        or_false, not_or]
      exact ⟨Ne.symm b4, Ne.symm b8, Ne.symm b11, Ne.symm b13⟩)]
    rw [e1, hte]
    rfl
  · rw [saveRest_eq fill g _ _ (by rw [names_eq h]; exact S.distinct), L.gdims]

/-! ## Attributes as saved -/

theorem lookup_opt (k k' : String) (x : Option Txt) :
    (opt k x).lookup k'.toList = if k = k' then x else none := by
  cases x with
  | none => simp [opt]
  | some s =>
    by_cases e : k = k'
    · subst e; simp [opt, List.lookup]
    · rw [if_neg e]
      have : k'.toList ≠ k.toList := fun q => e (String.toList_inj.1 q).symm
      simp [opt, List.lookup, beq_eq_false_iff_ne.2 this]

theorem top_attr (fill : α) (k : String) : (topSaved fill g).attr k =
    if "cf_role" = k then some "grid_topology".toList
    else if "node_dimensions" = k then some g.nodeDims
    else if "edge1_dimensions" = k then g.edge1.map Prod.fst
    else if "edge2_dimensions" = k then g.edge2.map Prod.fst
    else if "node_coordinates" = k then g.nodeCoords.map joinSpace
    else if "edge1_coordinates" = k then g.edge1Coords.map joinSpace
    else if "edge2_coordinates" = k then g.edge2Coords.map joinSpace
    else if "face_dimensions" = k then g.face.map Prod.fst
    else if "vertical_dimensions" = k then g.vertical.map Prod.fst
    else if "face_coordinates" = k then g.faceCoords.map joinSpace
    else none := by
  have hform : topologyAttrs g = opt "cf_role" (some "grid_topology".toList) ++
      (opt "node_dimensions" (some g.nodeDims) ++ (opt "edge1_dimensions" (g.edge1.map Prod.fst) ++
      (opt "edge2_dimensions" (g.edge2.map Prod.fst) ++
      (opt "node_coordinates" (g.nodeCoords.map joinSpace) ++
      (opt "edge1_coordinates" (g.edge1Coords.map joinSpace) ++
      (opt "edge2_coordinates" (g.edge2Coords.map joinSpace) ++
      (opt "face_dimensions" (g.face.map Prod.fst) ++
      (opt "vertical_dimensions" (g.vertical.map Prod.fst) ++
      opt "face_coordinates" (g.faceCoords.map joinSpace))))))))) := by
    simp [topologyAttrs, opt]
  have hor : ∀ (c : String) (x y : Option Txt), ((if c = k then x else none).or y) =
      if c = k then x.or y else y := by
    intro c x y
    split
    · rfl
    · rfl
  unfold NVar.attr topSaved
  simp only [hform, List.lookup_append, lookup_opt]
  by_cases c1 : "cf_role" = k
  · subst c1; simp
  by_cases c2 : "node_dimensions" = k
  · subst c2; simp
  by_cases c3 : "edge1_dimensions" = k
  · subst c3; simp
  by_cases c4 : "edge2_dimensions" = k
  · subst c4; simp
  by_cases c5 : "node_coordinates" = k
  · subst c5; simp
  by_cases c6 : "edge1_coordinates" = k
  · subst c6; simp
  by_cases c7 : "edge2_coordinates" = k
  · subst c7; simp
  by_cases c8 : "face_dimensions" = k
  · subst c8; simp
  by_cases c9 : "vertical_dimensions" = k
  · subst c9; simp
  simp [c1, c2, c3, c4, c5, c6, c7, c8, c9]

theorem rest_attr (fill : α) (v : SVar) (k : String) : (restVar fill g v).attr k =
    if "grid" = k then v.grid.map (fun _ => g.topVar)
    else if "standard_name" = k then v.standardName
    else if "coordinates" = k then v.coordinates.map joinSpace
    else if "axes" = k then
      (if axesTexts v.axes = [] then none else some (joinSpace (axesTexts v.axes)))
    else none := by
  unfold NVar.attr restVar savedAttrs
  simp only [List.lookup_append, lookup_opt]
  by_cases c1 : "grid" = k
  · subst c1; simp
  by_cases c2 : "standard_name" = k
  · subst c2; simp
  by_cases c3 : "coordinates" = k
  · subst c3; simp
  simp [c1, c2, c3]

theorem bare_attr (v : NVar α) (x : α) (k : String) : (bareVar v x).attr k = none := rfl

theorem rest_create {p : Pads} {fs : List SText.Decl} (hp : p.faces = .ok fs) (fill : α) {v : NVar α}
    {s : SVar} (h : createVariable p v = .ok s) :
    ∃ s', createVariable p (restVar fill g s) = .ok s' ∧ SameVariable g.topVar s s' ∧
      (v.attrs.lookup "location".toList = none → s'.location = s.location) := by
  obtain ⟨ax, sl, loc, na, dir, h1, h2, h3, h4, h5, rfl⟩ := create_inv h
  have hax : ∀ s : SVar, s.grid = v.attr "grid" → s.dims = v.dims →
      axesOf p (restVar fill g s) = .ok ax := by
    intro s e1 e2
    unfold axesOf at h1 ⊢
    rw [rest_attr, if_pos rfl, e1, show (restVar fill g s).dims = v.dims from e2]
    cases hg : v.attr "grid" with
    | none => rw [hg] at h1; exact h1
    | some w => rw [hg] at h1; exact h1
  have hpl : PlainAxes na := by
    unfold namedAxes at h4
    cases hx : v.attr "axes" with
    | none =>
      rw [hx] at h4
      cases h4
      exact ⟨by simp, by simp, by simp⟩
    | some t =>
      rw [hx] at h4
      obtain ⟨a, ha, hpa⟩ := parseAxes_ok t
      have h4' : SText.parseAxes t = .ok na := h4
      rw [ha] at h4'
      cases h4'
      exact hpa
  have hlocs : ∃ r, inferLocation p v.dims = .ok r := by
    unfold inferLocation
    rw [hp]
    exact ⟨_, rfl⟩
  obtain ⟨r, hr⟩ := hlocs
  unfold createVariable
  simp only [bind_ok]
  refine ⟨_, ⟨ax, hax _ rfl rfl, sl, h2, r, ?_, na, ?_, dir, ?_, rfl⟩, ⟨rfl, rfl, rfl, rfl, rfl, rfl, ?_, rfl,
    ?_, ?_⟩, ?_⟩
  · unfold locationOf
    rw [rest_attr]
    exact hr
  · unfold namedAxes
    rw [rest_attr]
    simp only [reduceCtorEq, String.reduceEq, if_false, if_true]
    by_cases he : axesTexts na = []
    · rw [if_pos he]
      simp only
      have : na = {} := by
        obtain ⟨x, y, z⟩ := na
        cases x <;> cases y <;> cases z <;> simp [axesTexts, axisText] at he ⊢
      rw [this]
    · rw [if_neg he]
      exact parseAxes_texts na hpl
  · unfold directionOf at h5 ⊢
    rw [rest_attr]
    exact h5
  · simp [rest_attr]
  · simp only [rest_attr, String.reduceEq, if_false, if_true, Option.map_map]
    cases v.attr "coordinates" with
    | none => rfl
    | some c =>
      simp only [Option.map_some, Function.comp]
      rw [words_join _ (words_parts c)]
  · simp [rest_attr]
  · intro hl
    unfold locationOf at h3
    rw [attr_eq, hl] at h3
    simp only at h3
    rw [hr] at h3
    rw [Except.ok.inj h3]

theorem bare_create {p : Pads} {fs : List SText.Decl} (hp : p.faces = .ok fs) {v w : NVar α}
    {s : SVar} (h : createVariable p v = .ok s) (hw : w.dims = v.dims) (ha : w.attr "grid" = none)
    (hx : w.attr "axes" = none) (hs : w.attr "standard_name" = none) :
    ∃ s', createVariable p w = .ok s' ∧ s'.name = w.name ∧ s'.dims = w.dims := by
  obtain ⟨ax, sl, loc, na, dir, h1, h2, h3, h4, h5, rfl⟩ := create_inv h
  have hloc : ∃ l, locationOf p w = .ok l := by
    unfold locationOf
    split
    · exact ⟨_, rfl⟩
    · unfold inferLocation
      rw [hp]
      exact ⟨_, rfl⟩
  obtain ⟨l, hl⟩ := hloc
  unfold createVariable
  simp only [bind_ok]
  refine ⟨_, ⟨(none, none), ?_, sl, by rw [hw]; exact h2, l, hl, {}, ?_, none, ?_, rfl⟩, rfl, rfl⟩
  · unfold axesOf; rw [ha]
  · unfold namedAxes; rw [hx]
  · unfold directionOf; rw [hs]

theorem coords_spaces {f : File α} (hs : ∀ v ∈ f.vars, ' ' ∉ v.name) {t : NVar α} {loc : String}
    {l : List Txt} (h : coordinates f t loc = .ok (some l)) : l ≠ [] ∧ ∀ n ∈ l, ' ' ∉ n := by
  unfold coordinates at h
  split at h
  · next s _ =>
    cases h
    exact ⟨splitAt_ne _ s, split_no_space s⟩
  · obtain ⟨hl, he⟩ := C106_exist f _ l h
    refine ⟨by rintro rfl; simp at hl, fun n hn => ?_⟩
    obtain ⟨w, hw, rfl⟩ := he n hn
    exact hs w hw

theorem dimension_same {t t' : NVar α} {k : String} {x : Option (Txt × List SText.Decl)}
    (h : dimension t k = .ok x) (h' : t'.attr k = x.map Prod.fst) : dimension t' k = .ok x := by
  rw [dimension_iff]
  rcases (dimension_iff t k x).1 h with ⟨rfl, -⟩ | ⟨s, ds, rfl, -, hp⟩
  · exact Or.inl ⟨rfl, h'⟩
  · exact Or.inr ⟨s, ds, rfl, h', hp⟩

/-- C111, what holds: a grid with coordinates of nodes and centers, from a file that asks for
nothing special (`Survives`), can be saved, what was saved can be loaded, and gives the same
dimensions, names, declarations, coordinates of nodes and centers and angles. Every other variable
keeps its dimensions, axes, slices and names. -/
theorem C111_round_partial (fill : α) (h : load ang f = .ok g) (S : Survives f g cx cy nx ny) :
    ∃ f' g', save fill g = .ok f' ∧ load ang f' = .ok g' ∧
      g'.dims = g.dims ∧ g'.topVar = g.topVar ∧ g'.nodeDims = g.nodeDims ∧
      g'.nodeCoords = g.nodeCoords ∧ g'.faceCoords = g.faceCoords ∧
      g'.edge1Coords = g.edge1Coords ∧ g'.edge2Coords = g.edge2Coords ∧
      g'.face = g.face ∧ g'.edge1 = g.edge1 ∧ g'.edge2 = g.edge2 ∧ g'.vertical = g.vertical ∧
      g'.nodeLon = g.nodeLon ∧ g'.nodeLat = g.nodeLat ∧ g'.centerLon = g.centerLon ∧
      g'.centerLat = g.centerLat ∧ g'.angles = g.angles ∧
      (∀ n, (∃ s ∈ g'.variables, s.name = n) ↔ ∃ s ∈ g.variables, s.name = n) ∧
      (∀ v ∈ f.vars, v.name ∉ [cx.name, cy.name, nx.name, ny.name, g.topVar, "angle".toList] →
        ∃ s ∈ g.variables, ∃ s' ∈ g'.variables, s.name = v.name ∧ SameVariable g.topVar s s' ∧
          (v.attrs.lookup "location".toList = none → s'.location = s.location)) := by
  have hsave := save_eq fill h S
  obtain ⟨L⟩ := load_inv h
  obtain ⟨a1, a2, a3, a4⟩ := arrays_of h S
  have hF := (mapM_iff _ _ _).1 L.hvars
  have hcr : ∀ {v : NVar α} {s : SVar}, attach (padsOf L.nc.1 g.face g.edge1 g.edge2 g.vertical) v = .ok s →
      createVariable (padsOf L.nc.1 g.face g.edge1 g.edge2 g.vertical) v = .ok s ∧
        v.name ∉ readOnly ∧ s.name = v.name ∧ s.dims = v.dims := by
    intro v s hs
    unfold attach at hs
    split at hs
    · cases hs
    · next s' hs' =>
      split at hs
      · cases hs
      · next hne =>
        cases hs
        obtain ⟨ax, sl, loc, na, dir, -, -, -, -, -, rfl⟩ := create_inv hs'
        exact ⟨hs', hne, rfl, rfl⟩
  set p := padsOf L.nc.1 g.face g.edge1 g.edge2 g.vertical with hpdef
  obtain ⟨ht, hts, -, -⟩ := (C103_found f S.distinct L.t).1 L.top
  have hfaces : ∃ fs, p.faces = .ok fs := by
    obtain ⟨s, -, hs⟩ := forall₂_left hF L.t ht
    obtain ⟨ax, sl, loc, na, dir, -, hsl, -⟩ := create_inv (hcr hs).1
    rw [S.bare L.t ht L.gtop.symm] at hsl
    unfold slicing at hsl
    rw [if_neg (by simp [meet])] at hsl
    unfold Pads.all at hsl
    cases hp : p.faces with
    | error e => rw [hp] at hsl; cases hsl
    | ok fs => exact ⟨fs, rfl⟩
  obtain ⟨fs, hfs⟩ := hfaces
  generalize hM : made fill f g cx cy nx ny = M at hsave
  generalize hR : (g.variables.filter (fun v => decide (v.name ∉ M.map NVar.name))).map
    (restVar fill g) = R at hsave
  have hMn : (M.map NVar.name).Nodup := hM ▸ made_names fill S
  have hRmem : ∀ w, w ∈ R ↔ ∃ s ∈ g.variables, s.name ∉ M.map NVar.name ∧ restVar fill g s = w := by
    intro w
    rw [← hR]
    simp only [List.mem_map, List.mem_filter, decide_eq_true_eq, and_assoc]
  have hMmem : ∀ w ∈ M, w = topSaved fill g ∨ ∃ v ∈ f.vars, ∃ x, w = bareVar v x := by
    intro w hw
    rw [← hM] at hw
    unfold made angleSaved at hw
    rcases List.mem_append.1 hw with hw | hw
    · simp only [List.mem_cons, List.not_mem_nil, or_false] at hw
      rcases hw with rfl | rfl | rfl | rfl | rfl
      · exact Or.inr ⟨cx, S.hcx, _, rfl⟩
      · exact Or.inr ⟨cy, S.hcy, _, rfl⟩
      · exact Or.inr ⟨nx, S.hnx, _, rfl⟩
      · exact Or.inr ⟨ny, S.hny, _, rfl⟩
      · exact Or.inl rfl
    · cases hf : f.find "angle".toList with
      | none => rw [hf] at hw; cases hw
      | some v =>
        rw [hf] at hw
        simp only [List.mem_cons, List.not_mem_nil, or_false] at hw
        exact Or.inr ⟨v, (find_some hf).1, _, hw⟩
  have hD : DistinctNames (File.mk f.dims (M ++ R)) := by
    unfold DistinctNames
    rw [List.map_append, List.nodup_append]
    refine ⟨hMn, ?_, ?_⟩
    · rw [← hR, List.map_map]
      have : (NVar.name ∘ restVar fill g) = SVar.name := rfl
      rw [this]
      exact ((names_eq h) ▸ S.distinct : (g.variables.map SVar.name).Nodup).sublist
        (List.filter_sublist.map _)
    · intro a ha b hb e
      obtain ⟨w, hw, rfl⟩ := List.mem_map.1 hb
      obtain ⟨s, -, hn, rfl⟩ := (hRmem w).1 hw
      have : (restVar fill g s).name ∈ M.map NVar.name := e ▸ ha
      exact hn this
  have hnames : ∀ n, (∃ w ∈ M ++ R, w.name = n) ↔ ∃ v ∈ f.vars, v.name = n := by
    intro n
    constructor
    · rintro ⟨w, hw, rfl⟩
      rcases List.mem_append.1 hw with hw | hw
      · rcases hMmem w hw with rfl | ⟨v, hv, x, rfl⟩
        · exact ⟨L.t, ht, L.gtop.symm⟩
        · exact ⟨v, hv, rfl⟩
      · obtain ⟨s, hs, -, rfl⟩ := (hRmem w).1 hw
        obtain ⟨v, hv, e⟩ := forall₂_right hF s hs
        exact ⟨v, hv, (hcr e).2.2.1.symm⟩
    · rintro ⟨v, hv, rfl⟩
      obtain ⟨s, hs, e⟩ := forall₂_left hF v hv
      by_cases hn : v.name ∈ M.map NVar.name
      · obtain ⟨w, hw, e⟩ := List.mem_map.1 hn
        exact ⟨w, List.mem_append_left _ hw, e⟩
      · exact ⟨restVar fill g s, List.mem_append_right _ ((hRmem _).2 ⟨s, hs, by
          rw [(hcr e).2.2.1]; exact hn, rfl⟩), (hcr e).2.2.1⟩
  have hTM : topSaved fill g ∈ M := by rw [← hM]; simp [made]
  have hCX : bareVar cx cx.data ∈ M ++ R := List.mem_append_left _ (by rw [← hM]; simp [made])
  have hCY : bareVar cy cy.data ∈ M ++ R := List.mem_append_left _ (by rw [← hM]; simp [made])
  have hNX : bareVar nx nx.data ∈ M ++ R := List.mem_append_left _ (by rw [← hM]; simp [made])
  have hNY : bareVar ny ny.data ∈ M ++ R := List.mem_append_left _ (by rw [← hM]; simp [made])
  have hloc : ∀ v ∈ M ++ R, v.attr "location" = none ∧ (SaysTopology v → v = topSaved fill g) := by
    intro v hv
    rcases List.mem_append.1 hv with hv | hv
    · rcases hMmem v hv with rfl | ⟨w, -, x, rfl⟩
      · exact ⟨by rw [top_attr]; simp, fun _ => rfl⟩
      · exact ⟨rfl, fun q => by cases q⟩
    · obtain ⟨s, -, -, rfl⟩ := (hRmem v).1 hv
      refine ⟨by rw [rest_attr]; simp, fun q => ?_⟩
      have : (restVar fill g s).attr "cf_role" = some "grid_topology".toList := q
      rw [rest_attr] at this
      simp at this
  generalize hF' : File.mk f.dims (M ++ R) = f' at hsave hD
  have hv' : f'.vars = M ++ R := by rw [← hF']
  have hd' : f'.dims = f.dims := by rw [← hF']
  have htop : findTopology f' = .ok (topSaved fill g) := by
    rw [C103_found f' hD]
    refine ⟨by rw [hv']; exact List.mem_append_left _ hTM, ?_, ?_, rfl⟩
    · show (topSaved fill g).attr "cf_role" = _
      rw [top_attr]; simp
    · intro v hv q
      rw [hv'] at hv
      rw [(hloc v hv).2 q]
  have hfind : ∀ {w}, w ∈ M ++ R → f'.find w.name = some w := fun hw =>
    find_mem hD (by rw [hv']; exact hw)
  have hsplit : ∀ {v w : NVar α}, v ∈ f.vars → w ∈ f.vars →
      splitSpace (joinSpace [v.name, w.name]) = [v.name, w.name] := by
    intro v w hv hw
    apply split_join _ (by simp)
    intro n hn
    simp only [List.mem_cons, List.not_mem_nil, or_false] at hn
    rcases hn with rfl | rfl
    · exact S.spaces _ hv
    · exact S.spaces _ hw
  have hnc' : nodeCoordinates f' (topSaved fill g) = .ok (g.nodeDims, g.nodeCoords) := by
    unfold nodeCoordinates
    rw [top_attr, top_attr]
    simp only [String.reduceEq, if_false, if_true, S.node, Option.map_some]
    rw [hsplit S.hnx S.hny]
  have hcoord : ∀ (loc : String) (l : Option (List Txt)), coordinates f L.t loc = .ok l →
      (topSaved fill g).attr (loc ++ "_coordinates") = l.map joinSpace →
      coordinates f' (topSaved fill g) loc = .ok l := by
    intro loc l hl ha
    unfold coordinates
    rw [ha]
    cases l with
    | none =>
      simp only [Option.map_none]
      apply C106_nothing
      intro v hv e
      rw [hv'] at hv
      have := (hloc v hv).1
      rw [attr_eq, e] at this
      cases this
    | some l =>
      simp only [Option.map_some]
      obtain ⟨q1, q2⟩ := coords_spaces S.spaces hl
      rw [split_join l q1 q2]
  have hpair : ∀ names r, readPair f names = .ok r → ∃ r', readPair f' names = .ok r' := by
    intro names r hr
    rcases readPair_inv hr with ⟨rfl, -⟩ | ⟨a, b, rfl, -, ha, hb, -, -⟩
    · exact ⟨none, rfl⟩
    · obtain ⟨a', ha', e⟩ := (hnames a.name).2 ⟨a, ha, rfl⟩
      obtain ⟨b', hb', e'⟩ := (hnames b.name).2 ⟨b, hb, rfl⟩
      rw [← e, ← e']
      exact ⟨_, readPair_of (hfind ha') (hfind hb')⟩
  have hcen : readPair f' g.faceCoords = .ok (some (bareVar cx cx.data, bareVar cy cy.data)) := by
    rw [S.face]
    exact readPair_of (a := bareVar cx cx.data) (b := bareVar cy cy.data) (hfind hCX) (hfind hCY)
  have hnod : readPair f' g.nodeCoords = .ok (some (bareVar nx nx.data, bareVar ny ny.data)) := by
    rw [S.node]
    exact readPair_of (a := bareVar nx nx.data) (b := bareVar ny ny.data) (hfind hNX) (hfind hNY)
  obtain ⟨r2, hr2⟩ := hpair _ _ L.hx2
  have hr1 : ∃ r1, readEdge1 f' g.edge1Coords = .ok r1 := by
    have hx := L.hx1
    unfold readEdge1
    split
    · next a b e =>
      rw [e] at hx
      rw [e]
      exact hpair _ _ hx
    · exact ⟨none, rfl⟩
  obtain ⟨r1, hr1⟩ := hr1
  have hLc : L.center = some (cx, cy) := by
    have := L.hcenter
    rw [S.face, readPair_of (find_mem S.distinct S.hcx) (find_mem S.distinct S.hcy)] at this
    exact (Except.ok.inj this).symm
  have hga : g.angles = L.angles := by
    rw [L.gang, held_id (fun v hv e => S.free v hv (by rw [e]; exact List.mem_cons_self))]
    rfl
  have hang : anglesOf ang f' (some (bareVar cx cx.data, bareVar cy cy.data)) = .ok g.angles := by
    have ho := L.hangles
    rw [hLc, ← hga] at ho
    unfold anglesOf at ho ⊢
    simp only at ho ⊢
    cases hf : f.find "angle".toList with
    | none =>
      rw [hf] at ho
      have : f'.find "angle".toList = none := by
        cases hf2 : f'.find "angle".toList with
        | none => rfl
        | some w =>
          obtain ⟨m, e⟩ := find_some hf2
          rw [hv'] at m
          obtain ⟨x, hx⟩ := find_of_mem ((hnames _).1 ⟨w, m, e⟩)
          rw [hf] at hx
          cases hx
      rw [this]
      exact ho
    | some v =>
      rw [hf] at ho
      have hm : bareVar v g.angles ∈ M ++ R := by
        apply List.mem_append_left
        rw [← hM]
        unfold made angleSaved
        rw [hf]
        simp
      have := hfind hm
      rw [show (bareVar v g.angles).name = "angle".toList from (find_some hf).2] at this
      rw [this]
      have hsh : f'.shape (bareVar v g.angles) = f.shape v := by
        unfold File.shape
        rw [hd']
        rfl
      simp only [hsh] at ho ⊢
      split
      · next e => rw [e] at ho; cases ho
      · next e => rw [e] at ho; exact ho
      · rfl
  have hdim : ∀ (k : String) (x : Option (Txt × List SText.Decl)), dimension L.t k = .ok x →
      (topSaved fill g).attr k = x.map Prod.fst → dimension (topSaved fill g) k = .ok x :=
    fun k x h1 h2 => dimension_same h1 h2
  have hnd : g.nodeDims = L.nc.1 := L.gnd
  have hrest : ∀ v s, v ∈ f.vars → attach p v = .ok s → s.name ∉ M.map NVar.name →
      ∃ s', attach p (restVar fill g s) = .ok s' ∧ SameVariable g.topVar s s' ∧
        (v.attrs.lookup "location".toList = none → s'.location = s.location) := by
    intro v s _ hs hn
    obtain ⟨q1, q2, q3, q4⟩ := hcr hs
    obtain ⟨s', hs', e1, e2⟩ := rest_create (g := g) hfs fill q1
    refine ⟨s', ?_, e1, e2⟩
    unfold attach
    rw [hs']
    exact if_neg (by show s.name ∉ readOnly; rw [q3]; exact q2)
  have hall : ∃ vs, f'.vars.mapM (attach p) = .ok vs := by
    apply mapM_exists
    intro w hw
    rw [hv'] at hw
    rcases List.mem_append.1 hw with hw | hw
    · have key : ∃ v ∈ f.vars, w.name = v.name ∧ w.dims = v.dims ∧ w.attr "grid" = none ∧
          w.attr "axes" = none ∧ w.attr "standard_name" = none := by
        rcases hMmem w hw with rfl | ⟨v, hv, x, rfl⟩
        · exact ⟨L.t, ht, L.gtop, (S.bare L.t ht L.gtop.symm).symm, by rw [top_attr]; simp,
            by rw [top_attr]; simp, by rw [top_attr]; simp⟩
        · exact ⟨v, hv, rfl, rfl, rfl, rfl, rfl⟩
      obtain ⟨v, hv, e1, e2, e3, e4, e5⟩ := key
      obtain ⟨s, -, hs⟩ := forall₂_left hF v hv
      obtain ⟨q1, q2, -, -⟩ := hcr hs
      obtain ⟨s', hs', -, -⟩ := bare_create hfs q1 e2 e3 e4 e5
      refine ⟨s', ?_⟩
      unfold attach
      rw [hs']
      exact if_neg (by rw [e1]; exact q2)
    · obtain ⟨s, hs, hn, rfl⟩ := (hRmem w).1 hw
      obtain ⟨v, hv, e⟩ := forall₂_right hF s hs
      obtain ⟨s', hs', -⟩ := hrest v s hv e hn
      exact ⟨s', hs'⟩
  obtain ⟨vs, hvs⟩ := hall
  have hload : load ang f' = .ok {
      dims := f'.dims, topVar := g.topVar, nodeDims := g.nodeDims, nodeCoords := g.nodeCoords,
      face := g.face, edge1 := g.edge1, edge2 := g.edge2, vertical := g.vertical,
      faceCoords := g.faceCoords, edge1Coords := g.edge1Coords, edge2Coords := g.edge2Coords,
      angles := (held f' "angles" (some g.angles)).getD g.angles,
      nodeLon := held f' "node_lon" (some nx.data), nodeLat := held f' "node_lat" (some ny.data),
      centerLon := held f' "center_lon" (some cx.data),
      centerLat := held f' "center_lat" (some cy.data),
      edge1Lon := held f' "edge1_lon" (r1.map (·.1.data)),
      edge1Lat := held f' "edge1_lat" (r1.map (·.2.data)),
      edge2Lon := held f' "edge2_lon" (r2.map (·.1.data)),
      edge2Lat := held f' "edge2_lat" (r2.map (·.2.data)),
      nodeMask := heldMask f' "node_mask" ((maskFor f' (some (bareVar nx nx.data))).map NVar.name),
      centerMask := heldMask f' "center_mask"
        ((maskFor f' (some (bareVar cx cx.data))).map NVar.name),
      edge1Mask := heldMask f' "edge1_mask" ((maskFor f' (r1.map Prod.fst)).map NVar.name),
      edge2Mask := heldMask f' "edge2_mask" ((maskFor f' (r2.map Prod.fst)).map NVar.name),
      «variables» := vs,
      gridVariables := (f'.vars.filter (fun v => (v.attr "grid").isSome)).map NVar.name } := by
    unfold load
    simp only [bind_ok]
    refine ⟨_, htop, _, hnc', _, hdim _ _ L.e1 (by rw [top_attr]; simp), _,
      hdim _ _ L.e2 (by rw [top_attr]; simp), _, hcoord "edge1" _ L.c1 (by rw [top_attr]; simp), _,
      hcoord "edge2" _ L.c2 (by rw [top_attr]; simp), _,
      hcoord "face" _ L.cf (by rw [top_attr]; simp), _, hcen, _, hang, _,
      hdim _ _ L.vd (by rw [top_attr]; simp), _, hnod, _, hr1, _, hr2, _,
      hdim _ _ L.fd (by rw [top_attr]; simp), vs, ?_, rfl⟩
    rw [← hvs, hpdef, ← hnd]
  have hid : ∀ (k : String) (x : Option α), k.toList ∈ "angles".toList :: arrayNames →
      held f' k x = x := by
    intro k x hk
    apply held_id
    intro w hw e
    rw [hv'] at hw
    obtain ⟨v, hv, e'⟩ := (hnames k.toList).1 ⟨w, hw, e⟩
    exact S.free v hv (e' ▸ hk)
  have hFv := (mapM_iff _ _ _).1 hvs
  have hnm : vs.map SVar.name = f'.vars.map NVar.name :=
    (names_eq hload : _)
  refine ⟨f', _, hsave, hload, by rw [L.gdims]; exact hd', rfl, rfl, rfl, rfl, rfl, rfl, rfl, rfl,
    rfl, rfl, ?_, ?_, ?_, ?_, ?_, ?_, ?_⟩
  · rw [a3]; exact hid _ _ (by decide)
  · rw [a4]; exact hid _ _ (by decide)
  · rw [a1]; exact hid _ _ (by decide)
  · rw [a2]; exact hid _ _ (by decide)
  · simp only [hid "angles" _ (by decide)]
    rfl
  · intro n
    have k1 : (∃ s ∈ vs, s.name = n) ↔ n ∈ vs.map SVar.name := List.mem_map.symm
    have k2 : (∃ s ∈ g.variables, s.name = n) ↔ n ∈ g.variables.map SVar.name := List.mem_map.symm
    rw [k2, names_eq h]
    refine k1.trans ?_
    rw [hnm, hv', List.mem_map, List.mem_map]
    exact hnames n
  · intro v hv hn
    obtain ⟨s, hs, e⟩ := forall₂_left hF v hv
    have hnM : s.name ∉ M.map NVar.name := by
      intro q
      rw [(hcr e).2.2.1] at q
      apply hn
      rw [← hM] at q
      unfold made angleSaved at q
      cases hf : f.find "angle".toList with
      | none =>
        rw [hf] at q
        simp only [List.append_nil, List.map_cons, List.map_nil, bareVar, topSaved, List.mem_cons,
          List.not_mem_nil, or_false] at q ⊢
        tauto
      | some w =>
        rw [hf] at q
        simp only [List.cons_append, List.nil_append, List.map_cons, List.map_nil, bareVar, topSaved,
          (find_some hf).2, List.mem_cons, List.not_mem_nil, or_false] at q ⊢
        exact q
    obtain ⟨s', hs', k1, k2⟩ := hrest v s hv e hnM
    have hm : restVar fill g s ∈ f'.vars := by
      rw [hv']
      exact List.mem_append_right _ ((hRmem _).2 ⟨s, hs, hnM, rfl⟩)
    obtain ⟨s'', hs'', e''⟩ := forall₂_left hFv _ hm
    rw [hs'] at e''
    cases e''
    exact ⟨s, hs, s', hs'', (hcr e).2.2.1, k1, k2⟩

/-- The hypotheses are met by a file with a variable on the grid. -/
example : ∃ g cx cy nx ny, load (fun a _ => .ok a) fullFile = .ok g ∧
    Survives fullFile g cx cy nx ny := by
  obtain ⟨g, hg, -, -, -, -, ht, hn, hc⟩ := full_loads
  refine ⟨g, { name := "clon".toList, dims := ["y".toList, "x".toList], data := 3 },
    { name := "clat".toList, dims := ["y".toList, "x".toList], data := 4 },
    { name := "lon".toList, dims := ["j".toList, "i".toList], data := 1 },
    { name := "lat".toList, dims := ["j".toList, "i".toList], data := 2 }, hg,
    full_distinct, by simp [fullFile, smallFile], by simp [fullFile, smallFile],
    by simp [fullFile, smallFile], by simp [fullFile, smallFile], hc, hn, ?_, ?_, ?_, ?_⟩
  · rw [ht]; decide
  · intro v hv
    rw [ht]
    simp only [fullFile, smallFile, List.mem_append, List.mem_cons, List.not_mem_nil, or_false] at hv
    rcases hv with (rfl | rfl | rfl | rfl | rfl) | rfl <;> decide
  · intro v hv
    simp only [fullFile, smallFile, List.mem_append, List.mem_cons, List.not_mem_nil, or_false] at hv
    rcases hv with (rfl | rfl | rfl | rfl | rfl) | rfl <;> decide
  · intro v hv
    simp only [fullFile, smallFile, List.mem_append, List.mem_cons, List.not_mem_nil, or_false] at hv
    rcases hv with (rfl | rfl | rfl | rfl | rfl) | rfl <;> decide

/-- C111 as listed: a loaded grid can be saved, and what was saved loads as the same grid. -/
def C111_statement : Prop :=
  ∀ (f : File Nat) (g : SObj Nat), DistinctNames f → load (fun a _ => .ok a) f = .ok g →
    ∃ f', save 0 g = .ok f' ∧ load (fun a _ => .ok a) f' = .ok g

/-- A file with coordinates of edges and a variable that says where it is. -/
def edgeFile : File Nat :=
  smallFile [("vertical_dimensions".toList, "s: w (padding: none)".toList),
    ("face_coordinates".toList, "clon clat".toList),
    ("edge1_coordinates".toList, "elon elat".toList)] [
    { name := "elon".toList, dims := ["j".toList, "x".toList], data := 5 },
    { name := "elat".toList, dims := ["j".toList, "x".toList], data := 6 },
    { name := "h".toList, dims := ["j".toList, "i".toList],
      attrs := [("location".toList, "node".toList)], data := 8 }]

/-- C111 is false: coordinates of edges are created and never written. -/
theorem C111_refuted : ¬ C111_statement := by
  intro h
  have e1 : (load (fun a _ => .ok a) edgeFile).map SObj.edge1Lon = .ok (some 5) := by decide +kernel
  have e2 : (load (fun a _ => .ok a) edgeFile >>= save 0 >>= load (fun a _ => .ok a)).map
      SObj.edge1Lon = .ok (some 0) := by decide +kernel
  cases hl : load (fun a _ => .ok a) edgeFile with
  | error e => rw [hl] at e1; cases e1
  | ok g =>
    obtain ⟨f', h1, h2⟩ := h edgeFile g (by simp [DistinctNames, edgeFile, smallFile]) hl
    have : (load (fun a _ => .ok a) edgeFile >>= save 0 >>= load (fun a _ => .ok a)) = .ok g := by
      rw [hl]
      simp only [bind_ok]
      exact ⟨f', ⟨g, rfl, h1⟩, h2⟩
    rw [this] at e2
    rw [hl] at e1
    have a := Except.ok.inj e1
    have b := Except.ok.inj e2
    rw [a] at b
    exact absurd b (by decide)

/-- Nor is the location of a variable written, where it was stated. -/
theorem C111_refuted_location :
    (load (fun a _ => .ok a) edgeFile).map (fun g => (g.variables.find? (fun v =>
      v.name == "h".toList)).map SVar.location) = .ok (some (some "node".toList)) ∧
    (load (fun a _ => .ok a) edgeFile >>= save 0 >>= load (fun a _ => .ok a)).map
      (fun g => (g.variables.find? (fun v => v.name == "h".toList)).map SVar.location) =
        .ok (some none) := by
  constructor <;> decide +kernel

/-- And a grid without coordinates of centers loads, given angles, but cannot be saved. -/
theorem C111_refuted_centers :
    ∃ g, load (fun a _ => .ok a) (smallFile [("vertical_dimensions".toList,
        "s: w (padding: none)".toList)] [{ name := "angle".toList, dims := ["j".toList], data := 5 }])
        = .ok g ∧ save 0 g = .error .typeError := by
  have : (load (fun a _ => .ok a) (smallFile [("vertical_dimensions".toList,
      "s: w (padding: none)".toList)] [{ name := "angle".toList, dims := ["j".toList], data := 5 }])).map
      SObj.faceCoords = .ok none := by decide +kernel
  cases hl : load (fun a _ => .ok a) (smallFile [("vertical_dimensions".toList,
      "s: w (padding: none)".toList)] [{ name := "angle".toList, dims := ["j".toList], data := 5 }]) with
  | error e => rw [hl] at this; cases this
  | ok g =>
    rw [hl] at this
    refine ⟨g, rfl, ?_⟩
    unfold save
    rw [Except.ok.inj this]
    rfl

/-- Nor can a grid of which nodes and centers have a coordinate in common: the variable would be
created twice. -/
theorem C111_refuted_twice :
    ∃ (f : File Nat) (g : SObj Nat), DistinctNames f ∧ load (fun a _ => .ok a) f = .ok g ∧
      save 0 g = .error .runtimeError := by
  have e1 : (load (fun a _ => .ok a) (smallFile [("vertical_dimensions".toList,
      "s: w (padding: none)".toList), ("face_coordinates".toList, "clon lat".toList)] [])).map
      (fun g => (save 0 g).map (fun _ => ())) = .ok (.error .runtimeError) := by decide +kernel
  cases hl : load (fun a _ => .ok a) (smallFile [("vertical_dimensions".toList,
      "s: w (padding: none)".toList), ("face_coordinates".toList, "clon lat".toList)] []) with
  | error e => rw [hl] at e1; cases e1
  | ok g =>
    rw [hl] at e1
    refine ⟨_, g, small_distinct _, hl, ?_⟩
    have : (save 0 g).map (fun _ => ()) = .error .runtimeError := Except.ok.inj e1
    cases hs : save 0 g with
    | error e => rw [hs] at this; cases this; rfl
    | ok f => rw [hs] at this; cases this

end C111
end Verif
