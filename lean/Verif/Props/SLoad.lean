import Verif.Props.SFile

/-!
# Loading and saving structured grids: C110 to C112
-/

set_option autoImplicit false

namespace Verif
open Verif.Spec Verif.SFile

section C110
variable {α : Type} {ang : α → α → Except Err α}

/-- What a successful load went through. -/
structure Loaded (ang : α → α → Except Err α) (f : File α) (g : SObj α) where
  t : NVar α
  nc : Txt × Option (List Txt)
  center : Option (NVar α × NVar α)
  angles : α
  node : Option (NVar α × NVar α)
  x1 : Option (NVar α × NVar α)
  x2 : Option (NVar α × NVar α)
  top : findTopology f = .ok t
  ncs : nodeCoordinates f t = .ok nc
  e1 : dimension t "edge1_dimensions" = .ok g.edge1
  e2 : dimension t "edge2_dimensions" = .ok g.edge2
  c1 : coordinates f t "edge1" = .ok g.edge1Coords
  c2 : coordinates f t "edge2" = .ok g.edge2Coords
  cf : coordinates f t "face" = .ok g.faceCoords
  hcenter : readPair f g.faceCoords = .ok center
  hangles : anglesOf ang f center = .ok angles
  vd : dimension t "vertical_dimensions" = .ok g.vertical
  hnode : readPair f nc.2 = .ok node
  hx1 : readEdge1 f g.edge1Coords = .ok x1
  hx2 : readPair f g.edge2Coords = .ok x2
  fd : dimension t "face_dimensions" = .ok g.face
  hvars : f.vars.mapM (attach (padsOf nc.1 g.face g.edge1 g.edge2 g.vertical)) = .ok g.variables
  gdims : g.dims = f.dims
  gtop : g.topVar = t.name
  gnd : g.nodeDims = nc.1
  gnc : g.nodeCoords = nc.2
  gang : g.angles = (held f "angles" (some angles)).getD angles
  gnlon : g.nodeLon = held f "node_lon" (node.map (·.1.data))
  gnlat : g.nodeLat = held f "node_lat" (node.map (·.2.data))
  gclon : g.centerLon = held f "center_lon" (center.map (·.1.data))
  gclat : g.centerLat = held f "center_lat" (center.map (·.2.data))
  g1lon : g.edge1Lon = held f "edge1_lon" (x1.map (·.1.data))
  g1lat : g.edge1Lat = held f "edge1_lat" (x1.map (·.2.data))
  g2lon : g.edge2Lon = held f "edge2_lon" (x2.map (·.1.data))
  g2lat : g.edge2Lat = held f "edge2_lat" (x2.map (·.2.data))
  gnm : g.nodeMask = heldMask f "node_mask" ((maskFor f (node.map Prod.fst)).map NVar.name)
  gcm : g.centerMask = heldMask f "center_mask" ((maskFor f (center.map Prod.fst)).map NVar.name)
  g1m : g.edge1Mask = heldMask f "edge1_mask" ((maskFor f (x1.map Prod.fst)).map NVar.name)
  g2m : g.edge2Mask = heldMask f "edge2_mask" ((maskFor f (x2.map Prod.fst)).map NVar.name)
  ggv : g.gridVariables = (f.vars.filter (fun v => (v.attr "grid").isSome)).map NVar.name

theorem load_inv {f : File α} {g : SObj α} (h : load ang f = .ok g) :
    Nonempty (Loaded ang f g) := by
  unfold load at h
  simp only [bind_ok, Except.ok.injEq] at h
  obtain ⟨t, h1, nc, h2, e1, h3, e2, h4, c1, h5, c2, h6, cf, h7, center, h8, angles, h9, vd, h10,
    node, h11, x1, h12, x2, h13, fd, h14, vs, h15, rfl⟩ := h
  exact ⟨⟨t, nc, center, angles, node, x1, x2, h1, h2, h3, h4, h5, h6, h7, h8, h9, h10, h11, h12,
    h13, h14, h15, rfl, rfl, rfl, rfl, rfl, rfl, rfl, rfl, rfl, rfl, rfl, rfl, rfl, rfl, rfl, rfl,
    rfl, rfl⟩⟩

theorem dimension_iff (t : NVar α) (k : String) (x : Option (Txt × List SText.Decl)) :
    dimension t k = .ok x ↔ (x = none ∧ t.attr k = none) ∨
      ∃ s ds, x = some (s, ds) ∧ t.attr k = some s ∧ SText.parsePadding s = .ok ds := by
  unfold dimension
  cases ht : t.attr k with
  | none =>
    simp only [Except.ok.injEq, and_true, reduceCtorEq, false_and, and_false, exists_false, or_false]
    exact eq_comm
  | some s =>
    simp only [reduceCtorEq, and_false, false_or, Option.some.injEq]
    cases hp : SText.parsePadding s with
    | error e => simp only [reduceCtorEq, false_iff]; rintro ⟨s', ds, -, rfl, h⟩; rw [hp] at h; cases h
    | ok ds =>
      simp only [Except.ok.injEq]
      constructor
      · rintro rfl
        exact ⟨s, ds, rfl, rfl, hp⟩
      · rintro ⟨s', ds', rfl, rfl, h⟩
        rw [hp] at h
        cases h
        rfl

theorem readPair_inv {f : File α} {names : Option (List Txt)} {r : Option (NVar α × NVar α)}
    (h : readPair f names = .ok r) : (names = none ∧ r = none) ∨
      ∃ a b, names = some [a.name, b.name] ∧ r = some (a, b) ∧ a ∈ f.vars ∧ b ∈ f.vars ∧
        f.find a.name = some a ∧ f.find b.name = some b := by
  unfold readPair at h
  split at h
  · cases h; exact Or.inl ⟨rfl, rfl⟩
  · next x y =>
    split at h
    · cases h
    · cases h
    · next b a hb ha =>
      cases h
      unfold File.fetch at ha hb
      cases hx : f.find x with
      | none => rw [hx] at ha; cases ha
      | some vx =>
        cases hy : f.find y with
        | none => rw [hy] at hb; cases hb
        | some vy =>
          rw [hx] at ha
          rw [hy] at hb
          cases ha
          cases hb
          obtain ⟨m1, n1⟩ := find_some hx
          obtain ⟨m2, n2⟩ := find_some hy
          refine Or.inr ⟨a, b, by rw [n1, n2], rfl, m1, m2, by rw [n1]; exact hx,
            by rw [n2]; exact hy⟩
  · cases h

theorem readPair_of {f : File α} {a b : NVar α} (ha : f.find a.name = some a)
    (hb : f.find b.name = some b) : readPair f (some [a.name, b.name]) = .ok (some (a, b)) := by
  simp [readPair, File.fetch, ha, hb]

theorem held_id {f : File α} {k : String} (h : ∀ v ∈ f.vars, v.name ≠ k.toList) (x : Option α) :
    held f k x = x := by
  unfold held
  cases hf : f.find k.toList with
  | none => rfl
  | some v => exact absurd (find_some hf).2 (h v (find_some hf).1)

/-- C110. What a loaded grid says about dimensions is what the description in the file says. -/
theorem C110_texts (f : File α) (hd : DistinctNames f) (g : SObj α) (h : load ang f = .ok g) :
    g.dims = f.dims ∧ ∃ t ∈ f.vars, t.name = g.topVar ∧ SaysTopology t ∧
      t.attrs.lookup "node_dimensions".toList = some g.nodeDims ∧
      t.attrs.lookup "face_dimensions".toList = g.face.map Prod.fst ∧
      t.attrs.lookup "edge1_dimensions".toList = g.edge1.map Prod.fst ∧
      t.attrs.lookup "edge2_dimensions".toList = g.edge2.map Prod.fst ∧
      t.attrs.lookup "vertical_dimensions".toList = g.vertical.map Prod.fst ∧
      (∀ x ∈ [g.face, g.edge1, g.edge2, g.vertical], ∀ s ds, x = some (s, ds) →
        SText.parsePadding s = .ok ds) := by
  obtain ⟨L⟩ := load_inv h
  obtain ⟨ht, hs, -, -⟩ := (C103_found f hd L.t).1 L.top
  have fst : ∀ k x, dimension L.t k = .ok x → L.t.attrs.lookup k.toList = x.map Prod.fst ∧
      ∀ s ds, x = some (s, ds) → SText.parsePadding s = .ok ds := by
    intro k x hx
    rcases (dimension_iff L.t k x).1 hx with ⟨rfl, e⟩ | ⟨s, ds, rfl, e, hp⟩
    · exact ⟨e, by simp⟩
    · refine ⟨e, fun s' ds' q => ?_⟩
      cases q
      exact hp
  refine ⟨L.gdims, L.t, ht, L.gtop.symm, hs, ?_, (fst _ _ L.fd).1, (fst _ _ L.e1).1,
    (fst _ _ L.e2).1, (fst _ _ L.vd).1, ?_⟩
  · have := L.ncs
    unfold nodeCoordinates at this
    rw [L.gnd]
    cases hn : L.t.attr "node_dimensions" with
    | none => rw [hn] at this; cases this
    | some d =>
      rw [hn] at this
      simp only at this
      split at this
      · rw [← Except.ok.inj this]; exact hn
      · rw [← Except.ok.inj this]; exact hn
  · intro x hx
    simp only [List.mem_cons, List.not_mem_nil, or_false] at hx
    rcases hx with rfl | rfl | rfl | rfl
    · exact (fst _ _ L.fd).2
    · exact (fst _ _ L.e1).2
    · exact (fst _ _ L.e2).2
    · exact (fst _ _ L.vd).2

/-- Every variable of the file is a variable of the grid, in the order of the file, with its own
name, dimensions and attributes; those with the attribute `grid` are the variables on the grid. -/
theorem C110_variables (f : File α) (g : SObj α) (h : load ang f = .ok g) :
    List.Forall₂ (fun (v : NVar α) (s : SVar) => s.name = v.name ∧ s.dims = v.dims ∧
        s.grid = v.attrs.lookup "grid".toList ∧
        s.standardName = v.attrs.lookup "standard_name".toList) f.vars g.variables ∧
      (∀ n, n ∈ g.gridVariables ↔
        ∃ v ∈ f.vars, v.name = n ∧ v.attrs.lookup "grid".toList ≠ none) := by
  obtain ⟨L⟩ := load_inv h
  have := (mapM_iff _ _ _).1 L.hvars
  refine ⟨this.imp (fun v s hs => ?_), fun n => ?_⟩
  · unfold attach at hs
    split at hs
    · cases hs
    · next s' hs' =>
      split at hs
      · cases hs
      · cases hs
        obtain ⟨ax, sl, loc, na, dir, -, -, -, -, -, rfl⟩ := create_inv hs'
        exact ⟨rfl, rfl, rfl, rfl⟩
  · rw [L.ggv]
    simp only [List.mem_map, List.mem_filter, attr_eq, Option.isSome_iff_ne_none]
    constructor
    · rintro ⟨v, ⟨h1, h2⟩, h3⟩; exact ⟨v, h1, h3, h2⟩
    · rintro ⟨v, h1, h2, h3⟩; exact ⟨v, ⟨h1, h3⟩, h2⟩

theorem sliceOf_iff (w : Txt) (r : Option Int × Option Int) : sliceOf w = .ok r ↔ TableSlice w r := by
  unfold sliceOf TableSlice
  constructor
  · intro h
    split at h
    · cases h; left; exact ⟨by assumption, rfl⟩
    · split at h
      · cases h; right; left; exact ⟨by assumption, rfl⟩
      · split at h
        · cases h; right; right; left; exact ⟨by assumption, rfl⟩
        · split at h
          · cases h; right; right; right; exact ⟨by assumption, rfl⟩
          · cases h
  · rintro (⟨rfl, rfl⟩ | ⟨rfl, rfl⟩ | ⟨rfl, rfl⟩ | ⟨rfl, rfl⟩) <;> rfl

/-- Every variable of a loaded grid has one slice for each dimension: that of the first declaration
of the dimension among the paddings that count for it, and all of it without a declaration. The
paddings that count are those of the faces for variables that share a dimension with the nodes, and
those of faces, edges and vertical dimensions for others. -/
theorem C110_slices (p : Pads) (v : NVar α) (s : SVar) (h : createVariable p v = .ok s) :
    ∃ ds, ((OnNodeDims p v.dims ∧ p.face = some ds) ∨
        (¬ OnNodeDims p v.dims ∧ ∃ fs vs, p.face = some fs ∧ p.vertical = some vs ∧
          ds = fs ++ (p.edge1.getD [] ++ p.edge2.getD []) ++ vs)) ∧
      List.Forall₂ (fun d r => (∀ pre x post, ds = pre ++ x :: post → x.faceDim = d →
          (∀ y ∈ pre, y.faceDim ≠ d) → TableSlice x.padding r) ∧
        (¬ DeclaredIn ds d → r = (none, none))) v.dims s.slices := by
  obtain ⟨ax, sl, loc, na, dir, -, h2, -, -, -, rfl⟩ := create_inv h
  have key : ∀ ds, dimSlices ds v.dims = .ok sl → List.Forall₂ (fun d r =>
      (∀ pre x post, ds = pre ++ x :: post → x.faceDim = d → (∀ y ∈ pre, y.faceDim ≠ d) →
        TableSlice x.padding r) ∧ (¬ DeclaredIn ds d → r = (none, none))) v.dims sl := by
    intro ds hds
    refine ((mapM_iff _ _ _).1 hds).imp (fun d r hr => ⟨?_, ?_⟩)
    · rintro pre x post rfl hx hpre
      have : (pre ++ x :: post).find? (fun y => y.faceDim == d) = some x := by
        rw [List.find?_append, List.find?_eq_none.2 (by simpa using hpre)]
        simp [hx]
      rw [this] at hr
      exact (sliceOf_iff _ _).1 hr
    · intro hn
      have : ds.find? (fun y => y.faceDim == d) = none := by
        rw [List.find?_eq_none]
        intro y hy e
        exact hn ⟨y, hy, by simpa using e⟩
      rw [this] at hr
      exact (Except.ok.inj hr).symm
  have hon : meet v.dims p.nodeDims = true ↔ OnNodeDims p v.dims := meet_iff _ _
  unfold slicing at h2
  by_cases hm : meet v.dims p.nodeDims = true
  · rw [if_pos hm] at h2
    cases hf : p.face with
    | none => rw [hf] at h2; cases h2
    | some ds =>
      rw [hf] at h2
      exact ⟨ds, Or.inl ⟨hon.1 hm, rfl⟩, key ds h2⟩
  · rw [if_neg hm] at h2
    cases ha : p.all with
    | error e => rw [ha] at h2; cases h2
    | ok ds =>
      rw [ha] at h2
      unfold Pads.all at ha
      cases hf : p.faces with
      | error e => rw [hf] at ha; cases ha
      | ok fs =>
        rw [hf] at ha
        simp only at ha
        cases hv : p.vertical with
        | none => rw [hv] at ha; cases ha
        | some vs =>
          rw [hv] at ha
          refine ⟨ds, Or.inr ⟨fun q => hm (hon.2 q), fs, vs, ((faces_iff p fs).1 hf).1, rfl, ?_⟩,
            key ds h2⟩
          exact (Except.ok.inj ha).symm

/-- C110 as listed: a file that says how to read it can be loaded. -/
def C110_statement : Prop :=
  ∀ f : File Nat, DistinctNames f → SaysHow f → ∃ g, load (fun a _ => .ok a) f = .ok g

/-- A small file: nodes, centers, and what the description says further. -/
def smallFile (extra : List (Txt × Txt)) (vars : List (NVar Nat)) : File Nat :=
  { dims := [("j".toList, 2), ("i".toList, 2), ("y".toList, 1), ("x".toList, 1), ("s".toList, 3)],
    vars := [
      { name := "lon".toList, dims := ["j".toList, "i".toList], data := 1 },
      { name := "lat".toList, dims := ["j".toList, "i".toList], data := 2 },
      { name := "clon".toList, dims := ["y".toList, "x".toList], data := 3 },
      { name := "clat".toList, dims := ["y".toList, "x".toList], data := 4 },
      { name := "grid".toList, topDim := some (.ok 2), data := 0,
        attrs := [("cf_role".toList, "grid_topology".toList),
          ("node_dimensions".toList, "j i".toList),
          ("face_dimensions".toList, "y: j (padding: none) x: i (padding: none)".toList),
          ("node_coordinates".toList, "lon lat".toList)] ++ extra }] ++ vars }

theorem small_says (extra : List (Txt × Txt)) : SaysHow (smallFile extra []) := by
  refine ⟨_, List.mem_append_left _ (List.mem_cons_of_mem _ (List.mem_cons_of_mem _
    (List.mem_cons_of_mem _ (List.mem_cons_of_mem _ List.mem_cons_self)))), rfl, ?_, rfl, rfl,
    ⟨"j i".toList, rfl⟩, ⟨_, [⟨"y".toList, "j".toList, "none".toList⟩,
      ⟨"x".toList, "i".toList, "none".toList⟩], rfl, ?_, ?_⟩, ⟨"lon".toList, "lat".toList, rfl,
      ⟨_, List.mem_append_left _ List.mem_cons_self, rfl⟩,
      ⟨_, List.mem_append_left _ (List.mem_cons_of_mem _ List.mem_cons_self), rfl⟩,
      by decide, by decide⟩⟩
  · intro v hv hs
    simp only [smallFile, List.append_nil, List.mem_cons, List.not_mem_nil, or_false] at hv
    rcases hv with rfl | rfl | rfl | rfl | rfl
    · cases hs
    · cases hs
    · cases hs
    · cases hs
    · rfl
  · decide +kernel
  · rfl

theorem small_distinct (extra : List (Txt × Txt)) : DistinctNames (smallFile extra []) := by
  simp [DistinctNames, smallFile]

/-- C110 is false: without vertical dimensions nothing can be loaded. -/
theorem C110_refuted : ¬ C110_statement := by
  intro h
  obtain ⟨g, hg⟩ := h (smallFile [("face_coordinates".toList, "clon clat".toList)] [])
    (small_distinct _) (small_says _)
  have : load (fun a _ => .ok a) (smallFile [("face_coordinates".toList, "clon clat".toList)] []) =
    .error .typeError := by decide +kernel
  rw [this] at hg
  cases hg

/-- Nor can a file without center coordinates, unless it has angles. -/
theorem C110_refuted_centers : ∃ f : File Nat, DistinctNames f ∧ SaysHow f ∧
    (∃ t ∈ f.vars, ∃ ds, DeclaresDims t "vertical_dimensions" ds) ∧
    load (fun a _ => .ok a) f = .error .attributeError :=
  ⟨smallFile [("vertical_dimensions".toList, "s: w (padding: none)".toList)] [], small_distinct _,
    small_says _, ⟨_, List.mem_append_left _ (List.mem_cons_of_mem _ (List.mem_cons_of_mem _
      (List.mem_cons_of_mem _ (List.mem_cons_of_mem _ List.mem_cons_self)))),
      [⟨"s".toList, "w".toList, "none".toList⟩], "s: w (padding: none)".toList, rfl,
      by decide +kernel⟩, by decide +kernel⟩

/-- A third name among the coordinates of edges is harmless for the first kind and fatal for the
second. -/
theorem C110_refuted_edges :
    (∃ g, load (fun a _ => .ok a) (smallFile [("vertical_dimensions".toList,
        "s: w (padding: none)".toList), ("face_coordinates".toList, "clon clat".toList),
        ("edge1_coordinates".toList, "lon lat s".toList)] []) = .ok g ∧ g.edge1Lon = none) ∧
    load (fun a _ => .ok a) (smallFile [("vertical_dimensions".toList,
        "s: w (padding: none)".toList), ("face_coordinates".toList, "clon clat".toList),
        ("edge2_coordinates".toList, "lon lat s".toList)] []) = .error .valueError := by
  constructor
  · have : ((load (fun a _ => .ok a) (smallFile [("vertical_dimensions".toList,
        "s: w (padding: none)".toList), ("face_coordinates".toList, "clon clat".toList),
        ("edge1_coordinates".toList, "lon lat s".toList)] [])).map SObj.edge1Lon) = .ok none := by
      decide +kernel
    cases hl : load (fun a _ => .ok a) (smallFile [("vertical_dimensions".toList,
        "s: w (padding: none)".toList), ("face_coordinates".toList, "clon clat".toList),
        ("edge1_coordinates".toList, "lon lat s".toList)] []) with
    | error e => rw [hl] at this; cases this
    | ok g =>
      rw [hl] at this
      exact ⟨g, rfl, Except.ok.inj this⟩
  · decide +kernel

theorem slice_ok {w : Txt} (h : PaddingWord w) : ∃ r, sliceOf w = .ok r := by
  rcases h with rfl | rfl | rfl | rfl <;> exact ⟨_, rfl⟩

theorem sliceAll_ok (ds : List SText.Decl) (h : ∀ x ∈ ds, PaddingWord x.padding) (dims : List Txt) :
    ∃ r, dimSlices ds dims = .ok r := by
  unfold dimSlices
  apply mapM_exists
  intro d _
  cases hf : ds.find? (fun x => x.faceDim == d) with
  | none => exact ⟨_, rfl⟩
  | some x => exact slice_ok (h x (List.mem_of_find?_eq_some hf))

theorem two_names {f : File α} (hd : DistinctNames f) {t vx vy : NVar α} {loc : String}
    (h : NamesTwo f t (loc ++ "_coordinates") vx vy) :
    coordinates f t loc = .ok (some [vx.name, vy.name]) ∧
      readPair f (some [vx.name, vy.name]) = .ok (some (vx, vy)) := by
  obtain ⟨h1, h2, h3, h4, h5⟩ := h
  refine ⟨?_, readPair_of (find_mem hd h2) (find_mem hd h3)⟩
  apply C106_stated f t loc [vx.name, vy.name] (by simp)
  · intro n hn
    simp only [List.mem_cons, List.not_mem_nil, or_false] at hn
    rcases hn with rfl | rfl
    · exact h4
    · exact h5
  · rw [attr_eq, h1, ← join_intercalate]
    rfl

theorem create_ok {p : Pads} {fs : List SText.Decl} (hf : FacesDeclared p fs) (v : NVar α)
    (hg : v.attr "grid" ≠ none → v.dims ≠ []) (hsl : ∃ r, slicing p v.dims = .ok r) :
    ∃ s, createVariable p v = .ok s := by
  have hax : ∃ ax, axesOf p v = .ok ax := by
    unfold axesOf
    cases hgr : v.attr "grid" with
    | none => exact ⟨_, rfl⟩
    | some w =>
      simp only
      have hne := hg (by rw [hgr]; simp)
      unfold avgAxes
      rw [faces_ok hf]
      cases hv : v.dims with
      | nil => exact absurd hv hne
      | cons d ds =>
        simp only
        split
        · exact ⟨_, rfl⟩
        · exact ⟨_, rfl⟩
  obtain ⟨ax, hax⟩ := hax
  obtain ⟨sl, hsl⟩ := hsl
  have hloc : ∃ l, locationOf p v = .ok l := by
    unfold locationOf
    split
    · exact ⟨_, rfl⟩
    · obtain ⟨r, hr, -⟩ := infer_inv hf v.dims
      exact ⟨r, hr⟩
  obtain ⟨loc, hloc⟩ := hloc
  have hna : ∃ a, namedAxes v = .ok a := by
    unfold namedAxes
    split
    · exact ⟨_, rfl⟩
    · obtain ⟨a, ha, -⟩ := parseAxes_ok ‹_›
      exact ⟨a, ha⟩
  obtain ⟨na, hna⟩ := hna
  have hdir : ∃ d, directionOf v = .ok d := by
    unfold directionOf
    split
    · exact ⟨_, rfl⟩
    · exact direction_ok _
  obtain ⟨dir, hdir⟩ := hdir
  unfold createVariable
  simp only [bind_ok]
  exact ⟨_, ax, hax, sl, hsl, loc, hloc, na, hna, dir, hdir, rfl⟩

/-- C110, what holds: a file loads that also declares vertical dimensions and names two variables
as coordinates of nodes and centers, whose paddings are known words, whose edges are left out or
declared and named alike, where no variable on the grid lacks dimensions or is called like a
read-only property, and where angles are given or can be computed. -/
theorem C110_loads_partial (f : File α) (hd : DistinctNames f) (t : NVar α) (ht : t ∈ f.vars)
    (hs : SaysTopology t) (hu : ∀ v ∈ f.vars, SaysTopology v → v.name = t.name)
    (h2 : t.topDim = some (.ok 2)) (hnd : t.attrs.lookup "node_dimensions".toList ≠ none)
    (fs es1 es2 vs : List SText.Decl) (hface : DeclaresDims t "face_dimensions" fs)
    (hfl : 2 ≤ fs.length) (hvert : DeclaresDims t "vertical_dimensions" vs)
    (hedge1 : (t.attrs.lookup "edge1_dimensions".toList = none ∧ es1 = []) ∨
      DeclaresDims t "edge1_dimensions" es1)
    (hedge2 : (t.attrs.lookup "edge2_dimensions".toList = none ∧ es2 = []) ∨
      DeclaresDims t "edge2_dimensions" es2)
    (hw : ∀ x ∈ fs ++ es1 ++ es2 ++ vs, PaddingWord x.padding)
    (nx ny cx cy : NVar α) (hnode : NamesTwo f t "node_coordinates" nx ny)
    (hcenter : NamesTwo f t "face_coordinates" cx cy)
    (hc1 : (t.attrs.lookup "edge1_coordinates".toList = none ∧
        ∀ v ∈ f.vars, v.attrs.lookup "location".toList ≠ some "edge1".toList) ∨
      ∃ vx vy, NamesTwo f t "edge1_coordinates" vx vy)
    (hc2 : (t.attrs.lookup "edge2_coordinates".toList = none ∧
        ∀ v ∈ f.vars, v.attrs.lookup "location".toList ≠ some "edge2".toList) ∨
      ∃ vx vy, NamesTwo f t "edge2_coordinates" vx vy)
    (hvars : ∀ v ∈ f.vars, (v.attrs.lookup "grid".toList ≠ none → v.dims ≠ []) ∧
      v.name ∉ ["info".toList, "non_grid_variables".toList, "nodes".toList, "centers".toList])
    (hang : (∀ v ∈ f.vars, v.name = "angle".toList →
        ∃ n s, sizes f v = n :: s ∧ (n = 0 → ∃ a, ang cx.data cy.data = .ok a)) ∧
      ((∀ v ∈ f.vars, v.name ≠ "angle".toList) → ∃ a, ang cx.data cy.data = .ok a)) :
    ∃ g, load ang f = .ok g := by
  have htop : findTopology f = .ok t := (C103_found f hd t).2 ⟨ht, hs, hu, h2⟩
  obtain ⟨nd, hnd⟩ := Option.ne_none_iff_exists'.1 hnd
  have hncs : nodeCoordinates f t = .ok (nd, some [nx.name, ny.name]) ∧
      readPair f (some [nx.name, ny.name]) = .ok (some (nx, ny)) := by
    obtain ⟨q1, q2, q3, q4, q5⟩ := hnode
    refine ⟨?_, readPair_of (find_mem hd q2) (find_mem hd q3)⟩
    unfold nodeCoordinates
    rw [attr_eq, attr_eq, hnd, q1]
    simp only
    have : nx.name ++ ' ' :: ny.name = joinSpace [nx.name, ny.name] := rfl
    rw [this, split_join _ (by simp) (by
      intro n hn
      simp only [List.mem_cons, List.not_mem_nil, or_false] at hn
      rcases hn with rfl | rfl
      · exact q4
      · exact q5)]
  obtain ⟨hcen, hcenr⟩ := two_names (loc := "face") hd hcenter
  have hdim : ∀ k ds, DeclaresDims t k ds → ∃ s, dimension t k = .ok (some (s, ds)) := by
    rintro k ds ⟨s, q1, q2⟩
    exact ⟨s, (dimension_iff t k _).2 (Or.inr ⟨s, ds, rfl, q1, q2⟩)⟩
  obtain ⟨sf, hsf⟩ := hdim _ _ hface
  obtain ⟨sv, hsv⟩ := hdim _ _ hvert
  have hopt : ∀ k ds, (t.attrs.lookup (String.toList k) = none ∧ ds = []) ∨ DeclaresDims t k ds →
      ∃ x, dimension t k = .ok x ∧ (x.map Prod.snd).getD [] = ds := by
    rintro k ds (⟨q, rfl⟩ | q)
    · exact ⟨none, (dimension_iff t k _).2 (Or.inl ⟨rfl, q⟩), rfl⟩
    · obtain ⟨s, e⟩ := hdim k ds q
      exact ⟨_, e, rfl⟩
  obtain ⟨x1, hx1, hx1'⟩ := hopt _ _ hedge1
  obtain ⟨x2, hx2, hx2'⟩ := hopt _ _ hedge2
  have hco : ∀ loc : String, (t.attrs.lookup (loc ++ "_coordinates").toList = none ∧
        ∀ v ∈ f.vars, v.attrs.lookup "location".toList ≠ some loc.toList) ∨
      (∃ vx vy, NamesTwo f t (loc ++ "_coordinates") vx vy) →
      ∃ l r, coordinates f t loc = .ok l ∧ readPair f l = .ok r ∧ readEdge1 f l = .ok r := by
    rintro loc (⟨q1, q2⟩ | ⟨vx, vy, q⟩)
    · refine ⟨none, none, ?_, rfl, rfl⟩
      unfold coordinates
      rw [attr_eq, q1]
      exact C106_nothing f _ q2
    · obtain ⟨a, b⟩ := two_names hd q
      exact ⟨_, _, a, b, b⟩
  obtain ⟨l1, r1, hl1, -, hr1⟩ := hco "edge1" hc1
  obtain ⟨l2, r2, hl2, hr2, -⟩ := hco "edge2" hc2
  have hangle : ∃ a, anglesOf ang f (some (cx, cy)) = .ok a := by
    unfold anglesOf
    simp only
    cases hf : f.find "angle".toList with
    | none =>
      exact hang.2 (fun v hv e => by
        obtain ⟨w, hw⟩ := find_of_mem ⟨v, hv, e⟩
        rw [hf] at hw
        cases hw)
    | some v =>
      obtain ⟨m, e⟩ := find_some hf
      obtain ⟨n, s, hsz, h0⟩ := hang.1 v m e
      have : f.shape v = n :: s := hsz
      simp only [this]
      cases n with
      | zero => exact h0 rfl
      | succ n => exact ⟨_, rfl⟩
  obtain ⟨a, hangle⟩ := hangle
  have hp : FacesDeclared (padsOf nd (some (sf, fs)) x1 x2 (some (sv, vs))) fs := ⟨rfl, hfl⟩
  have hall : (padsOf nd (some (sf, fs)) x1 x2 (some (sv, vs))).all =
      .ok (fs ++ (es1 ++ es2) ++ vs) := by
    unfold Pads.all
    rw [faces_ok hp]
    simp only [padsOf, Option.map_some, Pads.edges, hx1', hx2']
  have hw' : ∀ x ∈ fs ++ (es1 ++ es2) ++ vs, PaddingWord x.padding := by
    intro x hx
    apply hw
    simpa [or_assoc] using hx
  have hsl : ∀ dims, ∃ r, slicing (padsOf nd (some (sf, fs)) x1 x2 (some (sv, vs))) dims = .ok r := by
    intro dims
    unfold slicing
    split
    · simp only [padsOf, Option.map_some]
      exact sliceAll_ok fs (fun x hx => hw x (by simp [hx])) dims
    · rw [hall]
      exact sliceAll_ok _ hw' dims
  have hmap : ∃ ss, f.vars.mapM (attach (padsOf nd (some (sf, fs)) x1 x2 (some (sv, vs)))) =
      .ok ss := by
    apply mapM_exists
    intro v hv
    obtain ⟨q1, q2⟩ := hvars v hv
    obtain ⟨s, hs⟩ := create_ok hp v q1 (hsl v.dims)
    refine ⟨s, ?_⟩
    unfold attach
    rw [hs]
    exact if_neg q2
  obtain ⟨ss, hmap⟩ := hmap
  unfold load
  simp only [bind_ok]
  refine ⟨_, t, htop, _, hncs.1, x1, hx1, x2, hx2, l1, hl1, l2, hl2, _, hcen, _, hcenr, a, hangle, _,
    hsv, _, hncs.2, r1, hr1, r2, hr2, _, hsf, ss, hmap, rfl⟩

/-- A file that loads. -/
def fullFile : File Nat :=
  smallFile [("vertical_dimensions".toList, "s: w (padding: none)".toList),
    ("face_coordinates".toList, "clon clat".toList)] [
    { name := "u".toList, dims := ["s".toList, "j".toList, "x".toList],
      attrs := [("grid".toList, "grid".toList), ("axes".toList, "X: x Y: y".toList)], data := 7 }]

theorem full_loads : ∃ g, load (fun a _ => .ok a) fullFile = .ok g ∧ g.nodeLon = some 1 ∧
    g.nodeLat = some 2 ∧ g.centerLon = some 3 ∧ g.centerLat = some 4 ∧ g.topVar = "grid".toList ∧
    g.nodeCoords = some ["lon".toList, "lat".toList] ∧
    g.faceCoords = some ["clon".toList, "clat".toList] := by
  have : ((load (fun a _ => .ok a) fullFile).map (fun g => ([g.nodeLon, g.nodeLat, g.centerLon,
      g.centerLat], [some [g.topVar], g.nodeCoords, g.faceCoords]))) = .ok ([some 1, some 2, some 3,
        some 4], [some ["grid".toList], some ["lon".toList, "lat".toList],
          some ["clon".toList, "clat".toList]]) := by
    decide +kernel
  cases hl : load (fun a _ => .ok a) fullFile with
  | error e => rw [hl] at this; cases this
  | ok g =>
    rw [hl] at this
    have := Except.ok.inj this
    simp only [Prod.mk.injEq, List.cons.injEq, and_true, Option.some.injEq] at this
    exact ⟨g, rfl, this.1.1, this.1.2.1, this.1.2.2.1, this.1.2.2.2, this.2⟩

theorem full_distinct : DistinctNames fullFile := by simp [DistinctNames, fullFile, smallFile]

/-- The hypotheses of the theorem are met by that file. -/
example : ∃ g, load (fun a _ => .ok a) fullFile = .ok g := by
  refine C110_loads_partial fullFile full_distinct _ (List.mem_append_left _
    (List.mem_cons_of_mem _ (List.mem_cons_of_mem _ (List.mem_cons_of_mem _ (List.mem_cons_of_mem _
      List.mem_cons_self))))) rfl ?_ rfl (by simp [List.lookup])
    [⟨"y".toList, "j".toList, "none".toList⟩, ⟨"x".toList, "i".toList, "none".toList⟩] [] []
    [⟨"s".toList, "w".toList, "none".toList⟩] ⟨_, rfl, by decide +kernel⟩ (by decide)
    ⟨_, rfl, by decide +kernel⟩ (Or.inl ⟨rfl, rfl⟩) (Or.inl ⟨rfl, rfl⟩) ?_
    { name := "lon".toList, dims := ["j".toList, "i".toList], data := 1 }
    { name := "lat".toList, dims := ["j".toList, "i".toList], data := 2 }
    { name := "clon".toList, dims := ["y".toList, "x".toList], data := 3 }
    { name := "clat".toList, dims := ["y".toList, "x".toList], data := 4 }
    ⟨rfl, by simp [fullFile, smallFile], by simp [fullFile, smallFile], by decide, by decide⟩
    ⟨rfl, by simp [fullFile, smallFile], by simp [fullFile, smallFile], by decide, by decide⟩
    (Or.inl ⟨rfl, ?_⟩) (Or.inl ⟨rfl, ?_⟩) ?_ ⟨?_, fun _ => ⟨_, rfl⟩⟩
  · intro v hv hs
    simp only [fullFile, smallFile, List.mem_append, List.mem_cons, List.not_mem_nil, or_false] at hv
    rcases hv with (rfl | rfl | rfl | rfl | rfl) | rfl
    · cases hs
    · cases hs
    · cases hs
    · cases hs
    · rfl
    · exact absurd (show (none : Option Txt) = some "grid_topology".toList from hs) (by simp)
  · intro x hx
    simp only [List.append_nil, List.mem_append, List.mem_cons, List.not_mem_nil, or_false] at hx
    rcases hx with (rfl | rfl) | rfl <;> exact Or.inr (Or.inl rfl)
  · intro v hv
    simp only [fullFile, smallFile, List.mem_append, List.mem_cons, List.not_mem_nil, or_false] at hv
    rcases hv with (rfl | rfl | rfl | rfl | rfl) | rfl <;> decide
  · intro v hv
    simp only [fullFile, smallFile, List.mem_append, List.mem_cons, List.not_mem_nil, or_false] at hv
    rcases hv with (rfl | rfl | rfl | rfl | rfl) | rfl <;> decide
  · intro v hv
    simp only [fullFile, smallFile, List.mem_append, List.mem_cons, List.not_mem_nil, or_false] at hv
    rcases hv with (rfl | rfl | rfl | rfl | rfl) | rfl <;> decide
  · intro v hv
    simp only [fullFile, smallFile, List.mem_append, List.mem_cons, List.not_mem_nil, or_false] at hv
    rcases hv with (rfl | rfl | rfl | rfl | rfl) | rfl <;> intro e <;> exact absurd e (by decide)

end C110

section C112
variable {α : Type} {ang : α → α → Except Err α}

/-- C112 as listed: whatever else is in the file, the arrays a grid holds are those of the variables
named as coordinates. -/
def C112_statement : Prop :=
  ∀ (f : File Nat) (g : SObj Nat), DistinctNames f → load (fun a _ => .ok a) f = .ok g →
    HeldFrom f g.nodeCoords g.nodeLon g.nodeLat

/-- C112 is false: a variable called `node_lon` takes the place of the longitudes. -/
theorem C112_refuted : ¬ C112_statement := by
  intro h
  let f : File Nat := smallFile [("vertical_dimensions".toList, "s: w (padding: none)".toList),
    ("face_coordinates".toList, "clon clat".toList)] [{ name := "node_lon".toList, data := 9 }]
  have : ((load (fun a _ => .ok a) f).map (fun g => (g.nodeCoords, g.nodeLon))) =
      .ok (some ["lon".toList, "lat".toList], some 9) := by decide +kernel
  cases hl : load (fun a _ => .ok a) f with
  | error e => rw [hl] at this; cases this
  | ok g =>
    rw [hl] at this
    have := Except.ok.inj this
    simp only [Prod.mk.injEq] at this
    rcases h f g (by simp [DistinctNames, f, smallFile]) hl with ⟨e, -, -⟩ | ⟨vx, hx, vy, hy, e, e1, -⟩
    · rw [this.1] at e; cases e
    · rw [this.1] at e
      rw [this.2] at e1
      simp only [Option.some.injEq, List.cons.injEq, and_true] at e e1
      have hn := e.1
      simp only [f, smallFile, List.mem_append, List.mem_cons, List.not_mem_nil, or_false] at hx
      rcases hx with (rfl | rfl | rfl | rfl | rfl) | rfl
      · exact absurd e1 (by decide)
      · exact absurd e1 (by decide)
      · exact absurd e1 (by decide)
      · exact absurd e1 (by decide)
      · exact absurd e1 (by decide)
      · exact absurd hn (by decide)

/-- And a variable called `nodes` keeps the file from being loaded. -/
theorem C112_refuted_load : load (fun a _ => .ok a) (smallFile [("vertical_dimensions".toList,
      "s: w (padding: none)".toList), ("face_coordinates".toList, "clon clat".toList)]
      [{ name := "nodes".toList, data := 9 }]) = .error .attributeError := by decide +kernel

theorem readEdge1_inv {f : File α} {names : Option (List Txt)} {r : Option (NVar α × NVar α)}
    (h : readEdge1 f names = .ok r) : (readPair f names = .ok r) ∨
      ((∀ l, names = some l → l.length ≠ 2) ∧ r = none) := by
  unfold readEdge1 at h
  split at h
  · exact Or.inl h
  · next hne =>
    cases h
    refine Or.inr ⟨?_, rfl⟩
    rintro l rfl hl
    match l, hl with
    | [a, b], _ => exact hne a b rfl

theorem heldFrom_of {f : File α} {names : Option (List Txt)} {r : Option (NVar α × NVar α)}
    (h : readPair f names = .ok r) : HeldFrom f names (r.map (·.1.data)) (r.map (·.2.data)) := by
  rcases readPair_inv h with ⟨rfl, rfl⟩ | ⟨a, b, rfl, rfl, ha, hb, -, -⟩
  · exact Or.inl ⟨rfl, rfl, rfl⟩
  · exact Or.inr ⟨a, ha, b, hb, rfl, rfl, rfl⟩

/-- C112, what holds: where no variable has one of the names the grid uses itself, the arrays are
those of the variables named, longitude first. For the first kind of edges this wants two names. -/
theorem C112_arrays_partial (f : File α) (g : SObj α) (h : load ang f = .ok g)
    (hn : ∀ v ∈ f.vars, v.name ∉ arrayNames) :
    HeldFrom f g.nodeCoords g.nodeLon g.nodeLat ∧ HeldFrom f g.faceCoords g.centerLon g.centerLat ∧
      HeldFrom f g.edge2Coords g.edge2Lon g.edge2Lat ∧
      ((∀ l, g.edge1Coords = some l → l.length = 2) →
        HeldFrom f g.edge1Coords g.edge1Lon g.edge1Lat) := by
  obtain ⟨L⟩ := load_inv h
  have hid : ∀ k : String, k.toList ∈ arrayNames → ∀ x : Option α, held f k x = x := fun k hk x =>
    held_id (fun v hv e => hn v hv (e ▸ hk)) x
  refine ⟨?_, ?_, ?_, fun h1 => ?_⟩
  · rw [L.gnlon, L.gnlat, L.gnc, hid _ (by decide), hid _ (by decide)]
    exact heldFrom_of L.hnode
  · rw [L.gclon, L.gclat, hid _ (by decide), hid _ (by decide)]
    exact heldFrom_of L.hcenter
  · rw [L.g2lon, L.g2lat, hid _ (by decide), hid _ (by decide)]
    exact heldFrom_of L.hx2
  · rw [L.g1lon, L.g1lat, hid _ (by decide), hid _ (by decide)]
    rcases readEdge1_inv L.hx1 with e | ⟨e, e'⟩
    · exact heldFrom_of e
    · cases hc : g.edge1Coords with
      | none => rw [e']; exact Or.inl ⟨rfl, rfl, rfl⟩
      | some l => exact absurd (h1 l hc) (e l hc)

/-- Angles are those of the variable `angle` if it holds any, and computed from the centers
otherwise. -/
theorem C112_angles_partial (f : File α) (g : SObj α) (h : load ang f = .ok g)
    (hn : ∀ v ∈ f.vars, v.name ∉ "angles".toList :: arrayNames) :
    (∃ v ∈ f.vars, v.name = "angle".toList ∧ (sizes f v).head? ≠ some 0 ∧ g.angles = v.data) ∨
      ((∀ v ∈ f.vars, v.name = "angle".toList → DistinctNames f → (sizes f v).head? = some 0) ∧
        ∃ x y, g.centerLon = some x ∧ g.centerLat = some y ∧ ang x y = .ok g.angles) := by
  obtain ⟨L⟩ := load_inv h
  have hg : g.angles = L.angles := by
    rw [L.gang, held_id (fun v hv e => hn v hv (by rw [e]; exact List.mem_cons_self))]
    rfl
  have hcl : g.centerLon = L.center.map (·.1.data) := by
    rw [L.gclon, held_id (fun v hv e => hn v hv (by rw [e]; decide))]
  have hca : g.centerLat = L.center.map (·.2.data) := by
    rw [L.gclat, held_id (fun v hv e => hn v hv (by rw [e]; decide))]
  have ha := L.hangles
  have comp : (match L.center with
      | none => .error .attributeError
      | some (a, b) => ang a.data b.data) = Except.ok L.angles →
      ∃ x y, g.centerLon = some x ∧ g.centerLat = some y ∧ ang x y = .ok g.angles := by
    intro e
    cases hc : L.center with
    | none => rw [hc] at e; cases e
    | some ab =>
      rw [hc] at e hcl hca
      exact ⟨_, _, hcl, hca, by rw [hg]; exact e⟩
  unfold anglesOf at ha
  simp only at ha
  cases hf : f.find "angle".toList with
  | none =>
    rw [hf] at ha
    refine Or.inr ⟨fun v hv e => ?_, comp ha⟩
    obtain ⟨w, hw⟩ := find_of_mem ⟨v, hv, e⟩
    rw [hf] at hw
    cases hw
  | some v =>
    rw [hf] at ha
    obtain ⟨m, e⟩ := find_some hf
    have hsz : sizes f v = f.shape v := rfl
    simp only at ha
    cases hs : f.shape v with
    | nil => rw [hs] at ha; cases ha
    | cons n s =>
      rw [hs] at ha
      cases n with
      | zero =>
        refine Or.inr ⟨fun w hw e' hd => ?_, comp ha⟩
        have : w = v := eq_of_name hd hw m (e'.trans e.symm)
        rw [this, hsz, hs]
        rfl
      | succ n =>
        refine Or.inl ⟨v, m, e, ?_, ?_⟩
        · rw [hsz, hs]; simp
        · rw [hg]; exact (Except.ok.inj ha).symm

example : ∃ g, load (fun a _ => .ok a) fullFile = .ok g ∧
    (∀ v ∈ fullFile.vars, v.name ∉ "angles".toList :: arrayNames) := by
  obtain ⟨g, hg, -⟩ := full_loads
  refine ⟨g, hg, fun v hv => ?_⟩
  simp only [fullFile, smallFile, List.mem_append, List.mem_cons, List.not_mem_nil, or_false] at hv
  rcases hv with (rfl | rfl | rfl | rfl | rfl) | rfl <;> decide

theorem firstMask_of (f : File α) (lon : NVar α) :
    FirstMask f lon ((maskFor f (some lon)).map NVar.name) := by
  cases hm : maskFor f (some lon) with
  | some m =>
    obtain ⟨h0, pre, post, h1, h2, h3, h4⟩ := (C107_first f lon m).1 hm
    exact Or.inl ⟨pre, m, post, h1, rfl, h0, h2, h3, h4⟩
  | none =>
    refine Or.inr ⟨rfl, ?_⟩
    by_cases h0 : sizes f lon = []
    · exact Or.inl h0
    · exact Or.inr fun w hw hc => (C107_none f (some lon)).1 hm lon rfl h0 w hw hc.1 hc.2

theorem maskHeld_of {f : File α} (hd : DistinctNames f) (key : String) {names : Option (List Txt)}
    {r : Option (NVar α × NVar α)}
    (h : readPair f names = .ok r ∨ ((∀ l, names = some l → l.length ≠ 2) ∧ r = none)) :
    MaskHeld f key names (heldMask f key ((maskFor f (r.map Prod.fst)).map NVar.name)) := by
  unfold heldMask
  constructor
  · intro he
    obtain ⟨w, hw⟩ := find_of_mem he
    rw [hw]
    simp only [Option.some.injEq]
    exact (find_some hw).2
  · intro hn
    have : f.find key.toList = none := by
      by_contra hc
      obtain ⟨w, hw⟩ := Option.ne_none_iff_exists'.1 hc
      exact hn w (find_some hw).1 (find_some hw).2
    rw [this]
    simp only
    rcases h with h | ⟨h, rfl⟩
    · rcases readPair_inv h with ⟨rfl, rfl⟩ | ⟨a, b, rfl, rfl, ha, hb, fa, fb⟩
      · exact ⟨fun _ => rfl, fun x _ y e => by cases e⟩
      · refine ⟨fun e => absurd rfl (e a.name b.name), fun x hx y e => ?_⟩
        simp only [Option.some.injEq, List.cons.injEq, and_true] at e
        have : a = x := eq_of_name hd ha hx e.1
        subst this
        exact firstMask_of f a
    · refine ⟨fun _ => rfl, fun x _ y e => absurd rfl (h _ e)⟩

/-- C107. The masks of a loaded grid: first the variable that has the name the grid uses for the mask,
then the first that is called a mask and has the size of the longitudes. -/
theorem C107_loaded (f : File α) (hd : DistinctNames f) (g : SObj α) (h : load ang f = .ok g) :
    MaskHeld f "node_mask" g.nodeCoords g.nodeMask ∧
      MaskHeld f "center_mask" g.faceCoords g.centerMask ∧
      MaskHeld f "edge1_mask" g.edge1Coords g.edge1Mask ∧
      MaskHeld f "edge2_mask" g.edge2Coords g.edge2Mask := by
  obtain ⟨L⟩ := load_inv h
  rw [L.gnm, L.gcm, L.g1m, L.g2m, L.gnc]
  exact ⟨maskHeld_of hd _ (Or.inl L.hnode), maskHeld_of hd _ (Or.inl L.hcenter),
    maskHeld_of hd _ (readEdge1_inv L.hx1), maskHeld_of hd _ (Or.inl L.hx2)⟩

/-- Non-vacuity of `C107_loaded`: a mask by its name and one by its size. -/
example :
    let f := smallFile [("vertical_dimensions".toList, "s: w (padding: none)".toList),
      ("face_coordinates".toList, "clon clat".toList)] [
      { name := "mask_psi".toList, dims := ["j".toList, "i".toList], data := 0 },
      { name := "wet".toList, dims := ["y".toList, "x".toList], data := 0,
        attrs := [("long_name".toList, "land mask".toList)] },
      { name := "node_mask".toList, dims := ["j".toList, "i".toList], data := 0 }]
    DistinctNames f ∧ (load (fun a _ => .ok a) f).map (fun g => (g.nodeMask, g.centerMask)) =
      .ok (some "node_mask".toList, some "wet".toList) := by
  refine ⟨by simp [DistinctNames, smallFile], by decide +kernel⟩

end C112
end Verif
