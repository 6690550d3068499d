import Verif.Model.SFile
import Verif.Spec.SFile
import Verif.Lemmas.SFile
import Mathlib.Tactic.Tauto

/-!
# Properties of structured grids in files: C103 to C107 and C109
-/

set_option autoImplicit false

namespace Verif
open Verif.Spec Verif.SFile

/-! ## C103 -/

section C103
variable {α : Type}

theorem attr_eq (v : NVar α) (k : String) : v.attr k = v.attrs.lookup k.toList := rfl

theorem mem_topologies (f : File α) (v : NVar α) :
    v ∈ topologies f ↔ v ∈ f.vars ∧ SaysTopology v := by
  unfold topologies
  rw [List.mem_filter]
  simp [SaysTopology, attr_eq]

theorem eq_of_name {l : List (NVar α)} (h : (l.map NVar.name).Nodup) {v w : NVar α} (hv : v ∈ l)
    (hw : w ∈ l) (e : v.name = w.name) : v = w :=
  List.inj_on_of_nodup_map h hv hw e

/-- C103. The grid is described by `t` exactly when `t` alone says so, for two dimensions. -/
theorem C103_found (f : File α) (hd : DistinctNames f) (t : NVar α) :
    findTopology f = .ok t ↔ t ∈ f.vars ∧ SaysTopology t ∧
      (∀ v ∈ f.vars, SaysTopology v → v.name = t.name) ∧ t.topDim = some (.ok 2) := by
  have one : (∀ v ∈ f.vars, SaysTopology v → v.name = t.name) → t ∈ f.vars → SaysTopology t →
      topologies f = [t] := by
    intro hu ht hs
    have hn : (topologies f).Nodup := (List.Nodup.of_map _ hd).filter _
    have hall : ∀ v ∈ topologies f, v = t := fun v hv =>
      eq_of_name hd ((mem_topologies f v).1 hv).1 ht (hu v ((mem_topologies f v).1 hv).1 ((mem_topologies f v).1 hv).2)
    have ht' := (mem_topologies f t).2 ⟨ht, hs⟩
    cases hl : topologies f with
    | nil => rw [hl] at ht'; simp at ht'
    | cons a l =>
      rw [hl] at hn hall ht'
      have ha := hall a (by simp)
      subst ha
      cases l with
      | nil => rfl
      | cons b l =>
        have hb := hall b (by simp)
        subst hb
        simp at hn
  constructor
  · intro h
    unfold findTopology at h
    split at h
    · next v hv =>
      have hm := (mem_topologies f v).1 (by rw [hv]; simp)
      split at h
      · cases h
      · cases h
      · next d hdim =>
        split at h
        · next h2 =>
          cases h
          refine ⟨hm.1, hm.2, fun w hw hs => ?_, by rw [hdim, h2]⟩
          have := (mem_topologies f w).2 ⟨hw, hs⟩
          rw [hv, List.mem_singleton] at this
          rw [this]
        · cases h
    · cases h
  · rintro ⟨ht, hs, hu, h2⟩
    unfold findTopology
    rw [one hu ht hs]
    simp only [h2, if_true]

/-- Without such a variable, with several, or for another number of dimensions (or none given) the
file is refused with `ValueError`. -/
theorem C103_refused (f : File α) (hd : DistinctNames f)
    (h : (∀ v ∈ f.vars, ¬ SaysTopology v) ∨
      (∃ v ∈ f.vars, ∃ w ∈ f.vars, SaysTopology v ∧ SaysTopology w ∧ v.name ≠ w.name) ∨
      (∃ v ∈ f.vars, SaysTopology v ∧ (v.topDim = none ∨ ∃ d, v.topDim = some (.ok d) ∧ d ≠ 2))) :
    findTopology f = .error .valueError := by
  have many : (∃ v ∈ f.vars, ∃ w ∈ f.vars, SaysTopology v ∧ SaysTopology w ∧ v.name ≠ w.name) →
      ∀ t, topologies f ≠ [t] := by
    rintro ⟨v, hv, w, hw, h1, h2, hne⟩ t ht
    have a := (mem_topologies f v).2 ⟨hv, h1⟩
    have b := (mem_topologies f w).2 ⟨hw, h2⟩
    rw [ht, List.mem_singleton] at a b
    exact hne (by rw [a, b])
  unfold findTopology
  split
  · next t ht =>
    have hm := (mem_topologies f t).1 (by rw [ht]; simp)
    rcases h with h | h | ⟨v, hv, hs, hdim⟩
    · exact absurd hm.2 (h t hm.1)
    · exact absurd ht (many h t)
    · have := (mem_topologies f v).2 ⟨hv, hs⟩
      rw [ht, List.mem_singleton] at this
      subst this
      rcases hdim with hdim | ⟨d, hdim, h2⟩
      · rw [hdim]
      · rw [hdim]; simp [h2]
  · rfl

/-- Non-vacuity: one description among other variables; two of them; one of three dimensions. -/
example : let t : NVar Nat := { name := "grid".toList, topDim := some (.ok 2), data := 0,
                                attrs := [("cf_role".toList, "grid_topology".toList)] }
    let u : NVar Nat := { name := "u".toList, data := 1 }
    SaysTopology t ∧ ¬ SaysTopology u ∧ DistinctNames (File.mk [] [u, t]) ∧
      findTopology (File.mk [] [u, t]) = .ok t ∧
      (∃ e, findTopology (File.mk [] [u]) = .error e) ∧
      (∃ e, findTopology (File.mk [] [{ t with name := "g2".toList }, t]) = .error e) ∧
      (∃ e, findTopology (File.mk [] [{ t with topDim := some (.ok 3) }]) = .error e) := by
  refine ⟨rfl, (by intro h; cases h), ?_, rfl, ⟨_, rfl⟩, ⟨_, rfl⟩, ⟨_, rfl⟩⟩
  simp [DistinctNames]

end C103

/-! ## C104 -/

section C104

theorem faces_ok {p : Pads} {fs : List SText.Decl} (h : FacesDeclared p fs) : p.faces = .ok fs := by
  obtain ⟨h1, h2⟩ := h
  unfold Pads.faces
  rw [h1]
  match fs, h2 with
  | _ :: _ :: _, _ => rfl

theorem faces_iff (p : Pads) (fs : List SText.Decl) :
    p.faces = .ok fs ↔ p.face = some fs ∧ fs.length ≠ 1 := by
  unfold Pads.faces
  split
  · next h => simp [h]
  · next d h => rw [h]; simp; rintro rfl; simp
  · next ds hne h =>
    rw [h]
    simp only [Except.ok.injEq, Option.some.injEq]
    constructor
    · rintro rfl
      refine ⟨rfl, fun hl => ?_⟩
      obtain ⟨d, hd⟩ := List.length_eq_one_iff.1 hl
      exact hne d hd
    · exact fun h => h.1

theorem meet_iff (a b : List Txt) : meet a b = true ↔ ∃ d ∈ a, d ∈ b := by
  simp [meet]

theorem meet_comm (a b : List Txt) : meet a b = meet b a := by
  rw [Bool.eq_iff_iff, meet_iff, meet_iff]
  exact ⟨fun ⟨d, h1, h2⟩ => ⟨d, h2, h1⟩, fun ⟨d, h1, h2⟩ => ⟨d, h2, h1⟩⟩

theorem mem_edges (p : Pads) (d : Txt) : DeclaredIn p.edges d ↔ EdgeDeclared p d := by
  unfold DeclaredIn EdgeDeclared Pads.edges
  constructor
  · rintro ⟨x, hx, rfl⟩
    rcases List.mem_append.1 hx with hx | hx
    · cases he : p.edge1 with
      | none => rw [he] at hx; simp at hx
      | some ds => rw [he] at hx; exact Or.inl ⟨ds, rfl, x, hx, rfl⟩
    · cases he : p.edge2 with
      | none => rw [he] at hx; simp at hx
      | some ds => rw [he] at hx; exact Or.inr ⟨ds, rfl, x, hx, rfl⟩
  · rintro (⟨ds, he, x, hx, rfl⟩ | ⟨ds, he, x, hx, rfl⟩)
    · exact ⟨x, List.mem_append_left _ (by rw [he]; exact hx), rfl⟩
    · exact ⟨x, List.mem_append_right _ (by rw [he]; exact hx), rfl⟩

theorem declared_any (ds : List SText.Decl) (d : Txt) :
    ds.any (fun x => x.faceDim == d) = true ↔ DeclaredIn ds d := by
  simp [DeclaredIn]

theorem padded_any (p : Pads) (fs : List SText.Decl) (dims : List Txt) (d : Txt) :
    ((if meet p.nodeDims dims then fs else fs ++ p.edges).any (fun x => x.faceDim == d)) = true ↔
      DimPadded p fs dims d := by
  have hm : meet p.nodeDims dims = true ↔ OnNodeDims p dims := by
    rw [meet_comm, meet_iff]; rfl
  unfold DimPadded
  split
  · next h =>
    rw [declared_any]
    exact ⟨Or.inl, fun q => q.elim id (fun q => absurd (hm.1 h) q.1)⟩
  · next h =>
    rw [declared_any, ← mem_edges]
    have hn : ¬ OnNodeDims p dims := fun q => h (hm.2 q)
    constructor
    · rintro ⟨x, hx, e⟩
      rcases List.mem_append.1 hx with hx | hx
      · exact Or.inl ⟨x, hx, e⟩
      · exact Or.inr ⟨hn, x, hx, e⟩
    · rintro (⟨x, hx, e⟩ | ⟨-, x, hx, e⟩)
      · exact ⟨x, List.mem_append_left _ hx, e⟩
      · exact ⟨x, List.mem_append_right _ hx, e⟩

theorem findIdx_append (q : Txt → Bool) (pre : List Txt) (d : Txt) (post : List Txt)
    (h : ∀ e ∈ pre, q e = false) (hd : q d = true) :
    (pre ++ d :: post).findIdx? q = some pre.length := by
  induction pre with
  | nil => simp [List.findIdx?_cons, hd]
  | cons e pre ih =>
    rw [List.cons_append, List.findIdx?_cons, h e (by simp)]
    simp [ih (fun x hx => h x (List.mem_cons_of_mem _ hx))]

/-- C104 as listed: every variable of the grid gets its axes, those at the centers none. -/
def C104_statement : Prop :=
  ∀ (p : Pads) (fs : List SText.Decl) (dims : List Txt), FacesDeclared p fs →
    ∃ r, avgAxes p dims = .ok r ∧ (dims ≠ [] ∧ (∀ d ∈ dims, DeclaredIn fs d) → r = (none, none))

/-- C104 is false: a variable without dimensions leaves a local variable unset. -/
theorem C104_refuted : ¬ C104_statement := by
  intro h
  obtain ⟨r, hr, -⟩ := h { nodeDims := ["j".toList, "i".toList],
                           face := some [⟨"y".toList, "j".toList, "both".toList⟩,
                             ⟨"x".toList, "i".toList, "both".toList⟩] } _ [] ⟨rfl, by decide⟩
  cases hr

/-- And variables at the centers, which need no averaging, get an axis all the same. -/
theorem C104_refuted_centers : ∃ (p : Pads) (fs : List SText.Decl) (dims : List Txt),
    FacesDeclared p fs ∧ (∀ d ∈ dims, DeclaredIn fs d) ∧ dims.length = 2 ∧
      avgAxes p dims = .ok (some 1, some 0) :=
  ⟨{ nodeDims := ["j".toList, "i".toList],
     face := some [⟨"y".toList, "j".toList, "both".toList⟩,
       ⟨"x".toList, "i".toList, "both".toList⟩] }, _, ["y".toList, "x".toList], ⟨rfl, by decide⟩,
    by
      intro d hd
      simp only [List.mem_cons, List.not_mem_nil, or_false] at hd
      rcases hd with rfl | rfl
      · exact ⟨_, List.mem_cons_self, rfl⟩
      · exact ⟨_, List.mem_cons_of_mem _ List.mem_cons_self, rfl⟩,
    rfl, by decide +kernel⟩

/-- What is found: the first padded dimension, counted from the last; the node axis is the other one
of the last two. -/
theorem C104_axis_partial (p : Pads) (fs : List SText.Decl) (hf : FacesDeclared p fs)
    (pre : List Txt) (d : Txt) (post : List Txt)
    (hpre : ∀ e ∈ pre, ¬ DimPadded p fs (pre ++ d :: post) e)
    (hd : DimPadded p fs (pre ++ d :: post) d) :
    ∃ n, avgAxes p (pre ++ d :: post) = .ok (some post.length, n) ∧
      (post.length = 0 → n = some 1) ∧ (post.length = 1 → n = some 0) ∧
      (2 ≤ post.length → n = none) := by
  have hidx := findIdx_append (fun e => (if meet p.nodeDims (pre ++ d :: post) then fs
      else fs ++ p.edges).any (fun x => x.faceDim == e)) pre d post
    (fun e he => by
      have := hpre e he
      rw [← padded_any] at this
      simpa using this)
    ((padded_any p fs _ d).2 hd)
  unfold avgAxes
  rw [faces_ok hf]
  simp only
  split
  · next e => simp at e
  · rw [hidx]
    simp only
    have hl : (pre ++ d :: post).length - pre.length - 1 = post.length := by simp
    rw [hl]
    refine ⟨_, rfl, ?_, ?_, ?_⟩
    · intro h; simp [h]
    · intro h; simp [h]
    · intro h; rw [if_neg (by omega), if_neg (by omega)]

/-- No padded dimension, no axis. -/
theorem C104_none_partial (p : Pads) (fs : List SText.Decl) (hf : FacesDeclared p fs)
    (dims : List Txt) (hne : dims ≠ []) (h : ∀ d ∈ dims, ¬ DimPadded p fs dims d) :
    avgAxes p dims = .ok (none, none) := by
  have hidx : dims.findIdx? (fun e => (if meet p.nodeDims dims then fs
      else fs ++ p.edges).any (fun x => x.faceDim == e)) = none := by
    rw [List.findIdx?_eq_none_iff]
    intro d hd
    have := h d hd
    rw [← padded_any] at this
    simpa using this
  unfold avgAxes
  rw [faces_ok hf]
  cases dims with
  | nil => exact absurd rfl hne
  | cons d ds => simp only [hidx]

/-- C104, what holds: of a variable on edges, whose last two dimensions are one with padding and one
without, the axis to be averaged is the one without among the two, the node axis is the other. -/
theorem C104_staggered_partial (p : Pads) (fs : List SText.Decl) (hf : FacesDeclared p fs)
    (lead : List Txt) (a b : Txt) (hlead : ∀ e ∈ lead, ¬ DimPadded p fs (lead ++ [a, b]) e) :
    (DimPadded p fs (lead ++ [a, b]) a → ¬ DimPadded p fs (lead ++ [a, b]) b →
      ∃ i j, avgAxes p (lead ++ [a, b]) = .ok (some i, some j) ∧ [a, b][i]? = some b ∧
        [a, b][j]? = some a) ∧
    (¬ DimPadded p fs (lead ++ [a, b]) a → DimPadded p fs (lead ++ [a, b]) b →
      ∃ i j, avgAxes p (lead ++ [a, b]) = .ok (some i, some j) ∧ [a, b][i]? = some a ∧
        [a, b][j]? = some b) := by
  constructor
  · intro ha _
    obtain ⟨n, h1, -, h3, -⟩ := C104_axis_partial p fs hf lead a [b] hlead ha
    have := h3 rfl
    subst this
    exact ⟨1, 0, h1, rfl, rfl⟩
  · intro ha hb
    have e : lead ++ [a, b] = (lead ++ [a]) ++ b :: [] := by simp
    rw [e] at hlead ha hb ⊢
    obtain ⟨n, h1, h2, -, -⟩ := C104_axis_partial p fs hf (lead ++ [a]) b [] (by
      intro x hx
      rcases List.mem_append.1 hx with hx | hx
      · exact hlead x hx
      · simp at hx; subst hx; exact ha) hb
    have := h2 rfl
    subst this
    exact ⟨0, 1, h1, rfl, rfl⟩

/-- Non-vacuity: a velocity component with time and depth first, on (faces, nodes). -/
example : let p : Pads := { nodeDims := ["j".toList, "i".toList],
                            face := some [⟨"y".toList, "j".toList, "both".toList⟩,
                              ⟨"x".toList, "i".toList, "both".toList⟩] }
    avgAxes p ["t".toList, "s".toList, "y".toList, "i".toList] = .ok (some 1, some 0) ∧
    avgAxes p ["t".toList, "s".toList, "j".toList, "x".toList] = .ok (some 0, some 1) ∧
    avgAxes p ["t".toList] = .ok (none, none) := by decide +kernel

end C104

/-! ## C105 -/

section C105
variable {α : Type}

theorem create_inv {p : Pads} {v : NVar α} {s : SVar} (h : createVariable p v = .ok s) :
    ∃ ax sl loc na dir, axesOf p v = .ok ax ∧ slicing p v.dims = .ok sl ∧
      locationOf p v = .ok loc ∧ namedAxes v = .ok na ∧ directionOf v = .ok dir ∧
      s = { name := v.name, grid := v.attr "grid", centerAxis := ax.1, nodeAxis := ax.2,
            slices := sl, dims := v.dims, location := nameEdge ax.1 loc, axes := na,
            standardName := v.attr "standard_name", vectorAxis := dir,
            coordinates := (v.attr "coordinates").map words } := by
  unfold createVariable at h
  simp only [bind_ok, Except.ok.injEq] at h
  obtain ⟨ax, h1, sl, h2, loc, h3, na, h4, dir, h5, h6⟩ := h
  exact ⟨ax, sl, loc, na, dir, h1, h2, h3, h4, h5, h6.symm⟩

theorem infer_inv {p : Pads} {fs : List SText.Decl} (hf : FacesDeclared p fs) (dims : List Txt) :
    ∃ r, inferLocation p dims = .ok r ∧
      ((∃ d ∈ dims, DeclaredIn fs d) → ¬ OnNodeDims p dims → r = some "face".toList) ∧
      ((∃ d ∈ dims, DeclaredIn fs d) → OnNodeDims p dims → r = some "edge".toList) ∧
      ((∀ d ∈ dims, ¬ DeclaredIn fs d) → (∃ d ∈ dims, EdgeDeclared p d) →
        r = some "edge".toList) ∧
      ((∀ d ∈ dims, ¬ DeclaredIn fs d) → (∀ d ∈ dims, ¬ EdgeDeclared p d) → r = none) := by
  unfold inferLocation
  rw [faces_ok hf]
  simp only
  refine ⟨_, rfl, ?_⟩
  have hface : meet dims (fs.map SText.Decl.faceDim) = true ↔ ∃ d ∈ dims, DeclaredIn fs d := by
    rw [meet_iff]
    simp only [List.mem_map, DeclaredIn]
  have hedge : meet dims (p.edges.map SText.Decl.faceDim) = true ↔ ∃ d ∈ dims, EdgeDeclared p d := by
    rw [meet_iff]
    simp only [← mem_edges, List.mem_map, DeclaredIn]
  have hnode : meet dims p.nodeDims = true ↔ OnNodeDims p dims := by rw [meet_iff]; rfl
  generalize meet dims (fs.map SText.Decl.faceDim) = x at *
  generalize meet dims (p.edges.map SText.Decl.faceDim) = y at *
  generalize meet dims p.nodeDims = z at *
  refine ⟨fun h1 h2 => ?_, fun h1 h2 => ?_, fun h1 h2 => ?_, fun h1 h2 => ?_⟩
  · have := hface.2 h1
    have hz : z = false := by
      cases z with
      | false => rfl
      | true => exact absurd (hnode.1 rfl) h2
    simp [this, hz]
  · simp [hface.2 h1, hnode.2 h2]
  · have hx : x = false := by
      cases x with
      | false => rfl
      | true =>
        obtain ⟨d, hd, hq⟩ := hface.1 rfl
        exact absurd hq (h1 d hd)
    simp [hx, hedge.2 h2]
  · have hx : x = false := by
      cases x with
      | false => rfl
      | true =>
        obtain ⟨d, hd, hq⟩ := hface.1 rfl
        exact absurd hq (h1 d hd)
    have hy : y = false := by
      cases y with
      | false => rfl
      | true =>
        obtain ⟨d, hd, hq⟩ := hedge.1 rfl
        exact absurd hq (h2 d hd)
    simp [hx, hy]

/-- C105 as listed, for the nodes: a variable whose last dimensions are the node dimensions is
placed on the nodes. -/
def C105_statement : Prop :=
  ∀ (p : Pads) (fs : List SText.Decl) (v : NVar Nat) (s : SVar), FacesDeclared p fs →
    v.dims = p.nodeDims → v.attr "grid" ≠ none → v.attr "location" = none →
    createVariable p v = .ok s → s.location = some "node".toList

/-- C105 is false: variables on the nodes get no location. -/
theorem C105_refuted : ¬ C105_statement := by
  intro h
  have := h { nodeDims := ["j".toList, "i".toList],
              face := some [⟨"y".toList, "j".toList, "both".toList⟩,
                ⟨"x".toList, "i".toList, "both".toList⟩] } _
    { name := "v".toList, dims := ["j".toList, "i".toList],
      attrs := [("grid".toList, "g".toList)], data := 0 } _ ⟨rfl, by decide⟩ rfl (by decide) rfl rfl
  exact absurd this (by decide +kernel)

/-- Data on edges without the attribute `grid` get no location either. -/
theorem C105_without_grid_partial (p : Pads) (fs : List SText.Decl) (hf : FacesDeclared p fs)
    (v : NVar α) (s : SVar) (hg : v.attr "grid" = none) (hl : v.attr "location" = none)
    (h1 : ∃ d ∈ v.dims, DeclaredIn fs d) (h2 : OnNodeDims p v.dims)
    (h : createVariable p v = .ok s) : s.location = none := by
  obtain ⟨ax, sl, loc, na, dir, q1, q2, q3, q4, q5, rfl⟩ := create_inv h
  obtain ⟨r, e1, -, e3, -, -⟩ := infer_inv hf v.dims
  simp only [locationOf, hl] at q3
  rw [e1] at q3
  cases q3
  simp only [axesOf, hg] at q1
  cases q1
  simp only
  rw [e3 h1 h2]
  decide

/-- C105, what holds: data on the face dimensions are placed on the faces; with one face dimension
and one node dimension last they are placed on the first kind of edges if the face dimension comes
first, and on the second if it comes last, whatever dimensions are in front; so are data on
dimensions declared for edges only. -/
theorem C105_places_partial (p : Pads) (fs : List SText.Decl) (hf : FacesDeclared p fs)
    (v : NVar α) (s : SVar) (hg : v.attr "grid" ≠ none) (hl : v.attr "location" = none)
    (h : createVariable p v = .ok s) (lead : List Txt) (a b : Txt) (hdims : v.dims = lead ++ [a, b])
    (hlead : ∀ e ∈ lead, ¬ DeclaredIn fs e ∧ ¬ EdgeDeclared p e) :
    ((∃ d ∈ v.dims, DeclaredIn fs d) → ¬ OnNodeDims p v.dims → s.location = some "face".toList) ∧
    (DeclaredIn fs a → b ∈ p.nodeDims → s.location = some "edge1".toList) ∧
    (a ∈ p.nodeDims → ¬ DeclaredIn fs a → DeclaredIn fs b → s.location = some "edge2".toList) ∧
    (¬ OnNodeDims p v.dims → ¬ DeclaredIn fs a → ¬ DeclaredIn fs b → EdgeDeclared p a →
      s.location = some "edge1".toList) ∧
    (¬ OnNodeDims p v.dims → ¬ DeclaredIn fs a → ¬ DeclaredIn fs b → ¬ EdgeDeclared p a →
      EdgeDeclared p b → s.location = some "edge2".toList) ∧
    (¬ DeclaredIn fs a → ¬ DeclaredIn fs b → ¬ EdgeDeclared p a → ¬ EdgeDeclared p b →
      s.location = none) := by
  obtain ⟨ax, sl, loc, na, dir, q1, q2, q3, q4, q5, rfl⟩ := create_inv h
  obtain ⟨r, e1, e2, e3, e4, e5⟩ := infer_inv hf v.dims
  simp only [locationOf, hl] at q3
  rw [e1] at q3
  cases q3
  have q1' : avgAxes p v.dims = .ok ax := by
    unfold axesOf at q1
    split at q1
    · next hn => exact absurd hn hg
    · exact q1
  have ma : a ∈ v.dims := by rw [hdims]; simp
  have mb : b ∈ v.dims := by rw [hdims]; simp
  have hlead' : ∀ e ∈ lead, ¬ DimPadded p fs (lead ++ [a, b]) e := fun e he q =>
    q.elim (hlead e he).1 (fun q => (hlead e he).2 q.2)
  -- the axis in the two cases
  have first : DimPadded p fs (lead ++ [a, b]) a → ax.1 = some 1 := by
    intro ha
    obtain ⟨n, h1, -⟩ := C104_axis_partial p fs hf lead a [b] hlead' ha
    rw [hdims] at q1'
    rw [h1] at q1'
    cases q1'
    rfl
  have second : ¬ DimPadded p fs (lead ++ [a, b]) a → DimPadded p fs (lead ++ [a, b]) b →
      ax.1 = some 0 := by
    intro ha hb
    have e : lead ++ [a, b] = (lead ++ [a]) ++ b :: [] := by simp
    rw [hdims, e] at q1'
    rw [e] at ha hb hlead'
    obtain ⟨n, h1, -⟩ := C104_axis_partial p fs hf (lead ++ [a]) b [] (by
      intro x hx
      rcases List.mem_append.1 hx with hx | hx
      · exact hlead' x hx
      · simp at hx; subst hx; exact ha) hb
    rw [h1] at q1'
    cases q1'
    rfl
  have none_face : ¬ DeclaredIn fs a → ¬ DeclaredIn fs b → ∀ d ∈ v.dims, ¬ DeclaredIn fs d := by
    intro ha hb d hd
    rw [hdims] at hd
    simp only [List.mem_append, List.mem_cons, List.not_mem_nil, or_false] at hd
    rcases hd with hd | rfl | rfl
    · exact (hlead d hd).1
    · exact ha
    · exact hb
  simp only
  refine ⟨fun h1 h2 => ?_, fun h1 h2 => ?_, fun h1 h2 h3 => ?_, fun h1 h2 h3 h4 => ?_,
    fun h1 h2 h3 h4 h5 => ?_, fun h1 h2 h3 h4 => ?_⟩
  · rw [e2 h1 h2]
    exact if_neg (by decide)
  · rw [e3 ⟨a, ma, h1⟩ ⟨b, mb, h2⟩, first (Or.inl h1)]
    decide
  · have hn : OnNodeDims p (lead ++ [a, b]) := ⟨a, by simp, h1⟩
    rw [e3 ⟨b, mb, h3⟩ ⟨a, ma, h1⟩,
      second (fun q => q.elim h2 (fun q => q.1 hn)) (Or.inl h3)]
    decide
  · rw [e4 (none_face h2 h3) ⟨a, ma, h4⟩, first (Or.inr ⟨by rw [← hdims]; exact h1, h4⟩)]
    decide
  · rw [e4 (none_face h2 h3) ⟨b, mb, h5⟩,
      second (fun q => q.elim h2 (fun q => h4 q.2)) (Or.inr ⟨by rw [← hdims]; exact h1, h5⟩)]
    decide
  · rw [e5 (none_face h1 h2) (by
      intro d hd
      rw [hdims] at hd
      simp only [List.mem_append, List.mem_cons, List.not_mem_nil, or_false] at hd
      rcases hd with hd | rfl | rfl
      · exact (hlead d hd).2
      · exact h3
      · exact h4)]
    exact if_neg (by decide)

/-- A location that is stated is kept, unless it is just `edge`. -/
theorem C105_stated (p : Pads) (v : NVar α) (s : SVar) (l : Txt) (hl : v.attr "location" = some l)
    (hne : l ≠ "edge".toList) (h : createVariable p v = .ok s) : s.location = some l := by
  obtain ⟨ax, sl, loc, na, dir, q1, q2, q3, q4, q5, rfl⟩ := create_inv h
  simp only [locationOf, hl] at q3
  cases q3
  exact if_neg (fun e => hne (Option.some.inj e))

/-- Non-vacuity: the velocity components of a file whose edges have dimensions of their own, and of
one whose edges share them with faces and nodes. -/
example : let p : Pads := { nodeDims := ["j".toList, "i".toList],
                            face := some [⟨"y".toList, "j".toList, "both".toList⟩,
                              ⟨"x".toList, "i".toList, "both".toList⟩],
                            edge1 := some [⟨"yu".toList, "j".toList, "both".toList⟩],
                            edge2 := some [⟨"xv".toList, "i".toList, "both".toList⟩],
                            vertical := some [⟨"s".toList, "w".toList, "none".toList⟩] }
    let v (dims : List Txt) : NVar Nat :=
      { name := "v".toList, dims := dims, attrs := [("grid".toList, "g".toList)], data := 0 }
    (createVariable p (v ["t".toList, "s".toList, "yu".toList, "xu".toList])).map SVar.location =
      .ok (some "edge1".toList) ∧
    (createVariable p (v ["t".toList, "yv".toList, "xv".toList])).map SVar.location =
      .ok (some "edge2".toList) ∧
    (createVariable p (v ["t".toList, "y".toList, "i".toList])).map SVar.location =
      .ok (some "edge1".toList) ∧
    (createVariable p (v ["y".toList, "x".toList])).map SVar.location =
      .ok (some "face".toList) := by decide +kernel

end C105

/-! ## C106 -/

section C106
variable {α : Type}

theorem join_intercalate : ∀ ws : List Txt, joinSpace ws = List.intercalate [' '] ws
  | [] => rfl
  | [w] => by simp [joinSpace, List.intercalate, List.intersperse]
  | w :: v :: ws => by
    rw [joinSpace, join_intercalate (v :: ws)]
    simp [List.intercalate, List.intersperse]

theorem occurs_iff (w s : Txt) : SText.contains w s = true ↔ Occurs w s := SText.contains_iff w s

theorem find_some {f : File α} {n : Txt} {w : NVar α} (h : f.find n = some w) :
    w ∈ f.vars ∧ w.name = n := by
  unfold File.find at h
  exact ⟨List.mem_of_find?_eq_some h, by simpa using List.find?_some h⟩

theorem find_of_mem {f : File α} {n : Txt} (h : ∃ w ∈ f.vars, w.name = n) :
    ∃ w, f.find n = some w := by
  obtain ⟨w, hw, e⟩ := h
  cases hf : f.find n with
  | some v => exact ⟨v, rfl⟩
  | none =>
    unfold File.find at hf
    rw [List.find?_eq_none] at hf
    exact absurd (by simpa using e) (hf w hw)

theorem find_mem {f : File α} (hd : DistinctNames f) {w : NVar α} (hw : w ∈ f.vars) :
    f.find w.name = some w := by
  obtain ⟨v, hv⟩ := find_of_mem ⟨w, hw, rfl⟩
  obtain ⟨h1, h2⟩ := find_some hv
  rw [hv, eq_of_name hd h1 hw h2]

theorem calls_lon {f : File α} (hd : DistinctNames f) {n : Txt} {w : NVar α}
    (h : f.find n = some w) : calls "lon" "longitude" w = true ↔ IsLonName f n := by
  obtain ⟨hw, rfl⟩ := find_some h
  unfold calls IsLonName
  rw [Bool.or_eq_true, Bool.or_eq_true, occurs_iff, occurs_iff, occurs_iff, or_assoc]
  constructor
  · exact fun q => ⟨w, hw, rfl, q⟩
  · rintro ⟨v, hv, e, q⟩
    have := eq_of_name hd hv hw e
    subst this
    exact q

theorem calls_lat {f : File α} (hd : DistinctNames f) {n : Txt} {w : NVar α}
    (h : f.find n = some w) : calls "lat" "latitude" w = true ↔ IsLatName f n := by
  obtain ⟨hw, rfl⟩ := find_some h
  unfold calls IsLatName
  rw [Bool.or_eq_true, Bool.or_eq_true, occurs_iff, occurs_iff, occurs_iff, or_assoc]
  constructor
  · exact fun q => ⟨w, hw, rfl, q⟩
  · rintro ⟨v, hv, e, q⟩
    have := eq_of_name hd hv hw e
    subst this
    exact q

/-- The loop over names: what is set before is kept where no name counts. -/
theorem namedIn_spec {f : File α} (hd : DistinctNames f) : ∀ (ns : List Txt)
    (xy : Option Txt × Option Txt), (∀ n ∈ ns, ∃ w ∈ f.vars, w.name = n) →
    ∃ r, namedIn f xy ns = .ok r ∧
      ((∀ n ∈ ns, ¬ IsLonName f n) → r.1 = xy.1) ∧
      (∀ pre x post, ns = pre ++ x :: post → IsLonName f x → (∀ n ∈ post, ¬ IsLonName f n) →
        r.1 = some x) ∧
      ((∀ n ∈ ns, IsLonName f n ∨ ¬ IsLatName f n) → r.2 = xy.2) ∧
      (∀ pre y post, ns = pre ++ y :: post → IsLatName f y → ¬ IsLonName f y →
        (∀ n ∈ post, IsLonName f n ∨ ¬ IsLatName f n) → r.2 = some y)
  | [], xy, _ => ⟨xy, rfl, fun _ => rfl, fun pre x post e => by simp at e, fun _ => rfl,
      fun pre x post e => by simp at e⟩
  | n :: ns, xy, h => by
    obtain ⟨w, hw⟩ := find_of_mem (h n (by simp))
    have hlon := calls_lon hd hw
    have hlat := calls_lat hd hw
    obtain ⟨r, hr, h1, h2, h3, h4⟩ := namedIn_spec hd ns
      (if calls "lon" "longitude" w then (some n, xy.2)
        else if calls "lat" "latitude" w then (xy.1, some n) else xy)
      (fun m hm => h m (List.mem_cons_of_mem _ hm))
    refine ⟨r, by rw [namedIn, hw]; exact hr, ?_, ?_, ?_, ?_⟩
    · intro hn
      rw [h1 (fun m hm => hn m (List.mem_cons_of_mem _ hm))]
      have : ¬ calls "lon" "longitude" w = true := fun q => hn n (by simp) (hlon.1 q)
      rw [if_neg this]
      split <;> rfl
    · intro pre x post e hx hpost
      cases pre with
      | nil =>
        simp only [List.nil_append, List.cons.injEq] at e
        obtain ⟨rfl, rfl⟩ := e
        rw [h1 hpost, if_pos (hlon.2 hx)]
      | cons m pre =>
        simp only [List.cons_append, List.cons.injEq] at e
        exact h2 pre x post e.2 hx hpost
    · intro hn
      rw [h3 (fun m hm => hn m (List.mem_cons_of_mem _ hm))]
      split
      · rfl
      · next hq =>
        rcases hn n (by simp) with q | q
        · exact absurd (hlon.2 q) hq
        · rw [if_neg (fun z => q (hlat.1 z))]
    · intro pre y post e hy hny hpost
      cases pre with
      | nil =>
        simp only [List.nil_append, List.cons.injEq] at e
        obtain ⟨rfl, rfl⟩ := e
        rw [h3 hpost, if_neg (fun z => hny (hlon.1 z)), if_pos (hlat.2 hy)]
      | cons m pre =>
        simp only [List.cons_append, List.cons.injEq] at e
        exact h4 pre y post e.2 hy hny hpost

/-- C106. Names separated by single spaces in the description of the grid are the coordinates. -/
theorem C106_stated (f : File α) (t : NVar α) (loc : String) (names : List Txt) (hne : names ≠ [])
    (hs : ∀ n ∈ names, ' ' ∉ n)
    (h : t.attr (loc ++ "_coordinates") = some (List.intercalate [' '] names)) :
    coordinates f t loc = .ok (some names) := by
  unfold coordinates
  rw [h]
  simp only
  rw [← join_intercalate, split_join names hne hs]

theorem at_location (f : File α) (loc : Txt) (v : NVar α) :
    v ∈ atLocation f loc ↔ v ∈ f.vars ∧ v.attrs.lookup "location".toList = some loc := by
  unfold atLocation
  rw [List.mem_filter]
  simp [attr_eq]

theorem exists_names_guess (f : File α) : ∀ (l : List (NVar α)) (xy : Option Txt × Option Txt),
    (∀ w ∈ l, w ∈ f.vars) →
    (∀ n, xy.1 = some n ∨ xy.2 = some n → ∃ w ∈ f.vars, w.name = n) →
    (∀ n, (l.foldl guess xy).1 = some n ∨ (l.foldl guess xy).2 = some n →
      ∃ w ∈ f.vars, w.name = n)
  | [], _, _, h => h
  | w :: l, xy, hl, h => by
    rw [List.foldl_cons]
    apply exists_names_guess f l _ (fun v hv => hl v (List.mem_cons_of_mem _ hv))
    intro n hn
    unfold guess at hn
    split at hn
    · rcases hn with hn | hn
      · cases hn; exact ⟨w, hl w (by simp), rfl⟩
      · exact h n (Or.inr hn)
    · split at hn
      · rcases hn with hn | hn
        · exact h n (Or.inl hn)
        · cases hn; exact ⟨w, hl w (by simp), rfl⟩
      · exact h n hn

theorem exists_names_in (f : File α) : ∀ (ns : List Txt) (xy r : Option Txt × Option Txt),
    namedIn f xy ns = .ok r →
    (∀ n, xy.1 = some n ∨ xy.2 = some n → ∃ w ∈ f.vars, w.name = n) →
    (∀ n, r.1 = some n ∨ r.2 = some n → ∃ w ∈ f.vars, w.name = n)
  | [], _, _, e, h => by cases e; exact h
  | m :: ns, xy, r, e, h => by
    unfold namedIn at e
    split at e
    · cases e
    · next w hw =>
      apply exists_names_in f ns _ r e
      have hm : ∃ w ∈ f.vars, w.name = m := ⟨w, (find_some hw).1, (find_some hw).2⟩
      intro n hn
      split at hn
      · rcases hn with hn | hn
        · cases hn; exact hm
        · exact h n (Or.inr hn)
      · split at hn
        · rcases hn with hn | hn
          · exact h n (Or.inl hn)
          · cases hn; exact hm
        · exact h n hn

theorem exists_names_search (f : File α) : ∀ (vs : List (NVar α)) (xy r : Option Txt × Option Txt),
    searchIn f xy vs = .ok r →
    (∀ n, xy.1 = some n ∨ xy.2 = some n → ∃ w ∈ f.vars, w.name = n) →
    (∀ n, r.1 = some n ∨ r.2 = some n → ∃ w ∈ f.vars, w.name = n)
  | [], _, _, e, h => by cases e; exact h
  | v :: vs, xy, r, e, h => by
    unfold searchIn at e
    split at e
    · exact exists_names_in f _ xy r e h
    · exact exists_names_search f vs _ r e
        (exists_names_guess f _ xy (fun w hw => (List.mem_filter.1 hw).1) h)

/-- Coordinates that are searched for are two variables of the file, or none. -/
theorem C106_exist (f : File α) (loc : Txt) (l : List Txt) (h : byLocation f loc = .ok (some l)) :
    l.length = 2 ∧ ∀ n ∈ l, ∃ w ∈ f.vars, w.name = n := by
  unfold byLocation at h
  split at h
  · cases h
  · next x y e =>
    simp only [Except.ok.injEq, Option.some.injEq] at h
    subst h
    have := exists_names_search f _ _ _ e (by simp)
    refine ⟨rfl, fun n hn => ?_⟩
    simp only [List.mem_cons, List.not_mem_nil, or_false] at hn
    rcases hn with rfl | rfl
    · exact this n (Or.inl rfl)
    · exact this n (Or.inr rfl)
  · cases h

/-- Without a variable that states the location none are found. -/
theorem C106_nothing (f : File α) (loc : Txt)
    (h : ∀ v ∈ f.vars, v.attrs.lookup "location".toList ≠ some loc) : byLocation f loc = .ok none := by
  have : atLocation f loc = [] := by
    apply List.eq_nil_iff_forall_not_mem.2
    intro v hv
    obtain ⟨h1, h2⟩ := (at_location f loc v).1 hv
    exact h v h1 h2
  unfold byLocation
  rw [this]
  rfl

/-- C106, what holds of the search: if the first variable that states the location names its
coordinates, separated by single spaces, all of them in the file, the last that is a longitude and
the last that is a latitude only are found. -/
theorem C106_named_partial (f : File α) (hd : DistinctNames f) (loc : Txt) (before after : List (NVar α))
    (v : NVar α) (hf : f.vars = before ++ v :: after)
    (hb : ∀ u ∈ before, u.attrs.lookup "location".toList ≠ some loc)
    (hv : v.attrs.lookup "location".toList = some loc) (names : List Txt) (hs : ∀ n ∈ names, ' ' ∉ n)
    (c : Txt) (hc : v.attrs.lookup "coordinates".toList = some c)
    (hstrip : SText.strip c = List.intercalate [' '] names)
    (hex : ∀ n ∈ names, ∃ w ∈ f.vars, w.name = n)
    (p1 p2 q1 q2 : List Txt) (x y : Txt) (hx : names = p1 ++ x :: q1) (hy : names = p2 ++ y :: q2)
    (lx : IsLonName f x) (lx' : ∀ n ∈ q1, ¬ IsLonName f n)
    (ly : IsLatName f y) (ly' : ¬ IsLonName f y)
    (ly'' : ∀ n ∈ q2, IsLonName f n ∨ ¬ IsLatName f n) :
    byLocation f loc = .ok (some [x, y]) := by
  have ha : ∃ r, atLocation f loc = v :: r := by
    unfold atLocation
    rw [hf, List.filter_append, List.filter_eq_nil_iff.2, List.nil_append, List.filter_cons,
      if_pos (by rw [attr_eq, hv]; simp)]
    · exact ⟨_, rfl⟩
    · intro u hu
      simpa [attr_eq] using hb u hu
  obtain ⟨r, ha⟩ := ha
  have hne : names ≠ [] := by rw [hx]; simp
  obtain ⟨rr, h0, -, h2, -, h4⟩ := namedIn_spec hd names (none, none) hex
  unfold byLocation
  rw [ha, searchIn, attr_eq, hc]
  simp only
  rw [hstrip, ← join_intercalate, split_join names hne hs, h0]
  have e1 := h2 p1 x q1 hx lx lx'
  have e2 := h4 p2 y q2 hy ly ly' ly''
  obtain ⟨r1, r2⟩ := rr
  simp only at e1 e2
  subst e1 e2
  rfl

theorem named_iff (words : List String) (hw : "" ∉ words) (w : NVar α) :
    SText.named (words.map String.toList) w.seen = true ↔ SaysWord words w := by
  unfold SText.named SaysWord NVar.seen
  simp only [Bool.or_eq_true, List.any_map, List.any_eq_true, Function.comp, occurs_iff, attr_eq]
  constructor
  · rintro (⟨x, hx, h⟩ | ⟨x, hx, h⟩)
    · exact ⟨x, hx, Or.inl h⟩
    · refine ⟨x, hx, Or.inr ?_⟩
      cases hs : w.attrs.lookup "standard_name".toList with
      | some s => rw [hs] at h; exact ⟨s, rfl, h⟩
      | none =>
        rw [hs] at h
        obtain ⟨pre, post, e⟩ := h
        have := congrArg List.length e
        simp only [Option.getD_none, List.map_nil, List.length_nil, List.length_append] at this
        have h0 : x.toList = [] := List.length_eq_zero_iff.1 (by omega)
        exact absurd (by rw [← String.toList_eq_nil_iff.1 h0]; exact hx) hw
  · rintro ⟨x, hx, h | ⟨s, hs, h⟩⟩
    · exact Or.inl ⟨x, hx, h⟩
    · exact Or.inr ⟨x, hx, by rw [hs]; exact h⟩

theorem saysX_iff (w : NVar α) : SText.named SText.xWords w.seen = true ↔ SaysX w :=
  named_iff ["x", "lon", "longitude"] (by decide) w

theorem saysY_iff (w : NVar α) : (SText.named SText.xWords w.seen = false ∧
    SText.named SText.yWords w.seen = true) ↔ SaysY w := by
  unfold SaysY
  rw [← saysX_iff, show SText.named SText.yWords w.seen = true ↔ _ from
    named_iff ["y", "lat", "latitude"] (by decide) w, Bool.not_eq_true]
  exact and_comm

theorem mem_potential (f : File α) (v w : NVar α) :
    w ∈ potential f v ↔ w ∈ f.vars ∧ MayLocate v w := by
  unfold potential MayLocate
  rw [List.mem_filter]
  simp only [Bool.and_eq_true, List.all_eq_true, List.contains_iff_mem, bne_iff_ne, ne_eq,
    Bool.not_eq_true', List.isEmpty_eq_false_iff]
  tauto

/-- What the loop over the candidates leaves. -/
theorem guess_spec : ∀ (l : List (NVar α)) (xy : Option Txt × Option Txt),
    ((∀ w ∈ l, ¬ SaysX w) → (l.foldl guess xy).1 = xy.1) ∧
    ((∀ w ∈ l, ¬ SaysY w) → (l.foldl guess xy).2 = xy.2) ∧
    (∀ pre x post, l = pre ++ x :: post → SaysX x → (∀ w ∈ post, ¬ SaysX w) →
      (l.foldl guess xy).1 = some x.name) ∧
    (∀ pre y post, l = pre ++ y :: post → SaysY y → (∀ w ∈ post, ¬ SaysY w) →
      (l.foldl guess xy).2 = some y.name)
  | [], xy => ⟨fun _ => rfl, fun _ => rfl, fun pre => by cases pre <;> simp,
      fun pre => by cases pre <;> simp⟩
  | w :: l, xy => by
    obtain ⟨h1, h2, h3, h4⟩ := guess_spec l (guess xy w)
    have gx : ¬ SaysX w → (guess xy w).1 = xy.1 := by
      intro h
      unfold guess
      rw [if_neg (fun e => h ((saysX_iff w).1 e))]
      split <;> rfl
    have gy : ¬ SaysY w → (guess xy w).2 = xy.2 := by
      intro h
      unfold guess
      split
      · rfl
      · next e =>
        rw [if_neg (fun e' => h ((saysY_iff w).1 ⟨Bool.not_eq_true _ ▸ e, e'⟩))]
    refine ⟨fun h => ?_, fun h => ?_, fun pre x post e hx hp => ?_, fun pre y post e hy hp => ?_⟩
    · rw [List.foldl_cons, h1 (fun u hu => h u (List.mem_cons_of_mem _ hu)), gx (h w (by simp))]
    · rw [List.foldl_cons, h2 (fun u hu => h u (List.mem_cons_of_mem _ hu)), gy (h w (by simp))]
    · rw [List.foldl_cons]
      cases pre with
      | nil =>
        simp only [List.nil_append, List.cons.injEq] at e
        obtain ⟨rfl, rfl⟩ := e
        rw [h1 hp]
        unfold guess
        rw [if_pos ((saysX_iff _).2 hx)]
      | cons u pre =>
        simp only [List.cons_append, List.cons.injEq] at e
        exact h3 pre x post e.2 hx hp
    · rw [List.foldl_cons]
      cases pre with
      | nil =>
        simp only [List.nil_append, List.cons.injEq] at e
        obtain ⟨rfl, rfl⟩ := e
        rw [h2 hp]
        have := (saysY_iff _).2 hy
        unfold guess
        rw [if_neg (by rw [this.1]; simp), if_pos this.2]
      | cons u pre =>
        simp only [List.cons_append, List.cons.injEq] at e
        exact h4 pre y post e.2 hy hp

theorem split_filter {β : Type} (q : β → Bool) {l pre post : List β} {x : β} (h : l = pre ++ x :: post)
    (hx : q x = true) : l.filter q = pre.filter q ++ x :: post.filter q := by
  rw [h, List.filter_append, List.filter_cons, if_pos hx]

/-- C106, what holds where no coordinates are named: if one variable states the location and names
none, they are the last candidate that says longitude and the last that says latitude and not
longitude, candidates being the other variables on some of its dimensions. -/
theorem C106_guessed_partial (f : File α) (loc : Txt) (before after : List (NVar α))
    (v : NVar α) (hf : f.vars = before ++ v :: after)
    (hb : ∀ u ∈ before ++ after, u.attrs.lookup "location".toList ≠ some loc)
    (hv : v.attrs.lookup "location".toList = some loc)
    (hc : v.attrs.lookup "coordinates".toList = none)
    (p1 p2 q1 q2 : List (NVar α)) (x y : NVar α) (hx : f.vars = p1 ++ x :: q1)
    (hy : f.vars = p2 ++ y :: q2) (cx : MayLocate v x) (cy : MayLocate v y)
    (lx : SaysX x) (lx' : ∀ w ∈ q1, MayLocate v w → ¬ SaysX w)
    (ly : SaysY y) (ly' : ∀ w ∈ q2, MayLocate v w → ¬ SaysY w) :
    byLocation f loc = .ok (some [x.name, y.name]) := by
  have ha : atLocation f loc = [v] := by
    unfold atLocation
    rw [hf, List.filter_append, List.filter_eq_nil_iff.2, List.nil_append, List.filter_cons,
      if_pos (by rw [attr_eq, hv]; simp), List.filter_eq_nil_iff.2]
    · intro u hu
      simpa [attr_eq] using hb u (List.mem_append_right _ hu)
    · intro u hu
      simpa [attr_eq] using hb u (List.mem_append_left _ hu)
  have hm : ∀ w ∈ f.vars, ∀ q : NVar α → Bool, potential f v = f.vars.filter q →
      (q w = true ↔ MayLocate v w) := by
    intro w hw q e
    have := mem_potential f v w
    rw [e, List.mem_filter] at this
    tauto
  obtain ⟨-, -, h3, h4⟩ := guess_spec (potential f v) (none, none)
  have e1 := h3 _ x _ (split_filter _ hx ((hm x (by rw [hx]; simp) _ rfl).2 cx)) lx (by
    intro w hw
    obtain ⟨a, b⟩ := List.mem_filter.1 hw
    exact lx' w a ((hm w (by rw [hx]; simp [a]) _ rfl).1 b))
  have e2 := h4 _ y _ (split_filter _ hy ((hm y (by rw [hy]; simp) _ rfl).2 cy)) ly (by
    intro w hw
    obtain ⟨a, b⟩ := List.mem_filter.1 hw
    exact ly' w a ((hm w (by rw [hy]; simp [a]) _ rfl).1 b))
  unfold byLocation
  rw [ha, searchIn, attr_eq, hc]
  simp only [searchIn]
  cases hg : (potential f v).foldl guess (none, none) with
  | mk r1 r2 =>
    rw [hg] at e1 e2
    simp only at e1 e2
    subst e1 e2
    rfl

/-- Non-vacuity: of three variables called longitude the last on the dimensions is found, not the one
on others. -/
example : let f : File Nat := { dims := [("i".toList, 2), ("j".toList, 2), ("k".toList, 5)], vars := [
      { name := "lon_1".toList, dims := ["j".toList, "i".toList], data := 0 },
      { name := "east".toList, dims := ["i".toList], data := 0,
        attrs := [("standard_name".toList, "Longitude".toList)] },
      { name := "w".toList, dims := ["j".toList, "i".toList],
        attrs := [("location".toList, "edge2".toList)], data := 2 },
      { name := "lat".toList, dims := ["j".toList], data := 0 },
      { name := "lon_k".toList, dims := ["k".toList, "i".toList], data := 0 }] }
    byLocation f "edge2".toList = .ok (some ["east".toList, "lat".toList]) ∧
    (∃ v ∈ f.vars, ∃ x ∈ f.vars, ∃ y ∈ f.vars, v.name = "w".toList ∧ MayLocate v x ∧ MayLocate v y ∧
      SaysX x ∧ SaysY y) := by
  intro f
  have hs : ∀ w : NVar Nat, SText.named SText.xWords w.seen = true → SaysX w := fun w => (saysX_iff w).1
  have hy : ∀ w : NVar Nat, (SText.named SText.xWords w.seen = false ∧
    SText.named SText.yWords w.seen = true) → SaysY w := fun w => (saysY_iff w).1
  refine ⟨by decide +kernel, f.vars[2], by simp [f], f.vars[1], by simp [f], f.vars[3], by simp [f],
    rfl, ?_, ?_, hs _ (by decide +kernel), hy _ (by decide +kernel)⟩
  · refine ⟨?_, ?_, ?_⟩ <;> simp [f]
  · refine ⟨?_, ?_, ?_⟩ <;> simp [f]

/-- C106 as listed, for the search: two different variables. -/
def C106_statement : Prop :=
  ∀ (f : File Nat) (loc : Txt) (x y : Txt), DistinctNames f → byLocation f loc = .ok (some [x, y]) →
    x ≠ y

/-- C106 is false: words are searched in two ways, and `max_lat` is a longitude for its `x` in one
of them, a latitude in the other. -/
theorem C106_refuted : ¬ C106_statement := by
  intro h
  let f : File Nat := { dims := [("i".toList, 2)], vars := [
    { name := "max_lat".toList, dims := ["i".toList], data := 0 },
    { name := "u".toList, dims := ["i".toList], attrs := [("location".toList, "edge1".toList)],
      data := 1 },
    { name := "w".toList, dims := ["i".toList], attrs := [("location".toList, "edge1".toList),
        ("coordinates".toList, "max_lat".toList)], data := 2 }] }
  exact h f "edge1".toList "max_lat".toList "max_lat".toList (by
    simp [DistinctNames, f]) (by decide +kernel) rfl

/-- And two spaces between names are one name too many: `KeyError`. -/
theorem C106_refuted_spaces : ∃ f : File Nat, DistinctNames f ∧
    (∃ v ∈ f.vars, v.attrs.lookup "coordinates".toList = some "lon  lat".toList) ∧
    IsLonName f "lon".toList ∧ IsLatName f "lat".toList ∧
    byLocation f "edge1".toList = .error .keyError := by
  refine ⟨{ dims := [("i".toList, 2)], vars := [
    { name := "lon".toList, dims := ["i".toList], data := 0 },
    { name := "lat".toList, dims := ["i".toList], data := 0 },
    { name := "w".toList, dims := ["i".toList], attrs := [("location".toList, "edge1".toList),
        ("coordinates".toList, "lon  lat".toList)], data := 2 }] }, ?_, ?_, ?_, ?_, ?_⟩
  · simp [DistinctNames]
  · exact ⟨_, List.mem_cons_of_mem _ (List.mem_cons_of_mem _ List.mem_cons_self), rfl⟩
  · exact ⟨_, List.mem_cons_self, rfl, Or.inl ⟨[], [], by decide +kernel⟩⟩
  · exact ⟨_, List.mem_cons_of_mem _ List.mem_cons_self, rfl, Or.inl ⟨[], [], by decide +kernel⟩⟩
  · decide +kernel

/-- Non-vacuity: a variable on the second kind of edges names its coordinates. -/
example : let f : File Nat := { dims := [("i".toList, 2)], vars := [
      { name := "lat_v".toList, dims := ["i".toList], data := 0 },
      { name := "xv".toList, dims := ["i".toList], data := 0,
        attrs := [("standard_name".toList, "Longitude".toList)] },
      { name := "w".toList, dims := ["i".toList], attrs := [("location".toList, "edge2".toList),
          ("coordinates".toList, " lat_v xv".toList)], data := 2 }] }
    byLocation f "edge2".toList = .ok (some ["xv".toList, "lat_v".toList]) ∧
    byLocation f "edge1".toList = .ok none := by decide +kernel

end C106

/-! ## C107 -/

section C107
variable {α : Type}

theorem mem_candidates (f : File α) (v : NVar α) :
    v ∈ maskCandidates f ↔ v ∈ f.vars ∧ CalledMask v := by
  unfold maskCandidates CalledMask
  rw [List.mem_filter, Bool.or_eq_true, occurs_iff, occurs_iff, attr_eq]
  refine and_congr_right fun _ => or_congr_right ?_
  cases hl : v.attrs.lookup "long_name".toList with
  | some s => simp
  | none =>
    simp only [Option.getD_none, reduceCtorEq, false_and, exists_false, iff_false]
    rintro ⟨pre, post, h⟩
    have := congrArg List.length h
    simp at this

/-- C107. The mask of a location is the first variable of the file that is called a mask and has the
shape of the longitudes there. -/
theorem C107_first (f : File α) (lon m : NVar α) :
    maskFor f (some lon) = some m ↔ sizes f lon ≠ [] ∧
      ∃ pre post, f.vars = pre ++ m :: post ∧ CalledMask m ∧ sizes f m = sizes f lon ∧
        ∀ w ∈ pre, ¬ (CalledMask w ∧ sizes f w = sizes f lon) := by
  have hcm : ∀ w : NVar α, (SText.contains "mask".toList w.name ||
      SText.contains "mask".toList ((w.attr "long_name").getD [])) = true ↔ CalledMask w := by
    intro w
    have := mem_candidates (File.mk [] [w]) w
    unfold maskCandidates at this
    rw [List.mem_filter] at this
    simpa using this
  have hs : ∀ v, f.shape v = sizes f v := fun _ => rfl
  unfold maskFor
  simp only [hs]
  by_cases h0 : sizes f lon = []
  · simp [h0]
  · rw [if_neg h0]
    unfold maskCandidates
    rw [List.find?_filter, List.find?_eq_some_iff_append]
    simp only [Bool.and_eq_true, Bool.not_eq_true', Bool.and_eq_false_imp, decide_eq_true_eq, hcm,
      beq_iff_eq]
    constructor
    · rintro ⟨⟨h1, h2⟩, pre, post, h3, h4⟩
      refine ⟨h0, pre, post, h3, h1, h2, fun w hw hq => ?_⟩
      have := h4 w hw
      rw [decide_eq_false_iff_not] at this
      exact this ⟨(hcm w).2 hq.1, by simp [hq.2]⟩
    · rintro ⟨-, pre, post, h3, h1, h2, h4⟩
      refine ⟨⟨h1, h2⟩, pre, post, h3, fun w hw => ?_⟩
      rw [decide_eq_false_iff_not]
      rintro ⟨a, b⟩
      exact h4 w hw ⟨(hcm w).1 a, by simpa using b⟩

/-- None is found exactly when there are no longitudes, they have no dimensions, or nothing that is
called a mask has their shape. -/
theorem C107_none (f : File α) (lon : Option (NVar α)) :
    maskFor f lon = none ↔ ∀ v, lon = some v → sizes f v ≠ [] →
      ∀ w ∈ f.vars, CalledMask w → sizes f w ≠ sizes f v := by
  cases lon with
  | none => simp [maskFor]
  | some v =>
    constructor
    · rintro h u hu hne w hw hc e
      cases hu
      unfold maskFor at h
      simp only [show f.shape = sizes f from rfl, if_neg hne, List.find?_eq_none] at h
      exact h w ((mem_candidates f w).2 ⟨hw, hc⟩) (by simpa using e)
    · intro h
      by_contra hn
      obtain ⟨m, hm⟩ := Option.ne_none_iff_exists'.1 hn
      obtain ⟨h0, pre, post, h3, h1, h2, -⟩ := (C107_first f v m).1 hm
      exact h v rfl h0 m (by rw [h3]; simp) h1 h2

/-- C107 as listed, for the dimensions: the mask is one on the dimensions of the location, where
there is one. -/
def C107_statement : Prop :=
  ∀ (f : File Nat) (lon m : NVar Nat), DistinctNames f → maskFor f (some lon) = some m →
    (∃ w ∈ f.vars, CalledMask w ∧ w.dims = lon.dims) → m.dims = lon.dims

/-- C107 is false: a mask of another location that happens to have the same size is taken, if it
comes first. -/
theorem C107_refuted : ¬ C107_statement := by
  intro h
  let lon : NVar Nat := { name := "lon_u".toList, dims := ["yu".toList, "xu".toList], data := 0 }
  let mr : NVar Nat := { name := "mask_rho".toList, dims := ["y".toList, "x".toList], data := 0 }
  let mu : NVar Nat := { name := "mask_u".toList, dims := ["yu".toList, "xu".toList], data := 0 }
  let f : File Nat := File.mk [("y".toList, 3), ("x".toList, 4), ("yu".toList, 3),
    ("xu".toList, 4)] [mr, mu, lon]
  have hm : maskFor f (some lon) = some mr := rfl
  have := h f lon mr (by simp [DistinctNames, f, lon, mr, mu]) hm ⟨mu, by simp [f],
    Or.inl ⟨[], "_u".toList, rfl⟩, rfl⟩
  exact absurd this (by decide)

/-- C107, what holds: with one size for each list of dimensions of masks, the mask is one on the
dimensions of the longitudes. -/
theorem C107_dims_partial (f : File α) (lon m : NVar α) (h : maskFor f (some lon) = some m)
    (hsize : ∀ w ∈ f.vars, CalledMask w → sizes f w = sizes f lon → w.dims = lon.dims) :
    m ∈ f.vars ∧ m.dims = lon.dims := by
  obtain ⟨-, pre, post, h3, h1, h2, -⟩ := (C107_first f lon m).1 h
  have hm : m ∈ f.vars := by rw [h3]; simp
  exact ⟨hm, hsize m hm h1 h2⟩

/-- Non-vacuity: masks of two locations, found by the long name and by the name. -/
example : let lon : NVar Nat := { name := "lon_u".toList, dims := ["yu".toList, "xu".toList], data := 0 }
    let f : File Nat := { dims := [("y".toList, 3), ("x".toList, 4), ("yu".toList, 3),
        ("xu".toList, 5)], vars := [
      { name := "mask_rho".toList, dims := ["y".toList, "x".toList], data := 0 },
      { name := "wet".toList, dims := ["yu".toList, "xu".toList], data := 0,
        attrs := [("long_name".toList, "land mask on u points".toList)] }, lon] }
    (maskFor f (some lon)).map NVar.name = some "wet".toList ∧
    (maskFor f none).map NVar.name = none := by decide +kernel

end C107

/-! ## C109 -/

section C109
variable {β : Type}

theorem arrayEqual_iff (same : β → β → Bool) (a b : Field β) : arrayEqual same a b = true ↔
    (a = none ∧ b = none) ∨ ∃ s x y, a = some (s, x) ∧ b = some (s, y) ∧
      List.Forall₂ (fun u v => same u v = true) x y := by
  cases a with
  | none =>
    cases b with
    | none => simp [arrayEqual]
    | some b => simp [arrayEqual]
  | some a =>
    cases b with
    | none => simp [arrayEqual]
    | some b =>
      obtain ⟨s, x⟩ := a
      obtain ⟨s', y⟩ := b
      simp only [arrayEqual, Bool.and_eq_true, decide_eq_true_eq, List.all_eq_true, reduceCtorEq,
        false_and, false_or, Option.some.injEq, Prod.mk.injEq]
      constructor
      · rintro ⟨⟨rfl, hl⟩, hall⟩
        exact ⟨s, x, y, ⟨rfl, rfl⟩, ⟨rfl, rfl⟩,
          List.forall₂_iff_zip.2 ⟨hl, fun {a b} hab => hall (a, b) hab⟩⟩
      · rintro ⟨s0, x0, y0, ⟨rfl, rfl⟩, ⟨rfl, rfl⟩, h⟩
        obtain ⟨hl, hall⟩ := List.forall₂_iff_zip.1 h
        exact ⟨⟨rfl, hl⟩, fun q hq => hall hq⟩

/-- The six arrays that are compared. -/
def compared (g : Parts β) : List (Field β) :=
  [g.nodeLon, g.nodeLat, g.nodeMask, g.centerLon, g.centerLat, g.centerMask]

/-- C109. Two grids are equal exactly when they are the same object, or are of the same class with
the same shapes and values of node and center coordinates and masks, and the same face paddings. -/
theorem C109_equal (same : β → β → Bool) (identical : Bool) (c c' : String) (g h : Parts β) :
    eqGrid same identical c c' g h = true ↔ identical = true ∨ (c = c' ∧
      List.Forall₂ (fun a b => (a = none ∧ b = none) ∨ ∃ s x y, a = some (s, x) ∧ b = some (s, y) ∧
        List.Forall₂ (fun u v => same u v = true) x y) (compared g) (compared h) ∧
      g.facePadding = h.facePadding) := by
  unfold eqGrid
  cases identical with
  | true => simp
  | false =>
    by_cases hc : c = c'
    · simp only [Bool.false_eq_true, if_false, hc, ne_eq, not_true_eq_false, false_or, true_and,
        Bool.and_eq_true, decide_eq_true_eq, compared, List.forall₂_cons, List.Forall₂.nil,
        ← arrayEqual_iff, and_true]
      tauto
    · simp [hc]

theorem arrayEqual_symm (same : β → β → Bool) (hs : ∀ x y, same x y = same y x) (a b : Field β)
    (h : arrayEqual same a b = true) : arrayEqual same b a = true := by
  rw [arrayEqual_iff] at h ⊢
  rcases h with ⟨h1, h2⟩ | ⟨s, x, y, h1, h2, h3⟩
  · exact Or.inl ⟨h2, h1⟩
  · refine Or.inr ⟨s, y, x, h2, h1, ?_⟩
    have := h3.flip
    exact this.imp (fun u v (q : same v u = true) => (by rw [hs]; exact q))

/-- Equality is symmetric. -/
theorem C109_symmetric (same : β → β → Bool) (hs : ∀ x y, same x y = same y x) (identical : Bool)
    (c c' : String) (g h : Parts β) :
    eqGrid same identical c c' g h = eqGrid same identical c' c h g := by
  have half : ∀ (c c' : String) (g h : Parts β), eqGrid same identical c c' g h = true →
      eqGrid same identical c' c h g = true := by
    intro c c' g h e
    unfold eqGrid at e ⊢
    split
    · rfl
    · next hi =>
      rw [if_neg hi] at e
      by_cases hc : c = c'
      · subst hc
        simp only [ne_eq, not_true_eq_false, if_false, Bool.and_eq_true, decide_eq_true_eq] at e ⊢
        obtain ⟨⟨⟨⟨⟨⟨e1, e2⟩, e3⟩, e4⟩, e5⟩, e6⟩, e7⟩ := e
        exact ⟨⟨⟨⟨⟨⟨arrayEqual_symm same hs _ _ e1, arrayEqual_symm same hs _ _ e2⟩,
          arrayEqual_symm same hs _ _ e3⟩, arrayEqual_symm same hs _ _ e4⟩,
          arrayEqual_symm same hs _ _ e5⟩, arrayEqual_symm same hs _ _ e6⟩, e7.symm⟩
      · rw [if_pos hc] at e; cases e
  rw [Bool.eq_iff_iff]
  exact ⟨half c c' g h, half c' c h g⟩

/-- C109 as listed: a grid is equal to a copy of itself, and grids that are equal have the same
coordinates everywhere. -/
def C109_statement : Prop :=
  ∀ (same : Option Nat → Option Nat → Bool),
    (∀ x y, same x y = true ↔ x = y ∧ x ≠ none) → ∀ (c : String) (g h : Parts (Option Nat)),
      eqGrid same false c c g g = true ∧
      (eqGrid same false c c g h = true → g.edge1Lon = h.edge1Lon)

/-- C109 is false: a missing value (NaN) makes a grid different from its own copy. -/
theorem C109_refuted : ¬ C109_statement := by
  intro h
  have := (h (fun x y => decide (x = y ∧ x ≠ none)) (by simp) "SGrid"
    { nodeLon := some ([1], [none]) } {}).1
  exact absurd this (by decide)

/-- And the coordinates of the edges are not looked at. -/
theorem C109_refuted_edges : ∃ g h : Parts Nat, g.edge1Lon ≠ h.edge1Lon ∧
    g.edge2Padding ≠ h.edge2Padding ∧ eqGrid (fun x y => x == y) false "SGrid" "SGrid" g h = true :=
  ⟨{ nodeLon := some ([1], [0]), edge1Lon := some ([1], [5]) },
    { nodeLon := some ([1], [0]), edge2Padding := (none, some "low".toList) },
    by decide, by decide +kernel, by decide +kernel⟩

/-- C109, what holds: where every value compared equals itself, a copy is equal. -/
theorem C109_copy_partial (same : β → β → Bool) (c : String) (g : Parts β)
    (h : ∀ s x, some (s, x) ∈ compared g → ∀ u ∈ x, same u u = true) :
    eqGrid same false c c g g = true := by
  have key : ∀ a ∈ compared g, arrayEqual same a a = true := by
    intro a ha
    rw [arrayEqual_iff]
    cases a with
    | none => exact Or.inl ⟨rfl, rfl⟩
    | some a =>
      refine Or.inr ⟨a.1, a.2, a.2, rfl, rfl, ?_⟩
      rw [List.forall₂_same]
      exact h a.1 a.2 ha
  simp only [compared, List.mem_cons, List.not_mem_nil, or_false] at key
  simp [eqGrid, key]

/-- Non-vacuity: equal and different values, shapes and classes. -/
example : let g : Parts Nat := { nodeLon := some ([1, 2], [3, 4]) }
    eqGrid (· == ·) false "SGrid" "SGrid" g g = true ∧
    eqGrid (· == ·) false "SGrid" "Grid_S" g g = false ∧
    eqGrid (· == ·) false "SGrid" "SGrid" g { nodeLon := some ([1, 2], [3, 5]) } = false ∧
    eqGrid (· == ·) false "SGrid" "SGrid" g { nodeLon := some ([2], [3, 4]) } = false ∧
    eqGrid (· == ·) false "SGrid" "SGrid" g {} = false := by decide +kernel

end C109
end Verif
