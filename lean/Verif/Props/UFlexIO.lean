import Verif.Model.UFlexIO
import Verif.Props.UIO
import Verif.Props.UState

/-!
# C212 to C214: flexible meshes saved, loaded and compared, and the centers of their faces
-/

set_option autoImplicit false

namespace Verif
open UFlexIO

/-- What a masked table says: the nodes of every face, nothing where it is masked. -/
def facesSeen (t : List (List Entry)) : List (List (Option Int)) :=
  t.map (fun r => r.map (fun e => if e.masked then none else some e.value))

/-- A table a mesh of `n` nodes can have: rows of one positive length, entries that are not masked name
nodes, and one of them is there. -/
def ProperTable (n : Nat) (t : List (List Entry)) : Prop :=
  (∃ nv, 0 < nv ∧ ∀ r ∈ t, r.length = nv) ∧
    (∀ r ∈ t, ∀ e ∈ r, e.masked = false → 0 ≤ e.value ∧ e.value < n) ∧
    ∃ r ∈ t, ∃ e ∈ r, e.masked = false

/-! ## C212 -/

/-- C212 as stated: a saved mesh is loaded with the same faces. -/
def C212_statement : Prop :=
  ∀ (n : Nat) (t : List (List Entry)), ProperTable n t →
    ∃ t', load n (write t) = .ok t' ∧ facesSeen t' = facesSeen t

theorem readVar_write (t : List (List Entry))
    (h : ∀ r ∈ t, ∀ e ∈ r, e.masked = false → 0 ≤ e.value) :
    readVar (write t) = t.map (fun r => r.map (fun e => if e.masked then ⟨fill, true⟩ else e)) := by
  simp only [readVar, write, List.map_map]
  refine List.map_congr_left fun r hr => ?_
  simp only [Function.comp, List.map_map]
  refine List.map_congr_left fun e he => ?_
  have := h r hr e he
  obtain ⟨v, m⟩ := e
  cases m with
  | true => simp
  | false =>
    have h0 : 0 ≤ v := this rfl
    have : v ≠ fill := by unfold fill; omega
    simp [this]

theorem foldl_max_lt (l : List Int) (x b : Int) (hx : x < b) (h : ∀ y ∈ l, y < b) :
    l.foldl max x < b := by
  induction l generalizing x with
  | nil => exact hx
  | cons y l ih =>
    exact ih _ (max_lt hx (h y (by simp))) fun z hz => h z (by simp [hz])

theorem le_foldl_min (l : List Int) (x b : Int) (hx : b ≤ x) (h : ∀ y ∈ l, b ≤ y) :
    b ≤ l.foldl min x := by
  induction l generalizing x with
  | nil => exact hx
  | cons y l ih =>
    exact ih _ (le_min hx (h y (by simp))) fun z hz => h z (by simp [hz])

/-- The setter keeps a table whose visible entries name nodes. -/
theorem setFaces_keeps (n : Nat) (t : List (List Entry)) (hne : t.flatten ≠ [])
    (h : ∀ v ∈ seen t, 0 ≤ v ∧ v < n) : UFlexIO.setFaces n t = .ok t := by
  unfold UFlexIO.setFaces
  rw [if_neg hne]
  cases hs : seen t with
  | nil => rfl
  | cons x xs =>
    rw [hs] at h
    have h1 : xs.foldl max x < n := foldl_max_lt xs x n (h x (by simp)).2 fun y hy => (h y (by simp [hy])).2
    have h2 : 0 ≤ xs.foldl min x := le_foldl_min xs x 0 (h x (by simp)).1 fun y hy => (h y (by simp [hy])).1
    simp only [UTopo.maxL, UTopo.minL]
    rw [if_neg (by omega), if_neg (by omega), if_neg (by omega)]

/-- What is loaded from a saved mesh that does not have three faces. -/
theorem load_write (n : Nat) (t : List (List Entry)) (h : ProperTable n t) (h3 : t.length ≠ 3) :
    UFlexIO.load n (write t) =
      .ok (t.map (fun r => r.map (fun e => if e.masked then ⟨fill, true⟩ else e))) := by
  obtain ⟨-, hv, r, hr, e, he, -⟩ := h
  unfold UFlexIO.load
  rw [readVar_write t fun r hr e he hm => (hv r hr e he hm).1]
  simp only [List.length_map, if_neg h3]
  refine setFaces_keeps n _ ?_ ?_
  · intro hc
    rw [List.flatten_eq_nil_iff] at hc
    have := hc _ (List.mem_map_of_mem hr)
    rw [List.map_eq_nil_iff] at this
    rw [this] at he
    cases he
  · intro v hm
    simp only [seen, List.mem_filterMap, List.mem_flatten, List.mem_map] at hm
    obtain ⟨e', ⟨_, ⟨r', hr', rfl⟩, he'⟩, hs⟩ := hm
    rw [List.mem_map] at he'
    obtain ⟨e, he, rfl⟩ := he'
    cases hmk : e.masked with
    | true => simp [hmk] at hs
    | false =>
      simp [hmk] at hs
      rw [← hs]
      exact hv r' hr' e he hmk

/-- C212 for meshes that do not have exactly three faces; those are turned on their side, see
`C212_refuted`. -/
theorem C212_partial (n : Nat) (t : List (List Entry)) (h : ProperTable n t) (h3 : t.length ≠ 3) :
    ∃ t', UFlexIO.load n (write t) = .ok t' ∧ facesSeen t' = facesSeen t := by
  refine ⟨_, load_write n t h h3, ?_⟩
  simp only [facesSeen, List.map_map]
  refine List.map_congr_left fun r _ => ?_
  simp only [Function.comp, List.map_map]
  refine List.map_congr_left fun e _ => ?_
  cases hm : e.masked <;> simp [hm]

/-- Three faces, one a quadrilateral. -/
def exThreeM : List (List Entry) :=
  [[⟨0, false⟩, ⟨1, false⟩, ⟨2, false⟩, ⟨3, false⟩], [⟨1, false⟩, ⟨4, false⟩, ⟨2, false⟩, ⟨-1, true⟩],
    [⟨2, false⟩, ⟨4, false⟩, ⟨5, false⟩, ⟨-1, true⟩]]

theorem exThreeM_proper : ProperTable 6 exThreeM :=
  ⟨⟨4, by decide, by decide⟩, by decide, by decide⟩

/-- C212 is false: three faces of at most four nodes come back as four faces of three. -/
theorem C212_refuted : ¬ C212_statement := by
  intro h
  obtain ⟨t', h1, h2⟩ := h 6 exThreeM exThreeM_proper
  have e : UFlexIO.load 6 (write exThreeM) = .ok (transpose (readVar (write exThreeM))) := by decide +kernel
  rw [e] at h1
  cases h1
  exact absurd h2 (by decide +kernel)

example : ProperTable 5 (exThreeM.take 2) ∧ (exThreeM.take 2).length ≠ 3 :=
  ⟨⟨⟨4, by decide, by decide⟩, by decide, by decide⟩, by decide⟩

/-! ## C213 -/

/-- C213 as stated: meshes are equal exactly if they have the same nodes, faces and
boundaries. -/
def C213_statement (K : Type) [DecidableEq K] : Prop :=
  ∀ g g' : Mesh K, eqMesh g g' = true ↔
    g.nodes = g'.nodes ∧ facesSeen g.faces = facesSeen g'.faces ∧ g.boundaries = g'.boundaries

variable {K : Type} [DecidableEq K]

/-- For tables that are masked in the same places, with the same numbers under the mask, such as -1. -/
theorem plain_seen (t t' : List (List Entry)) (b : Int)
    (h : ∀ r ∈ t, ∀ e ∈ r, e.masked = decide (e.value = b))
    (h' : ∀ r ∈ t', ∀ e ∈ r, e.masked = decide (e.value = b)) :
    plain t = plain t' ↔ facesSeen t = facesSeen t' := by
  have up : ∀ s : List (List Entry), (∀ r ∈ s, ∀ e ∈ r, e.masked = decide (e.value = b)) →
      facesSeen s = (plain s).map (fun r => r.map (fun v => if v = b then none else some v)) := by
    intro s hs
    simp only [facesSeen, plain, List.map_map]
    refine List.map_congr_left fun r hr => ?_
    simp only [Function.comp, List.map_map]
    refine List.map_congr_left fun e he => ?_
    simp [hs r hr e he]
  have down : ∀ s : List (List Entry), (∀ r ∈ s, ∀ e ∈ r, e.masked = decide (e.value = b)) →
      plain s = (facesSeen s).map (fun r => r.map (fun o => o.getD b)) := by
    intro s hs
    simp only [facesSeen, plain, List.map_map]
    refine List.map_congr_left fun r hr => ?_
    simp only [Function.comp, List.map_map]
    refine List.map_congr_left fun e he => ?_
    by_cases hb : e.value = b <;> simp [hs r hr e he, hb]
  constructor
  · intro e
    rw [up t h, up t' h', e]
  · intro e
    rw [down t h, down t' h', e]

/-- C213 for meshes that keep one number `b` under every mask and nowhere else; without that it fails in
both directions, see `C213_refuted` and `C213_mask_ignored`. -/
theorem C213_partial (g g' : Mesh K) (b : Int)
    (h : ∀ r ∈ g.faces, ∀ e ∈ r, e.masked = decide (e.value = b))
    (h' : ∀ r ∈ g'.faces, ∀ e ∈ r, e.masked = decide (e.value = b)) :
    eqMesh g g' = true ↔
      g.nodes = g'.nodes ∧ facesSeen g.faces = facesSeen g'.faces ∧ g.boundaries = g'.boundaries := by
  unfold eqMesh
  rw [Bool.and_eq_true, Bool.and_eq_true, decide_eq_true_eq, decide_eq_true_eq, decide_eq_true_eq,
    plain_seen g.faces g'.faces b h h', and_assoc]

/-- C213, what happens instead: the mask does not count. Every masked table is equal to the one with the
same numbers and any other mask. -/
theorem C213_mask_ignored (g : Mesh K) (m : Entry → Bool) :
    eqMesh g { g with faces := g.faces.map (fun r => r.map (fun e => { e with masked := m e })) } = true := by
  simp [eqMesh, plain, Function.comp_def]

/-- C213, what happens instead: a mesh with a masked entry differs from what is loaded from its own file,
unless the number under the mask is the fill value of the file. -/
theorem C213_saved (g : Mesh K) (t' : List (List Entry)) (hp : ProperTable g.nodes.length g.faces)
    (h3 : g.faces.length ≠ 3) (hl : UFlexIO.load g.nodes.length (write g.faces) = .ok t')
    (r : List Entry) (hr : r ∈ g.faces) (e : Entry) (he : e ∈ r) (hm : e.masked = true)
    (hv : e.value ≠ fill) :
    facesSeen t' = facesSeen g.faces ∧ eqMesh g { g with faces := t' } = false := by
  obtain ⟨t, h1, h2⟩ := C212_partial _ _ hp h3
  rw [hl] at h1
  cases h1
  refine ⟨h2, ?_⟩
  rw [load_write _ _ hp h3] at hl
  cases hl
  rw [Bool.eq_false_iff]
  intro hc
  unfold eqMesh at hc
  rw [Bool.and_eq_true, Bool.and_eq_true, decide_eq_true_eq, decide_eq_true_eq] at hc
  have hf := hc.1.2
  simp only [plain, List.map_map] at hf
  have hrow := (List.map_inj_left.mp hf) r hr
  simp only [Function.comp, List.map_map] at hrow
  have hent := (List.map_inj_left.mp hrow) e he
  simp only [Function.comp, hm, if_true] at hent
  exact hv hent

/-- A triangle in a table of four columns. -/
def exPadded : Mesh ℚ :=
  { nodes := [(0, 0), (1, 0), (1, 1)], faces := [[⟨0, false⟩, ⟨1, false⟩, ⟨2, false⟩, ⟨-1, true⟩]],
    boundaries := none }

/-- C213 is false: equal faces, but other numbers under the mask. -/
theorem C213_refuted : ¬ C213_statement ℚ := by
  intro h
  have := (h exPadded { exPadded with
    faces := [[⟨0, false⟩, ⟨1, false⟩, ⟨2, false⟩, ⟨0, true⟩]] }).mpr (by decide +kernel)
  exact absurd this (by decide +kernel)

example : ProperTable exPadded.nodes.length exPadded.faces ∧ exPadded.faces.length ≠ 3 ∧
    (∀ r ∈ exPadded.faces, ∀ e ∈ r, e.masked = decide (e.value = -1)) ∧
    ∃ r ∈ exPadded.faces, ∃ e ∈ r, e.masked = true ∧ e.value ≠ fill :=
  ⟨⟨⟨4, by decide, by decide⟩, by decide, by decide⟩, by decide, by decide, by decide⟩

/-- A triangle and the quadrilateral of the same numbers are equal. -/
example : eqMesh { exPadded with faces := [[⟨0, false⟩, ⟨1, false⟩, ⟨2, false⟩, ⟨0, true⟩]] }
    { exPadded with faces := [[⟨0, false⟩, ⟨1, false⟩, ⟨2, false⟩, ⟨0, false⟩]] } = true := by
  decide +kernel

/-! ## C214 -/

/-- The points `ps` are the nodes of a face, in order. -/
def NodesSeen {K : Type} (nodes : List (K × K)) (row : List Entry) (ps : List (K × K)) : Prop :=
  List.Forall₂ (fun e p => Spec.NodeAt nodes e.value p) (row.filter (fun e => !e.masked)) ps

/-- C214 as stated: the centers are the averages of the nodes of each face. -/
def C214_statement : Prop :=
  ∀ g : Mesh ℚ, ProperTable g.nodes.length g.faces → (∀ r ∈ g.faces, ∃ e ∈ r, e.masked = false) →
    ∃ c, buildCenters g = .ok c ∧
      List.Forall₂ (fun row p => ∃ ps, NodesSeen g.nodes row ps ∧ Spec.AverageOf ps p) g.faces c

section
variable {K : Type} [Field K] [LinearOrder K] [IsStrictOrderedRing K]

/-- C214 for tables without masked entries. Missing: any masked entry, whose number counts as a node, see
`C214_refuted` and `C214_loaded`. -/
theorem C214_partial (g : Mesh K) (hp : ProperTable g.nodes.length g.faces)
    (hm : ∀ r ∈ g.faces, ∀ e ∈ r, e.masked = false) :
    ∃ c, buildCenters g = .ok c ∧
      List.Forall₂ (fun row p => ∃ ps, NodesSeen g.nodes row ps ∧ Spec.AverageOf ps p) g.faces c := by
  obtain ⟨⟨nv, hnv, hw⟩, hv, -⟩ := hp
  obtain ⟨c, hc, hf⟩ := C95_average_partial g.nodes (plain g.faces) (by
    intro r hr
    simp only [plain, List.mem_map] at hr
    obtain ⟨r, hr, rfl⟩ := hr
    refine ⟨?_, ?_⟩
    · intro h
      have h0 := congrArg List.length h
      have := hw r hr
      simp only [List.length_map, List.length_nil] at h0
      omega
    · intro i hi
      rw [List.mem_map] at hi
      obtain ⟨e, he, rfl⟩ := hi
      exact hv r hr e he (hm r hr e he))
  refine ⟨c, hc, ?_⟩
  unfold plain at hf
  rw [List.forall₂_map_left_iff] at hf
  rw [List.forall₂_iff_get] at hf ⊢
  refine ⟨hf.1, fun i h1 h2 => ?_⟩
  obtain ⟨ps, hn, ha⟩ := hf.2 i h1 h2
  have hr : g.faces.get ⟨i, h1⟩ ∈ g.faces := List.get_mem _ _
  refine ⟨ps, ?_, ha⟩
  unfold Spec.NodesOf at hn
  unfold NodesSeen
  rw [List.filter_eq_self.2] at hn
  · rw [List.forall₂_map_left_iff] at hn
    rw [List.filter_eq_self.2]
    · exact hn
    · intro e he
      simp [hm _ hr e he]
  · intro v hvm
    rw [List.mem_map] at hvm
    obtain ⟨e, he, rfl⟩ := hvm
    have := (hv _ hr e he (hm _ hr e he)).1
    simp
    omega

/-- C214, what happens instead: a number under a mask that is no index raises `IndexError`. -/
theorem C214_hidden (g : Mesh K) (r : List Entry) (hr : r ∈ g.faces) (e : Entry) (he : e ∈ r)
    (hb : (g.nodes.length : Int) ≤ e.value ∨ e.value < -(g.nodes.length : Int)) :
    buildCenters g = .error .indexError :=
  C95_bad_index g.nodes (r.map Entry.value) (plain g.faces) e.value (List.mem_map_of_mem hr)
    (List.mem_map_of_mem he) hb

/-- C214, what happens instead: for every mesh that is loaded from a saved file, and has a masked entry,
the centers cannot be built. -/
theorem C214_loaded (g : Mesh K) (t' : List (List Entry)) (hp : ProperTable g.nodes.length g.faces)
    (h3 : g.faces.length ≠ 3) (hl : UFlexIO.load g.nodes.length (write g.faces) = .ok t')
    (r : List Entry) (hr : r ∈ g.faces) (e : Entry) (he : e ∈ r) (hm : e.masked = true)
    (hn : g.nodes.length < 2147483647) :
    buildCenters { g with faces := t' } = .error .indexError := by
  rw [load_write _ _ hp h3] at hl
  cases hl
  refine C214_hidden _ _ (List.mem_map_of_mem hr) ⟨fill, true⟩ ?_ (Or.inr ?_)
  · rw [List.mem_map]
    exact ⟨e, he, by rw [hm]; rfl⟩
  · simp only [fill]
    omega

end

/-- A triangle with the number of the last node under its mask. -/
def exHidden : Mesh ℚ :=
  { nodes := [(0, 0), (3, 0), (0, 3), (9, 9)],
    faces := [[⟨0, false⟩, ⟨1, false⟩, ⟨2, false⟩, ⟨-1, true⟩]], boundaries := none }

/-- C214 is false: the number under the mask of a triangle counts as a fourth node. -/
theorem C214_refuted : ¬ C214_statement := by
  intro h
  obtain ⟨c, hc, hf⟩ := h exHidden ⟨⟨4, by decide, by decide⟩, by decide, by decide⟩ (by decide)
  have hm : buildCenters exHidden = .ok [(3, 3)] := by decide +kernel
  rw [hm] at hc
  cases hc
  cases hf with
  | cons h1 _ =>
    obtain ⟨ps, hp, ha, _⟩ := h1
    have hrow : ([⟨0, false⟩, ⟨1, false⟩, ⟨2, false⟩, ⟨-1, true⟩] : List Entry).filter
      (fun e => !e.masked) = [⟨0, false⟩, ⟨1, false⟩, ⟨2, false⟩] := by decide
    unfold NodesSeen at hp
    rw [hrow] at hp
    cases hp with
    | cons a hp =>
      cases hp with
      | cons b hp =>
        cases hp with
        | cons c hp =>
          cases hp
          obtain ⟨n1, e1, g1⟩ := a
          obtain ⟨n2, e2, g2⟩ := b
          obtain ⟨n3, e3, g3⟩ := c
          have : n1 = 0 := by simp only at e1; omega
          have : n2 = 1 := by simp only at e2; omega
          have : n3 = 2 := by simp only at e3; omega
          subst n1 n2 n3
          simp only [exHidden, List.getElem?_cons_zero, List.getElem?_cons_succ, Option.some.injEq] at g1 g2 g3
          subst g1 g2 g3
          norm_num at ha

/-- The mesh of one padded triangle, saved and loaded. -/
example : UFlexIO.load exPadded.nodes.length (write exPadded.faces) =
      .ok [[⟨0, false⟩, ⟨1, false⟩, ⟨2, false⟩, ⟨fill, true⟩]] ∧
    buildCenters { exPadded with faces := [[⟨0, false⟩, ⟨1, false⟩, ⟨2, false⟩, ⟨fill, true⟩]] } =
      .error .indexError ∧
    buildCenters { exPadded with faces := [[⟨0, false⟩, ⟨1, false⟩, ⟨2, false⟩]] } =
      .ok [(2 / 3, 1 / 3)] := by
  decide +kernel

end Verif
