import Verif.Props.UWeights
import Verif.Props.At

/-!
# C209: data on the nodes of meshes whose faces are not triangles
-/

set_option autoImplicit false

namespace Verif
open UGeom Spec
open UWeights (Op Out act after new)

section C209

/-- The point lies in face `i`, a polygon: it is a mean of the nodes of the face, with weights that are
not negative. -/
def InFace {K : Type} [Field K] [LinearOrder K] (m : Mesh K) (i : Int) (pt : K × K) : Prop :=
  0 ≤ i ∧ ∃ (row : List Int) (ps : List (K × K)) (ws : List K),
    Np.pyGet m.faces i = .ok row ∧ 3 ≤ row.length ∧ DepthM.mapE (Np.pyGet m.nodes) row = .ok ps ∧
    ws.length = ps.length ∧ (∀ w ∈ ws, 0 ≤ w) ∧ ws.sum = 1 ∧
    (ps.zipWith (fun p w => w * p.1) ws).sum = pt.1 ∧ (ps.zipWith (fun p w => w * p.2) ws).sum = pt.2

/-- No three successive nodes of a face are on a line. -/
def ProperFaces {K : Type} [Field K] [LinearOrder K] (m : Mesh K) : Prop :=
  ∀ row ∈ m.faces, ∀ (k : Nat) (a b c : Int) (p q r : K × K), row[k]? = some a → row[k + 1]? = some b →
    row[k + 2]? = some c → Np.pyGet m.nodes a = .ok p → Np.pyGet m.nodes b = .ok q →
    Np.pyGet m.nodes c = .ok r → ProperTriangle p q r

/-- C209 as stated: data on the nodes, asked at points of faces, give values within the range of the
data, whatever was asked before. -/
def C209_statement (nv : Nat) : Prop :=
  ∀ (celltree : Mesh ℚ → List (ℚ × ℚ) → List Int) (eps : ℚ) (m : Mesh ℚ) (h : List (Op ℚ))
    (data : List (Option ℚ)) (pts : List (ℚ × ℚ)) (copy memo : Bool) (lo hi : ℚ),
    (∀ o ∈ h, Usual o) → (∀ row ∈ m.faces, row.length = nv) → ProperFaces m →
    (celltree m pts).length = pts.length → (∀ q ∈ (celltree m pts).zip pts, InFace m q.1 q.2) →
    SliceWithin m lo hi data →
    ∃ vs, (act celltree eps (after celltree eps (new m) h) (.interpolate .node data pts copy memo)).2
        = .values (.ok (some vs)) ∧ vs.length = pts.length ∧
      ∀ v ∈ vs, ∃ x, v = some x ∧ lo ≤ x ∧ x ≤ hi

variable {K : Type} [Field K] [LinearOrder K] (celltree : Mesh K → List (K × K) → List Int) (eps : K)

theorem pyGet_in {α : Type} {l : List α} {i : Int} {x : α} (h : Np.pyGet l i = .ok x) : x ∈ l :=
  UGeom.pyGet_mem h

theorem corners_refused (m : Mesh K) (hm : ∀ row ∈ m.faces, row.length ≠ 3) (data : List (Option K))
    (i : Int) : ∃ e, UWeights.corners m data i = .error e := by
  unfold UWeights.corners
  split
  · exact ⟨_, rfl⟩
  · rename_i a b c hf
    exact absurd rfl (hm _ (pyGet_in hf))
  · exact ⟨_, rfl⟩

/-- C209, faces that are not triangles. Whatever the grid has been asked before and remembers, and
wherever the points are found, data on the nodes are refused. -/
theorem C209_refused (g : UWeights.Grid K) (hm : ∀ row ∈ g.loc.mesh.faces, row.length ≠ 3)
    (data : List (Option K)) (pts : List (K × K)) (copy memo : Bool) (is : List Int) (hi : is ≠ [])
    (hf : (Locate.locate celltree eps g.loc pts .celltree copy).2 = .ok is) :
    ∃ e, (act celltree eps g (.interpolate .node data pts copy memo)).2 = .values (.error e) := by
  obtain ⟨i, is, rfl⟩ := List.exists_cons_of_ne_nil hi
  simp only [act, UWeights.interpolateVar, hf, Out.values.injEq]
  cases hr : (UWeights.interpolationAlphas celltree eps
      { g with loc := (Locate.locate celltree eps g.loc pts .celltree copy).1 } pts (some (i :: is)) copy
      memo).2 with
  | error e => exact ⟨e, rfl⟩
  | ok ws =>
    simp only
    rw [alphas_mesh]
    simp only [locate_mesh]
    obtain ⟨e, he⟩ := corners_refused g.loc.mesh hm data i
    simp only [DepthM.mapE, he]
    exact ⟨e, rfl⟩

/-- And so are questions for the weights of points in given faces, on a grid that does not remember the
points. -/
theorem C209_weights_refused (g : UWeights.Grid K) (hm : ∀ row ∈ g.loc.mesh.faces, row.length ≠ 3)
    (is : List Int) (pts : List (K × K)) (copy memo : Bool) (hl : is.length = pts.length) (hp : pts ≠ [])
    (hk : Cache.lookup g.weights pts = none) :
    ∃ e, (act celltree eps g (.weigh pts (some is) copy memo)).2 = .weights (.error e) := by
  obtain ⟨p, pts, rfl⟩ := List.exists_cons_of_ne_nil hp
  match is, hl with
  | i :: is, hl =>
    have hw : ∃ e, UWeights.weigh g.loc.mesh i p = .error e := by
      unfold UWeights.weigh
      split
      · exact ⟨_, rfl⟩
      · rename_i a b c hf
        exact absurd rfl (hm _ (pyGet_in hf))
      · exact ⟨_, rfl⟩
    obtain ⟨e, he⟩ := hw
    have hall : UWeights.weighAll g.loc.mesh (i :: is) (p :: pts) = .error e := by
      simp only [UWeights.weighAll, UWeights.rows, if_pos hl, List.zip_cons_cons, DepthM.mapE, he]
    have hmem : (if memo then Cache.lookup g.weights (p :: pts) else none) = none := by
      rw [hk]; split <;> rfl
    refine ⟨e, ?_⟩
    simp only [act, UWeights.interpolationAlphas, hmem, hall]

variable [IsStrictOrderedRing K]

theorem inFace_triangle {m : Mesh K} (hr : ∀ row ∈ m.faces, row.length = 3) (hp : ProperFaces m) {i : Int}
    {pt : K × K} (h : InFace m i pt) : InItsTriangle m ⟨i, pt, 0⟩ := by
  obtain ⟨h0, row, ps, ws, h1, -, h2, h3, h4, h5, h6, h7⟩ := h
  have hrow := pyGet_in h1
  match row, hr row hrow with
  | [a, b, c], _ =>
    simp only [DepthM.mapE] at h2
    cases ha : Np.pyGet m.nodes a with
    | error e => rw [ha] at h2; cases h2
    | ok A =>
      cases hb : Np.pyGet m.nodes b with
      | error e => rw [ha, hb] at h2; cases h2
      | ok B =>
        cases hc : Np.pyGet m.nodes c with
        | error e => rw [ha, hb, hc] at h2; cases h2
        | ok C =>
          rw [ha, hb, hc] at h2
          cases h2
          match ws, h3 with
          | [x, y, z], _ =>
            refine ⟨by simp only; omega, a, b, c, A, B, C, h1, ha, hb, hc,
              hp _ hrow 0 a b c A B C rfl rfl rfl ha hb hc, x, y, z, h4 x (by simp), h4 y (by simp),
              h4 z (by simp), ?_⟩
            simp only [List.zipWith_cons_cons, List.zipWith_nil_left, List.sum_cons, List.sum_nil, add_zero] at h5 h6 h7
            refine ⟨?_, ?_, ?_⟩ <;> linarith

/-- C209, triangles. Missing: faces with other numbers of nodes. -/
theorem C209_partial (m : Mesh K) (h : List (Op K)) (data : List (Option K)) (pts : List (K × K))
    (copy memo : Bool) (lo hi : K) (hh : ∀ o ∈ h, Usual o) (hr : ∀ row ∈ m.faces, row.length = 3)
    (hp : ProperFaces m) (hlen : (celltree m pts).length = pts.length)
    (hin : ∀ q ∈ (celltree m pts).zip pts, InFace m q.1 q.2) (hd : SliceWithin m lo hi data) :
    ∃ vs, (act celltree eps (after celltree eps (new m) h) (.interpolate .node data pts copy memo)).2
        = .values (.ok (some vs)) ∧ vs.length = pts.length ∧
      ∀ v ∈ vs, ∃ x, v = some x ∧ lo ≤ x ∧ x ≤ hi := by
  have hall : DepthM.mapE (fun q : Int × (K × K) => interpNode m data q.1 q.2) ((celltree m pts).zip pts) =
      .ok (((celltree m pts).zip pts).map fun q => some (uValue m data ⟨q.1, q.2, 0⟩)) := by
    refine DepthM.mapE_ok ?_
    intro q hq
    exact (uValue_spec m lo hi data hd ⟨q.1, q.2, 0⟩ (inFace_triangle hr hp (hin q hq))).1
  refine ⟨((celltree m pts).zip pts).map fun q => some (uValue m data ⟨q.1, q.2, 0⟩), ?_, by simp [hlen], ?_⟩
  · obtain ⟨ws, cs, b1, b2, b3, b4, b5⟩ := interpNode_all m data _ _ _ hlen hall
    obtain ⟨a, -⟩ := UWeights.values_faithful celltree eps (after_faithful celltree eps m h hh) .node data
      pts copy memo
    have hw : UWeights.weighAll m (celltree m pts) pts = .ok ws := by
      simp only [UWeights.weighAll, UWeights.rows, hlen, if_true, b1]
      rw [if_pos (b3.trans hlen)]
    have hrow : UWeights.rows cs ws = .ok (cs.zip ws) := by
      simp only [UWeights.rows]
      rw [if_pos (b4.trans b3.symm)]
    simp only [act, a, Out.values.injEq, UWeights.plainValues, hw, b2, hrow, b5]
  · intro v hv
    obtain ⟨q, hq, rfl⟩ := List.mem_map.mp hv
    exact ⟨_, rfl, (uValue_spec m lo hi data hd ⟨q.1, q.2, 0⟩ (inFace_triangle hr hp (hin q hq))).2⟩

/-- A square. -/
def aSquare : Mesh ℚ := { nodes := [(0, 0), (1, 0), (1, 1), (0, 1)], faces := [[0, 1, 2, 3]] }

theorem aSquare_middle : InFace aSquare 0 (1 / 2, 1 / 2) :=
  ⟨by decide, [0, 1, 2, 3], [(0, 0), (1, 0), (1, 1), (0, 1)], [1 / 4, 1 / 4, 1 / 4, 1 / 4], by decide +kernel,
    by decide, by decide +kernel, by decide, by decide +kernel, by decide +kernel, by decide +kernel,
    by decide +kernel⟩

theorem aSquare_proper : ProperFaces aSquare := by
  intro row hrow k a b c p q r ha hb hc hp hq hr
  simp only [aSquare, List.mem_singleton] at hrow
  subst hrow
  match k with
  | 0 =>
    cases ha; cases hb; cases hc; cases hp; cases hq; cases hr
    exact Or.inl (by unfold TurnsLeft; decide +kernel)
  | 1 =>
    cases ha; cases hb; cases hc; cases hp; cases hq; cases hr
    exact Or.inl (by unfold TurnsLeft; decide +kernel)
  | k + 2 => simp at hc

/-- C209 fails for quadrilaterals: the middle of a square. -/
theorem C209_refuted : ¬ C209_statement 4 := by
  intro h
  obtain ⟨vs, e, -⟩ := h (fun _ pts => pts.map fun _ => 0) 0 aSquare [] [some 1, some 2, some 3, some 4]
    [(1 / 2, 1 / 2)] false true 1 4 (by simp) (by decide) aSquare_proper (by simp) (by
      intro q hq
      simp only [List.map_cons, List.map_nil, List.zip_cons_cons, List.zip_nil_left, List.mem_singleton] at hq
      subst hq
      exact aSquare_middle) ⟨rfl, by
      intro v hv
      simp only [List.mem_cons, List.not_mem_nil, or_false] at hv
      rcases hv with rfl | rfl | rfl | rfl <;> exact ⟨_, rfl, by norm_num, by norm_num⟩⟩
  have : (act (fun (_ : Mesh ℚ) (pts : List (ℚ × ℚ)) => pts.map fun _ => (0 : Int)) 0
      (after (fun (_ : Mesh ℚ) (pts : List (ℚ × ℚ)) => pts.map fun _ => (0 : Int)) 0 (new aSquare) [])
      (.interpolate .node [some 1, some 2, some 3, some 4] [(1 / 2, 1 / 2)] false true)).2 =
      .values (.error .valueError) := by decide +kernel
  rw [this] at e
  cases e

/-- A triangle meets the hypotheses of `C209_partial`. -/
example : InFace (K := ℚ) { nodes := [(0, 0), (1, 0), (0, 1)], faces := [[0, 1, 2]] } 0 (1 / 4, 1 / 4) ∧
    ProperFaces (K := ℚ) { nodes := [(0, 0), (1, 0), (0, 1)], faces := [[0, 1, 2]] } := by
  refine ⟨⟨by decide, [0, 1, 2], [(0, 0), (1, 0), (0, 1)], [1 / 2, 1 / 4, 1 / 4], by decide +kernel,
    by decide, by decide +kernel, by decide, by decide +kernel, by decide +kernel, by decide +kernel,
    by decide +kernel⟩, ?_⟩
  intro row hrow k a b c p q r ha hb hc hp hq hr
  simp only [List.mem_singleton] at hrow
  subst hrow
  match k with
  | 0 =>
    cases ha; cases hb; cases hc; cases hp; cases hq; cases hr
    exact Or.inl (by unfold TurnsLeft; decide +kernel)
  | k + 1 => simp at hc

/-- And the square those of `C209_refused`, also after it was asked for the faces of the points. -/
example : (∀ row ∈ aSquare.faces, row.length ≠ 3) ∧
    (Locate.locate (fun (_ : Mesh ℚ) (pts : List (ℚ × ℚ)) => pts.map fun _ => (0 : Int)) 0 (new aSquare).loc
      [(1 / 2, 1 / 2)] .celltree true).2 = .ok [0] ∧
    Cache.lookup (new aSquare).weights [(1 / 2, 1 / 2)] = none ∧
    (act (fun (_ : Mesh ℚ) (pts : List (ℚ × ℚ)) => pts.map fun _ => (0 : Int)) 0 (new aSquare)
      (.weigh [(1 / 2, 1 / 2)] (some [0]) false true)).2 = .weights (.error .valueError) := by
  refine ⟨by decide, by decide +kernel, by decide +kernel, by decide +kernel⟩

end C209

end Verif
