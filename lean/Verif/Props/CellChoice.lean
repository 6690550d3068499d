import Verif.Lemmas.Family
import Verif.Lemmas.Superpose
import Verif.Props.At

/-!
# C148-C149: points on the boundary between cells
-/

set_option autoImplicit false

namespace Verif
open Verif.At Verif.DepthM Verif.Spec Verif.TimeM

section C148
variable {K : Type} [Field K] [LinearOrder K]

/-- Node `n` of the mesh is a corner of face `f`. -/
def CornerOf (m : UGeom.Mesh K) (f n : Int) : Prop :=
  ∃ a b c : Int, Np.pyGet m.faces f = .ok [a, b, c] ∧ (n = a ∨ n = b ∨ n = c)

/-- The position is on the line through two nodes (or is a node, if they are the same) that are
corners of both faces. -/
def OnCommon (m : UGeom.Mesh K) (f f' : Int) (pos : K × K) : Prop :=
  ∃ (n n' : Int) (A B : K × K) (s : K), CornerOf m f n ∧ CornerOf m f n' ∧ CornerOf m f' n ∧
    CornerOf m f' n' ∧ Np.pyGet m.nodes n = .ok A ∧ Np.pyGet m.nodes n' = .ok B ∧
    pos = ((1 - s) * A.1 + s * B.1, (1 - s) * A.2 + s * B.2)

variable [IsStrictOrderedRing K]

/-- The value on the line through two corners of a proper triangle. -/
private theorem interp_edge {m : UGeom.Mesh K} {data : List (Option K)}
    (hlen : data.length = m.nodes.length) (hfin : ∀ v ∈ data, v ≠ none) {p : UPt K}
    (hp : OnTriangle m p) {n n' : Int} (hn : CornerOf m p.face n) (hn' : CornerOf m p.face n')
    {A B : K × K} (hA : Np.pyGet m.nodes n = .ok A) (hB : Np.pyGet m.nodes n' = .ok B) (s : K)
    (hpos : p.pos = ((1 - s) * A.1 + s * B.1, (1 - s) * A.2 + s * B.2)) :
    ∃ x y : K, Np.pyGet data n = .ok (some x) ∧ Np.pyGet data n' = .ok (some y) ∧
      UGeom.interpNode m data p.face p.pos = .ok (some ((1 - s) * x + s * y)) := by
  obtain ⟨hf, a, b, c, P, Q, R, h1, h2, h3, h4, h5⟩ := hp
  have fin : ∀ (i : Int) (A : K × K), Np.pyGet m.nodes i = .ok A →
      ∃ x, Np.pyGet data i = .ok (some x) := by
    intro i A h
    obtain ⟨v, hv, hmem⟩ := pyGet_same hlen h
    rcases v with _ | x
    · exact absurd rfl (hfin none hmem)
    · exact ⟨x, hv⟩
  obtain ⟨u, hu⟩ := fin a P h2
  obtain ⟨v, hv⟩ := fin b Q h3
  obtain ⟨w, hw⟩ := fin c R h4
  have key : ∀ (α β γ : K), Weighted P Q R p.pos α β γ →
      UGeom.interpNode m data p.face p.pos = .ok (some (u * α + v * β + w * γ)) := by
    intro α β γ hw'
    obtain ⟨a', b', c', g1, g2⟩ := interpNode_on ⟨a, b, c, h1, h2, h3, h4, hu, hv, hw⟩ hf h5 p.pos
    obtain ⟨_, _, _, _, _, un⟩ := C31_weights h5 p.pos p.face hf
    obtain ⟨x1, x2, x3⟩ := un _ _ _ g1
    obtain ⟨y1, y2, y3⟩ := un _ _ _ hw'
    rw [g2, x1, x2, x3, y1, y2, y3]
  obtain ⟨a1, b1, c1, e1, hn⟩ := hn
  obtain ⟨a2, b2, c2, e2, hn'⟩ := hn'
  rw [h1] at e1 e2
  cases e1; cases e2
  rcases hn with rfl | rfl | rfl <;> rcases hn' with rfl | rfl | rfl
  · rw [h2] at hA hB; cases hA; cases hB
    refine ⟨u, u, hu, hu, (key 1 0 0 ⟨by ring, by rw [hpos]; ring, by rw [hpos]; ring⟩).trans ?_⟩
    congr 2; ring
  · rw [h2] at hA; cases hA
    rw [h3] at hB; cases hB
    refine ⟨u, v, hu, hv, (key (1 - s) s 0 ⟨by ring, by rw [hpos]; ring, by rw [hpos]; ring⟩).trans ?_⟩
    congr 2; ring
  · rw [h2] at hA; cases hA
    rw [h4] at hB; cases hB
    refine ⟨u, w, hu, hw, (key (1 - s) 0 s ⟨by ring, by rw [hpos]; ring, by rw [hpos]; ring⟩).trans ?_⟩
    congr 2; ring
  · rw [h3] at hA; cases hA
    rw [h2] at hB; cases hB
    refine ⟨v, u, hv, hu, (key s (1 - s) 0 ⟨by ring, by rw [hpos]; ring, by rw [hpos]; ring⟩).trans ?_⟩
    congr 2; ring
  · rw [h3] at hA hB; cases hA; cases hB
    refine ⟨v, v, hv, hv, (key 0 1 0 ⟨by ring, by rw [hpos]; ring, by rw [hpos]; ring⟩).trans ?_⟩
    congr 2; ring
  · rw [h3] at hA; cases hA
    rw [h4] at hB; cases hB
    refine ⟨v, w, hv, hw, (key 0 (1 - s) s ⟨by ring, by rw [hpos]; ring, by rw [hpos]; ring⟩).trans ?_⟩
    congr 2; ring
  · rw [h4] at hA; cases hA
    rw [h2] at hB; cases hB
    refine ⟨w, u, hw, hu, (key s 0 (1 - s) ⟨by ring, by rw [hpos]; ring, by rw [hpos]; ring⟩).trans ?_⟩
    congr 2; ring
  · rw [h4] at hA; cases hA
    rw [h3] at hB; cases hB
    refine ⟨w, v, hw, hv, (key 0 s (1 - s) ⟨by ring, by rw [hpos]; ring, by rw [hpos]; ring⟩).trans ?_⟩
    congr 2; ring
  · rw [h4] at hA hB; cases hA; cases hB
    refine ⟨w, w, hw, hw, (key 0 0 1 ⟨by ring, by rw [hpos]; ring, by rw [hpos]; ring⟩).trans ?_⟩
    congr 2; ring

/-- C148, one slice: on the common edge or corner of two triangles it does not matter which of them
the point is said to be in. -/
theorem C148_slice {m : UGeom.Mesh K} {data : List (Option K)}
    (hlen : data.length = m.nodes.length) (hfin : ∀ v ∈ data, v ≠ none) {p p' : UPt K}
    (hp : OnTriangle m p) (hp' : OnTriangle m p') (hpos : p'.pos = p.pos)
    (hc : OnCommon m p.face p'.face p.pos) :
    UGeom.interpNode m data p'.face p'.pos = UGeom.interpNode m data p.face p.pos := by
  obtain ⟨n, n', A, B, s, c1, c2, c3, c4, hA, hB, hs⟩ := hc
  obtain ⟨x, y, hx, hy, e⟩ := interp_edge hlen hfin hp c1 c2 hA hB s hs
  obtain ⟨x', y', hx', hy', e'⟩ := interp_edge hlen hfin hp' c3 c4 hA hB s (by rw [hpos]; exact hs)
  rw [hx] at hx'; rw [hy] at hy'
  cases hx'; cases hy'
  rw [e, e']

/-- Two answers of the search for the same point: the same face, or two proper triangles with a common
edge or corner on which the point lies. -/
def EitherCell (m : UGeom.Mesh K) (p p' : UPt K) : Prop :=
  p'.pos = p.pos ∧ (p'.face = p.face ∨
    OnTriangle m p ∧ OnTriangle m p' ∧ OnCommon m p.face p'.face p.pos)

/-- C148. A whole evaluation of finite data on the nodes: with any depth object that answers alike for
both, the results (or the exception) are the same. -/
theorem C148_eval (m : UGeom.Mesh K) (times : List Int) (ds : DepthSys K (UPt K))
    (d : Data (List (Option K)))
    (hd : d.All fun s => s.length = m.nodes.length ∧ ∀ v ∈ s, v ≠ none) (pts : List (UPt K × UPt K))
    (hpts : ∀ p ∈ pts, EitherCell m p.1 p.2)
    (hds : ds.alphas (pts.map fun p => p.2) = ds.alphas (pts.map fun p => p.1)) (t : Int) (e : Bool) :
    eval (xyU m .node) times ds d (pts.map fun p => p.2) t e =
      eval (xyU m .node) times ds d (pts.map fun p => p.1) t e := by
  have := eval_eq (xyU m .node) (xyU m .node)
    (fun s s' => s' = s ∧ s.length = m.nodes.length ∧ ∀ v ∈ s, v ≠ none) (EitherCell m) (by
      rintro s s' ⟨rfl, hlen, hfin⟩ ps hps
      have := eq_of_together ((xyU_node_each (ι := Bool) (R := fun v => v true = v false)
        (fun _ => m) (fun _ => s') (ps.map fun p i => if i then p.2 else p.1) (by
          intro p hp
          obtain ⟨q, hq, rfl⟩ := List.mem_map.mp hp
          refine together_eq ?_
          simp only [if_true, Bool.false_eq_true, if_false]
          obtain ⟨h1, h2 | ⟨h3, h4, h5⟩⟩ := hps q hq
          · rw [h1, h2]
          · exact C148_slice hlen hfin h3 h4 h1 h5)).mono (by
          rintro l ⟨L, hL, hl⟩
          refine ⟨L, fun c hc => ?_, hl⟩
          obtain ⟨h1, h2⟩ := hL c hc
          rcases ht : c true with ⟨v, k⟩
          rcases hf : c false with ⟨v', k'⟩
          have ha := h2 true; have hb := h2 false
          simp only [ht, hf] at h1 ha hb
          rw [h1, ha, hb]))
      simpa only [List.map_map, Function.comp_def, if_true, Bool.false_eq_true, if_false] using this)
    times ds ds rfl (d.map fun s => (s, s)) (by
      cases d with
      | timeDepth d =>
        intro r hr s hs
        obtain ⟨r', hr', rfl⟩ := List.mem_map.mp hr
        obtain ⟨x, hx, rfl⟩ := List.mem_map.mp hs
        exact ⟨rfl, hd r' hr' x hx⟩
      | time d => intro s hs; obtain ⟨x, hx, rfl⟩ := List.mem_map.mp hs; exact ⟨rfl, hd x hx⟩
      | depth d => intro s hs; obtain ⟨x, hx, rfl⟩ := List.mem_map.mp hs; exact ⟨rfl, hd x hx⟩
      | flat s => exact ⟨rfl, hd⟩) pts hpts hds t e
  have hdm : ∀ f : List (Option K) × List (Option K) → List (Option K), (∀ s, f (s, s) = s) →
      (d.map fun s => (s, s)).map f = d := by
    intro f hf
    cases d <;> simp [Data.map, Function.comp_def, hf]
  rwa [hdm _ fun _ => rfl, hdm _ fun _ => rfl] at this

/-- C148 with depth levels, or for data without depths: the depths asked for are the same, so the depth
object answers alike. -/
theorem C148_levels (m : UGeom.Mesh K) (times : List Int) (levels : List K) (sbc bbc : BC)
    (d : Data (List (Option K)))
    (hd : d.All fun s => s.length = m.nodes.length ∧ ∀ v ∈ s, v ≠ none) (pts : List (UPt K × UPt K))
    (hpts : ∀ p ∈ pts, EitherCell m p.1 p.2 ∧ p.2.z = p.1.z) (t : Int) (e : Bool) :
    eval (xyU m .node) times (levelSys UPt.z levels sbc bbc) d (pts.map fun p => p.2) t e =
      eval (xyU m .node) times (levelSys UPt.z levels sbc bbc) d (pts.map fun p => p.1) t e := by
  refine C148_eval m times _ d hd pts (fun p hp => (hpts p hp).1) ?_ t e
  unfold levelSys
  simp only [List.map_map]
  congr 1
  exact List.map_congr_left fun p hp => (hpts p hp).2

/-- Two triangles with a common edge. -/
def twoTriangles : UGeom.Mesh ℚ where
  nodes := [(0, 0), (4, 0), (0, 4), (4, 4)]
  faces := [[0, 1, 2], [2, 1, 3], [0, 1, 2]]

/-- The middle of the common edge, said to be in one or the other. -/
theorem twoTriangles_either : EitherCell twoTriangles ⟨0, (2, 2), 0⟩ ⟨1, (2, 2), 0⟩ :=
  ⟨rfl, Or.inr ⟨⟨by show (0 : Int) ≠ -1; decide, 0, 1, 2, (0, 0), (4, 0), (0, 4), rfl, rfl, rfl, rfl,
      Or.inl (by unfold TurnsLeft; norm_num)⟩,
    ⟨by show (1 : Int) ≠ -1; decide, 2, 1, 3, (0, 4), (4, 0), (4, 4), rfl, rfl, rfl, rfl,
      Or.inl (by unfold TurnsLeft; norm_num)⟩,
    1, 2, (4, 0), (0, 4), 1 / 2, ⟨0, 1, 2, rfl, by decide⟩, ⟨0, 1, 2, rfl, by decide⟩,
    ⟨2, 1, 3, rfl, by decide⟩, ⟨2, 1, 3, rfl, by decide⟩, rfl, rfl, by norm_num⟩⟩

example : eval (xyU twoTriangles .node) [0, 10] (levelSys UPt.z [] .mask .mask)
      (.time [[some 1, some 2, some 4, some 9], [some 1, some 3, some 5, some (-7)]])
      [⟨1, (2, 2), 0⟩] 5 false =
    eval (xyU twoTriangles .node) [0, 10] (levelSys UPt.z [] .mask .mask)
      (.time [[some 1, some 2, some 4, some 9], [some 1, some 3, some 5, some (-7)]])
      [⟨0, (2, 2), 0⟩] 5 false :=
  C148_levels twoTriangles [0, 10] [] .mask .mask _ (by
    intro s hs
    simp only [List.mem_cons, List.not_mem_nil, or_false] at hs
    rcases hs with rfl | rfl <;> exact ⟨rfl, by simp⟩)
    [(⟨0, (2, 2), 0⟩, ⟨1, (2, 2), 0⟩)] (by
      intro p hp
      simp only [List.mem_cons, List.not_mem_nil, or_false] at hp
      subst hp
      exact ⟨twoTriangles_either, rfl⟩) 5 false

end C148

/-! ## C149 -/

section C149
open Verif.SInterp Verif.SIndex
variable {K : Type} [Field K] [LinearOrder K] [IsStrictOrderedRing K]

/-- The corners of the cell in row `i` and column `j` are at `px`, `py`, and no two positions of the
unit square are at the same place of the cell. -/
def OneToOneCell (g : Grid K) (i j : Nat) (px py : K × K × K × K) : Prop :=
  IsCorners g.lon i j px ∧ IsCorners g.lat i j py ∧
    ∀ u v : K × K, InUnit u → InUnit v → bilinear px u.1 u.2 = bilinear px v.1 v.2 →
      bilinear py u.1 u.2 = bilinear py v.1 v.2 → u = v

/-- C149 in full, for cells that are neighbours in a row: at every point of the side they share, node
data have the same value whichever of the two cells the point is said to be in. -/
def C149_statement : Prop :=
  ∀ (sqrt : ℝ → ℝ), SqrtOk sqrt → ∀ (g : Grid ℝ) (A : List (List ℝ)) (c c' : Nat), Rectangular c A →
    Rectangular c' g.lon → Rectangular c' g.lat → g.pads .node = (.none, .none) →
    ∀ (i j : Nat) (px py qx qy v w : ℝ × ℝ × ℝ × ℝ), OneToOneCell g i j px py →
      OneToOneCell g i (j + 1) qx qy → IsCorners A i j v → IsCorners A i (j + 1) w →
      ∀ r, 0 ≤ r → r ≤ 1 →
        nodeValue sqrt g (plain A) (bilinear px 1 r, bilinear py 1 r) ((i : Int), ((j + 1 : Nat) : Int)) =
          nodeValue sqrt g (plain A) (bilinear px 1 r, bilinear py 1 r) ((i : Int), (j : Int))

/-- C149 for neighbours in a row (missing: points whose position in one of the cells is not found, or
at which a row of one of the cells has no extent in longitude). -/
theorem C149_columns_partial (sqrt : K → K) (hs : SqrtOk sqrt) (g : Grid K) (A : List (List K))
    (c c' : Nat) (hA : Rectangular c A) (hlon : Rectangular c' g.lon) (hlat : Rectangular c' g.lat)
    (hk0 : (g.pads .node).1 ≠ .other) (hk1 : (g.pads .node).2 ≠ .other) (i j : Nat)
    (px py qx qy v w : K × K × K × K) (hp : OneToOneCell g i j px py)
    (hq : OneToOneCell g i (j + 1) qx qy)
    (hv : IsCorners A (i + lowPads (g.pads .node).1) (j + lowPads (g.pads .node).2) v)
    (hw : IsCorners A (i + lowPads (g.pads .node).1) (j + 1 + lowPads (g.pads .node).2) w)
    (r : K) (h0 : 0 ≤ r) (h1 : r ≤ 1)
    (hd : bilinear px 1 r ≠ bilinear px 0 r) (hd' : bilinear qx 1 r ≠ bilinear qx 0 r)
    (lm lm' : K × K)
    (hf : offset sqrt g (bilinear px 1 r, bilinear py 1 r) ((i : Int), (j : Int)) = .ok (some lm))
    (hf' : offset sqrt g (bilinear px 1 r, bilinear py 1 r) ((i : Int), ((j + 1 : Nat) : Int)) =
      .ok (some lm')) :
    nodeValue sqrt g (plain A) (bilinear px 1 r, bilinear py 1 r) ((i : Int), ((j + 1 : Nat) : Int)) =
        nodeValue sqrt g (plain A) (bilinear px 1 r, bilinear py 1 r) ((i : Int), (j : Int)) ∧
      nodeValue sqrt g (plain A) (bilinear px 1 r, bilinear py 1 r) ((i : Int), (j : Int)) =
        .ok (some ((1 - r) * v.2.2.2 + r * v.2.2.1)) := by
  obtain ⟨hx, hy, inj⟩ := hp
  obtain ⟨hx', hy', inj'⟩ := hq
  have e1 := C45_recovers sqrt hs g c' hlon hlat i j px py hx hy lm.1 lm.2 1 r inj
    ⟨zero_le_one, le_refl _, h0, h1⟩ hd hf
  have s1 : qx.1 = px.2.2.2 := Option.some.inj (hx'.1.symm.trans hx.2.2.2)
  have s2 : qx.2.1 = px.2.2.1 := Option.some.inj (hx'.2.1.symm.trans hx.2.2.1)
  have s3 : qy.1 = py.2.2.2 := Option.some.inj (hy'.1.symm.trans hy.2.2.2)
  have s4 : qy.2.1 = py.2.2.1 := Option.some.inj (hy'.2.1.symm.trans hy.2.2.1)
  have bx : bilinear qx 0 r = bilinear px 1 r := by simp only [bilinear, s1, s2]; ring
  have by' : bilinear qy 0 r = bilinear py 1 r := by simp only [bilinear, s3, s4]; ring
  have e2 := C45_recovers sqrt hs g c' hlon hlat i (j + 1) qx qy hx' hy' lm'.1 lm'.2 0 r inj'
    ⟨le_refl _, zero_le_one, h0, h1⟩ hd' (by rw [bx, by']; exact hf')
  obtain ⟨rfl⟩ : lm = (1, r) := e1
  obtain ⟨rfl⟩ : lm' = (0, r) := e2
  rw [C46_value sqrt g A c hA _ i j 1 r v hf hk0 hk1 hv,
    C46_value sqrt g A c hA _ i (j + 1) 0 r w hf' hk0 hk1 hw]
  have t1 : w.1 = v.2.2.2 := by
    have := hv.2.2.2
    rw [show j + lowPads (g.pads .node).2 + 1 = j + 1 + lowPads (g.pads .node).2 by omega] at this
    exact Option.some.inj (hw.1.symm.trans this)
  have t2 : w.2.1 = v.2.2.1 := by
    have := hv.2.2.1
    rw [show j + lowPads (g.pads .node).2 + 1 = j + 1 + lowPads (g.pads .node).2 by omega] at this
    exact Option.some.inj (hw.2.1.symm.trans this)
  constructor
  · simp only [bilinear, t1, t2]
    congr 2; ring
  · simp only [bilinear]
    congr 2; ring

/-- C149 for neighbours in a column, with the same parts missing. -/
theorem C149_rows_partial (sqrt : K → K) (hs : SqrtOk sqrt) (g : Grid K) (A : List (List K))
    (c c' : Nat) (hA : Rectangular c A) (hlon : Rectangular c' g.lon) (hlat : Rectangular c' g.lat)
    (hk0 : (g.pads .node).1 ≠ .other) (hk1 : (g.pads .node).2 ≠ .other) (i j : Nat)
    (px py qx qy v w : K × K × K × K) (hp : OneToOneCell g i j px py)
    (hq : OneToOneCell g (i + 1) j qx qy)
    (hv : IsCorners A (i + lowPads (g.pads .node).1) (j + lowPads (g.pads .node).2) v)
    (hw : IsCorners A (i + 1 + lowPads (g.pads .node).1) (j + lowPads (g.pads .node).2) w)
    (s : K) (h0 : 0 ≤ s) (h1 : s ≤ 1)
    (hd : px.2.2.1 ≠ px.2.1) (lm lm' : K × K)
    (hf : offset sqrt g (bilinear px s 1, bilinear py s 1) ((i : Int), (j : Int)) = .ok (some lm))
    (hf' : offset sqrt g (bilinear px s 1, bilinear py s 1) (((i + 1 : Nat) : Int), (j : Int)) =
      .ok (some lm')) :
    nodeValue sqrt g (plain A) (bilinear px s 1, bilinear py s 1) (((i + 1 : Nat) : Int), (j : Int)) =
        nodeValue sqrt g (plain A) (bilinear px s 1, bilinear py s 1) ((i : Int), (j : Int)) ∧
      nodeValue sqrt g (plain A) (bilinear px s 1, bilinear py s 1) ((i : Int), (j : Int)) =
        .ok (some ((1 - s) * v.2.1 + s * v.2.2.1)) := by
  obtain ⟨hx, hy, inj⟩ := hp
  obtain ⟨hx', hy', inj'⟩ := hq
  have e1 := C45_recovers sqrt hs g c' hlon hlat i j px py hx hy lm.1 lm.2 s 1 inj
    ⟨h0, h1, zero_le_one, le_refl _⟩ (by
      intro h; apply hd
      simp only [bilinear] at h
      linear_combination h) hf
  have s1 : qx.1 = px.2.1 := Option.some.inj (hx'.1.symm.trans hx.2.1)
  have s2 : qx.2.2.2 = px.2.2.1 := Option.some.inj (hx'.2.2.2.symm.trans hx.2.2.1)
  have s3 : qy.1 = py.2.1 := Option.some.inj (hy'.1.symm.trans hy.2.1)
  have s4 : qy.2.2.2 = py.2.2.1 := Option.some.inj (hy'.2.2.2.symm.trans hy.2.2.1)
  have bx : bilinear qx s 0 = bilinear px s 1 := by simp only [bilinear, s1, s2]; ring
  have by' : bilinear qy s 0 = bilinear py s 1 := by simp only [bilinear, s3, s4]; ring
  have e2 := C45_recovers sqrt hs g c' hlon hlat (i + 1) j qx qy hx' hy' lm'.1 lm'.2 s 0 inj'
    ⟨h0, h1, le_refl _, zero_le_one⟩ (by
      intro h; apply hd
      simp only [bilinear, s1, s2] at h
      linear_combination h) (by rw [bx, by']; exact hf')
  obtain ⟨rfl⟩ : lm = (s, 1) := e1
  obtain ⟨rfl⟩ : lm' = (s, 0) := e2
  rw [C46_value sqrt g A c hA _ i j s 1 v hf hk0 hk1 hv,
    C46_value sqrt g A c hA _ (i + 1) j s 0 w hf' hk0 hk1 hw]
  have t1 : w.1 = v.2.1 := by
    have := hv.2.1
    rw [show i + lowPads (g.pads .node).1 + 1 = i + 1 + lowPads (g.pads .node).1 by omega] at this
    exact Option.some.inj (hw.1.symm.trans this)
  have t2 : w.2.2.2 = v.2.2.1 := by
    have := hv.2.2.1
    rw [show i + lowPads (g.pads .node).1 + 1 = i + 1 + lowPads (g.pads .node).1 by omega] at this
    exact Option.some.inj (hw.2.2.2.symm.trans this)
  constructor
  · simp only [bilinear, t1, t2]
    congr 2; ring
  · simp only [bilinear]
    congr 2; ring

/-- A cell with corners `px`, `py` whose rows keep going east or west, and that is not folded: the
area element (the Jacobian determinant) of its map is nowhere zero. -/
structure RegularCell (g : Grid K) (i j : Nat) (px py : K × K × K × K) : Prop where
  lon : IsCorners g.lon i j px
  lat : IsCorners g.lat i j py
  rows : ∀ m, 0 ≤ m → m ≤ 1 → bilinear px 1 m ≠ bilinear px 0 m
  area : ∀ l m, InUnit (l, m) →
    (bilinear px 1 m - bilinear px 0 m) * (bilinear py l 1 - bilinear py l 0) ≠
      (bilinear px l 1 - bilinear px l 0) * (bilinear py 1 m - bilinear py 0 m)

/-- The map of a regular cell is one to one: the difference of two values is the derivative half way
between, applied to the difference of the positions. -/
theorem RegularCell.one {g : Grid K} {i j : Nat} {px py : K × K × K × K} (h : RegularCell g i j px py) :
    OneToOneCell g i j px py := by
  refine ⟨h.lon, h.lat, ?_⟩
  intro u v hu hv ex ey
  have hmid : InUnit ((u.1 + v.1) / 2, (u.2 + v.2) / 2) := by
    obtain ⟨a1, a2, a3, a4⟩ := hu
    obtain ⟨b1, b2, b3, b4⟩ := hv
    refine ⟨?_, ?_, ?_, ?_⟩ <;> simp only <;> linarith
  have hj := h.area _ _ hmid
  have e : ∀ w : K × K × K × K, bilinear w u.1 u.2 - bilinear w v.1 v.2 =
      (bilinear w 1 ((u.2 + v.2) / 2) - bilinear w 0 ((u.2 + v.2) / 2)) * (u.1 - v.1) +
      (bilinear w ((u.1 + v.1) / 2) 1 - bilinear w ((u.1 + v.1) / 2) 0) * (u.2 - v.2) := by
    intro w
    simp only [bilinear]
    ring
  have e1 := e px
  have e2 := e py
  rw [ex, sub_self] at e1
  rw [ey, sub_self] at e2
  generalize bilinear px 1 ((u.2 + v.2) / 2) - bilinear px 0 ((u.2 + v.2) / 2) = a at *
  generalize bilinear px ((u.1 + v.1) / 2) 1 - bilinear px ((u.1 + v.1) / 2) 0 = b at *
  generalize bilinear py 1 ((u.2 + v.2) / 2) - bilinear py 0 ((u.2 + v.2) / 2) = c at *
  generalize bilinear py ((u.1 + v.1) / 2) 1 - bilinear py ((u.1 + v.1) / 2) 0 = d at *
  have hj' : a * d - b * c ≠ 0 := sub_ne_zero.mpr hj
  have h1 : (a * d - b * c) * (u.1 - v.1) = 0 := by linear_combination b * e2 - d * e1
  have h2 : (a * d - b * c) * (u.2 - v.2) = 0 := by linear_combination c * e1 - a * e2
  refine Prod.ext ?_ ?_
  · exact sub_eq_zero.mp ((mul_eq_zero.mp h1).resolve_left hj')
  · exact sub_eq_zero.mp ((mul_eq_zero.mp h2).resolve_left hj')

/-- C71, C45. In a regular cell every point is given its own position in the cell. -/
theorem C71_regular (sqrt : K → K) (hs : SqrtOk sqrt) (g : Grid K) (c' : Nat)
    (hlon : Rectangular c' g.lon) (hlat : Rectangular c' g.lat) {i j : Nat}
    {px py : K × K × K × K} (h : RegularCell g i j px py) (l m : K) (hu : InUnit (l, m)) :
    offset sqrt g (bilinear px l m, bilinear py l m) ((i : Int), (j : Int)) = .ok (some (l, m)) := by
  obtain ⟨l', m', hf, _, _, _⟩ := C71_partial sqrt hs px py l m hu h.rows (h.area l m hu)
  have ho : offset sqrt g (bilinear px l m, bilinear py l m) ((i : Int), (j : Int)) =
      .ok (some (l', m')) := by
    rw [offset_eq sqrt g c' hlon hlat i j px py h.lon h.lat]
    simp only [hf]
  have := C45_recovers sqrt hs g c' hlon hlat i j px py h.lon h.lat l' m' l m h.one.2.2 hu
    (h.rows m hu.2.2.1 hu.2.2.2) ho
  rw [ho, this]

/-- The point is in the regular cell that was found for it. -/
def InRegular (g : Grid K) (p : SPt K) : Prop :=
  ∃ (i j : Nat) (px py : K × K × K × K) (l m : K), p.cell = some ((i : Int), (j : Int)) ∧
    RegularCell g i j px py ∧ InUnit (l, m) ∧ p.pos = (bilinear px l m, bilinear py l m)

/-- C114, structured grids with regular cells: no more is asked of the points than to be in the cell
found for them. Missing: the depth of the level listed last. -/
theorem C114_regular_partial (sqrt : K → K) (hsq : SqrtOk sqrt) (g : SInterp.Grid K) (c' : Nat)
    (hlon : Rectangular c' g.lon) (hlat : Rectangular c' g.lat)
    (hk0 : (g.pads .node).1 ≠ .other) (hk1 : (g.pads .node).2 ≠ .other) (f : Multilinear K)
    (A : K → K → List (List K)) (hA : ∀ z t, HoldsField g f z t (A z t)) (times : List Int)
    (hs : StrictIncr times) (levels : List K) (hl : StrictIncr levels ∨ StrictDecr levels)
    (hn : 2 ≤ levels.length) (sbc bbc : BC) (t : Int) (e : Bool) (ht : OnAxis times t)
    (pts : List (SPt K)) (hpts : ∀ p ∈ pts, InRegular g p ∧ WithinLevels levels p.z) :
    eval (xyS sqrt g (some .node)) times (levelSys SPt.z levels sbc bbc)
      (.timeDepth (times.map fun ti : Int => levels.map fun zk => plain (A zk (ti : K)))) pts t e =
      .ok (pts.map fun p => { value := some (f.at p.pos p.z (t : K)), masked := false }) := by
  refine C114_quads_partial sqrt hsq g c' hlon hlat hk0 hk1 f A hA times hs levels hl hn sbc bbc t e ht pts
    fun p hp => ⟨?_, (hpts p hp).2⟩
  obtain ⟨⟨i, j, px, py, l, m, h1, h2, h3, h4⟩, _⟩ := hpts p hp
  refine ⟨i, j, l, m, px, py, h1, h2.lon, h2.lat, ?_⟩
  rw [h4]
  exact C71_regular sqrt hsq g c' hlon hlat h2 l m h3

/-- C149 for regular cells, neighbours in a row (missing: cells some row of which has no extent in
longitude). -/
theorem C149_regular_columns_partial (sqrt : K → K) (hs : SqrtOk sqrt) (g : Grid K) (A : List (List K))
    (c c' : Nat) (hA : Rectangular c A) (hlon : Rectangular c' g.lon) (hlat : Rectangular c' g.lat)
    (hk0 : (g.pads .node).1 ≠ .other) (hk1 : (g.pads .node).2 ≠ .other) (i j : Nat)
    (px py qx qy v w : K × K × K × K) (hp : RegularCell g i j px py)
    (hq : RegularCell g i (j + 1) qx qy)
    (hv : IsCorners A (i + lowPads (g.pads .node).1) (j + lowPads (g.pads .node).2) v)
    (hw : IsCorners A (i + lowPads (g.pads .node).1) (j + 1 + lowPads (g.pads .node).2) w)
    (r : K) (h0 : 0 ≤ r) (h1 : r ≤ 1) :
    nodeValue sqrt g (plain A) (bilinear px 1 r, bilinear py 1 r) ((i : Int), ((j + 1 : Nat) : Int)) =
        nodeValue sqrt g (plain A) (bilinear px 1 r, bilinear py 1 r) ((i : Int), (j : Int)) ∧
      nodeValue sqrt g (plain A) (bilinear px 1 r, bilinear py 1 r) ((i : Int), (j : Int)) =
        .ok (some ((1 - r) * v.2.2.2 + r * v.2.2.1)) := by
  have s1 : qx.1 = px.2.2.2 := Option.some.inj (hq.lon.1.symm.trans hp.lon.2.2.2)
  have s2 : qx.2.1 = px.2.2.1 := Option.some.inj (hq.lon.2.1.symm.trans hp.lon.2.2.1)
  have s3 : qy.1 = py.2.2.2 := Option.some.inj (hq.lat.1.symm.trans hp.lat.2.2.2)
  have s4 : qy.2.1 = py.2.2.1 := Option.some.inj (hq.lat.2.1.symm.trans hp.lat.2.2.1)
  have bx : bilinear qx 0 r = bilinear px 1 r := by simp only [bilinear, s1, s2]; ring
  have by' : bilinear qy 0 r = bilinear py 1 r := by simp only [bilinear, s3, s4]; ring
  refine C149_columns_partial sqrt hs g A c c' hA hlon hlat hk0 hk1 i j px py qx qy v w hp.one hq.one hv
    hw r h0 h1 (hp.rows r h0 h1) (hq.rows r h0 h1) (1, r) (0, r)
    (C71_regular sqrt hs g c' hlon hlat hp 1 r ⟨zero_le_one, le_refl _, h0, h1⟩) ?_
  rw [← bx, ← by']
  exact C71_regular sqrt hs g c' hlon hlat hq 0 r ⟨le_refl _, zero_le_one, h0, h1⟩

/-- C149 for regular cells, neighbours in a column. -/
theorem C149_regular_rows_partial (sqrt : K → K) (hs : SqrtOk sqrt) (g : Grid K) (A : List (List K))
    (c c' : Nat) (hA : Rectangular c A) (hlon : Rectangular c' g.lon) (hlat : Rectangular c' g.lat)
    (hk0 : (g.pads .node).1 ≠ .other) (hk1 : (g.pads .node).2 ≠ .other) (i j : Nat)
    (px py qx qy v w : K × K × K × K) (hp : RegularCell g i j px py)
    (hq : RegularCell g (i + 1) j qx qy)
    (hv : IsCorners A (i + lowPads (g.pads .node).1) (j + lowPads (g.pads .node).2) v)
    (hw : IsCorners A (i + 1 + lowPads (g.pads .node).1) (j + lowPads (g.pads .node).2) w)
    (s : K) (h0 : 0 ≤ s) (h1 : s ≤ 1) :
    nodeValue sqrt g (plain A) (bilinear px s 1, bilinear py s 1) (((i + 1 : Nat) : Int), (j : Int)) =
        nodeValue sqrt g (plain A) (bilinear px s 1, bilinear py s 1) ((i : Int), (j : Int)) ∧
      nodeValue sqrt g (plain A) (bilinear px s 1, bilinear py s 1) ((i : Int), (j : Int)) =
        .ok (some ((1 - s) * v.2.1 + s * v.2.2.1)) := by
  have s1 : qx.1 = px.2.1 := Option.some.inj (hq.lon.1.symm.trans hp.lon.2.1)
  have s2 : qx.2.2.2 = px.2.2.1 := Option.some.inj (hq.lon.2.2.2.symm.trans hp.lon.2.2.1)
  have s3 : qy.1 = py.2.1 := Option.some.inj (hq.lat.1.symm.trans hp.lat.2.1)
  have s4 : qy.2.2.2 = py.2.2.1 := Option.some.inj (hq.lat.2.2.2.symm.trans hp.lat.2.2.1)
  have bx : bilinear qx s 0 = bilinear px s 1 := by simp only [bilinear, s1, s2]; ring
  have by' : bilinear qy s 0 = bilinear py s 1 := by simp only [bilinear, s3, s4]; ring
  refine C149_rows_partial sqrt hs g A c c' hA hlon hlat hk0 hk1 i j px py qx qy v w hp.one hq.one hv
    hw s h0 h1 ?_ (s, 1) (s, 0)
    (C71_regular sqrt hs g c' hlon hlat hp s 1 ⟨h0, h1, zero_le_one, le_refl _⟩) ?_
  · intro h
    apply hp.rows 1 zero_le_one (le_refl _)
    simp only [bilinear]
    linear_combination h
  · rw [← bx, ← by']
    exact C71_regular sqrt hs g c' hlon hlat hq s 0 ⟨h0, h1, le_refl _, zero_le_one⟩

/-- Two answers of the search for one point: the same cell, or regular neighbours in a row or column
with the point on the common side. -/
def EitherQuad (g : Grid K) (p p' : SPt K) : Prop :=
  p'.pos = p.pos ∧ (p'.cell = p.cell ∨ ∃ (i j : Nat) (px py qx qy : K × K × K × K) (r : K),
    p.cell = some ((i : Int), (j : Int)) ∧ RegularCell g i j px py ∧ 0 ≤ r ∧ r ≤ 1 ∧
    (p'.cell = some ((i : Int), ((j + 1 : Nat) : Int)) ∧ RegularCell g i (j + 1) qx qy ∧
        p.pos = (bilinear px 1 r, bilinear py 1 r) ∨
      p'.cell = some (((i + 1 : Nat) : Int), (j : Int)) ∧ RegularCell g (i + 1) j qx qy ∧
        p.pos = (bilinear px r 1, bilinear py r 1)))

/-- The data have a value for every node of every cell of the grid. -/
def CoversCells (g : Grid K) (A : List (List K)) : Prop :=
  (∃ c, Rectangular c A) ∧ ∀ i j px, IsCorners g.lon i j px →
    ∃ v, IsCorners A (i + lowPads (g.pads .node).1) (j + lowPads (g.pads .node).2) v

/-- C149 for whole evaluations of unmasked data on the nodes, on regular cells: the same results (or
the same exception) whichever cell is reported for each point. -/
theorem C149_eval_partial (sqrt : K → K) (hs : SqrtOk sqrt) (g : Grid K) (c' : Nat)
    (hlon : Rectangular c' g.lon) (hlat : Rectangular c' g.lat)
    (hk0 : (g.pads .node).1 ≠ .other) (hk1 : (g.pads .node).2 ≠ .other) (times : List Int)
    (ds : DepthSys K (SPt K)) (d : Data (List (List K))) (hd : d.All (CoversCells g))
    (pts : List (SPt K × SPt K)) (hpts : ∀ p ∈ pts, EitherQuad g p.1 p.2)
    (hds : ds.alphas (pts.map fun p => p.2) = ds.alphas (pts.map fun p => p.1)) (t : Int) (e : Bool) :
    eval (xyS sqrt g (some .node)) times ds (d.map plain) (pts.map fun p => p.2) t e =
      eval (xyS sqrt g (some .node)) times ds (d.map plain) (pts.map fun p => p.1) t e := by
  have hval : ∀ A, CoversCells g A → ∀ p : SPt K × SPt K, EitherQuad g p.1 p.2 →
      (match p.2.cell with
        | none => Except.ok none
        | some ij => nodeValue sqrt g (plain A) p.2.pos ij) =
      (match p.1.cell with
        | none => Except.ok none
        | some ij => nodeValue sqrt g (plain A) p.1.pos ij) := by
    rintro A ⟨⟨c, hA⟩, hcov⟩ p ⟨h1, h2 | ⟨i, j, px, py, qx, qy, r, h3, h4, h5, h6, h7⟩⟩
    · rw [h1, h2]
    · obtain ⟨v, hv⟩ := hcov i j px h4.lon
      rcases h7 with ⟨h8, h9, h10⟩ | ⟨h8, h9, h10⟩
      · obtain ⟨w, hw⟩ := hcov i (j + 1) qx h9.lon
        simp only [h8, h3, h1, h10]
        exact (C149_regular_columns_partial sqrt hs g A c c' hA hlon hlat hk0 hk1 i j px py qx qy v w h4 h9
          hv hw r h5 h6).1
      · obtain ⟨w, hw⟩ := hcov (i + 1) j qx h9.lon
        simp only [h8, h3, h1, h10]
        exact (C149_regular_rows_partial sqrt hs g A c c' hA hlon hlat hk0 hk1 i j px py qx qy v w h4 h9
          hv hw r h5 h6).1
  have hnone : ∀ p : SPt K × SPt K, EitherQuad g p.1 p.2 → p.2.cell.isNone = p.1.cell.isNone := by
    rintro p ⟨h1, h2 | ⟨i, j, px, py, qx, qy, r, h3, h4, h5, h6, h7⟩⟩
    · rw [h2]
    · rcases h7 with ⟨h8, _⟩ | ⟨h8, _⟩ <;> rw [h8, h3] <;> rfl
  have := eval_eq (xyS sqrt g (some .node)) (xyS sqrt g (some .node))
    (fun s s' => s' = s ∧ ∃ A, s = plain A ∧ CoversCells g A) (EitherQuad g) (by
      rintro s s' ⟨rfl, A, rfl, hA⟩ ps hps
      have hmap : ∀ (F : (K × K) × Option (Int × Int) → Except Err (Option K)),
          (∀ p ∈ ps, F (p.2.pos, p.2.cell) = F (p.1.pos, p.1.cell)) →
          mapE F ((ps.map fun p => p.2).map fun p => (p.pos, p.cell)) =
            mapE F ((ps.map fun p => p.1).map fun p => (p.pos, p.cell)) := by
        intro F hF
        simp only [List.map_map, mapE_comp]
        clear hps
        induction ps with
        | nil => rfl
        | cons p ps ih =>
          have h := hF p (List.mem_cons_self ..)
          have ih' := ih fun q hq => hF q (List.mem_cons_of_mem _ hq)
          simp only [mapE, Function.comp] at ih' ⊢
          rw [h, ih']
      have hint : SInterp.interpolate sqrt g (some .node) false (plain A)
          ((ps.map fun p => p.2).map fun p => (p.pos, p.cell)) =
          SInterp.interpolate sqrt g (some .node) false (plain A)
          ((ps.map fun p => p.1).map fun p => (p.pos, p.cell)) := by
        unfold SInterp.interpolate
        have hall : ((ps.map fun p => p.2).map fun p => (p.pos, p.cell)).all (fun q => q.2.isNone) =
            ((ps.map fun p => p.1).map fun p => (p.pos, p.cell)).all (fun q => q.2.isNone) := by
          simp only [List.map_map, List.all_map]
          rw [Bool.eq_iff_iff, List.all_eq_true, List.all_eq_true]
          constructor
          · intro h p hp
            have := h p hp
            simp only [Function.comp] at this ⊢
            rw [← hnone p (hps p hp)]; exact this
          · intro h p hp
            have := h p hp
            simp only [Function.comp] at this ⊢
            rw [hnone p (hps p hp)]; exact this
        rw [hall]
        split
        · simp [List.map_map, Function.comp_def]
        · simp only
          rw [if_neg (by decide), if_neg (by decide)]
          exact hmap _ fun p hp => hval A hA p (hps p hp)
      unfold xyS
      rw [hint])
    times ds ds rfl ((d.map plain).map fun s => (s, s)) (by
      cases d with
      | timeDepth d =>
        intro r hr s hs
        obtain ⟨r', hr', rfl⟩ := List.mem_map.mp hr
        obtain ⟨r'', hr'', rfl⟩ := List.mem_map.mp hr'
        obtain ⟨x, hx, rfl⟩ := List.mem_map.mp hs
        obtain ⟨x', hx', rfl⟩ := List.mem_map.mp hx
        exact ⟨rfl, x', rfl, hd r'' hr'' x' hx'⟩
      | time d =>
        intro s hs
        obtain ⟨x, hx, rfl⟩ := List.mem_map.mp hs
        obtain ⟨x', hx', rfl⟩ := List.mem_map.mp hx
        exact ⟨rfl, x', rfl, hd x' hx'⟩
      | depth d =>
        intro s hs
        obtain ⟨x, hx, rfl⟩ := List.mem_map.mp hs
        obtain ⟨x', hx', rfl⟩ := List.mem_map.mp hx
        exact ⟨rfl, x', rfl, hd x' hx'⟩
      | flat s => exact ⟨rfl, s, rfl, hd⟩) pts hpts hds t e
  have hdm : ∀ (D : Data (List (List (MV K)))) (f : List (List (MV K)) × List (List (MV K)) → List (List (MV K))),
      (∀ s, f (s, s) = s) → (D.map fun s => (s, s)).map f = D := by
    intro D f hf
    cases D <;> simp [Data.map, Function.comp_def, hf]
  rwa [hdm _ _ fun _ => rfl, hdm _ _ fun _ => rfl] at this

/-- Two cells in a row; the rows of the second run north. -/
def bentGrid : Grid ℝ where
  lon := [[0, 1, 1], [1, 2, 2]]
  lat := [[0, 0, 2], [1, 1, 3]]
  pads := fun _ => (.none, .none)
  centerMask := none
  behavior := "mask"

private theorem bent_first (sqrt : ℝ → ℝ) (x y : ℝ) :
    offset sqrt bentGrid (x, y) (((0 : Nat) : Int), ((0 : Nat) : Int)) = .ok (some (x - y, y)) := by
  have h1 : byIndex bentGrid.lon (((0 : Nat) : Int), ((0 : Nat) : Int)) = .ok (0, 1, 2, 1) := rfl
  have h2 : byIndex bentGrid.lat (((0 : Nat) : Int), ((0 : Nat) : Int)) = .ok (0, 1, 1, 0) := rfl
  simp only [offset, h1, h2, xToL, coeffs, quot]
  norm_num

private theorem bent_second (sqrt : ℝ → ℝ) (x y : ℝ) :
    offset sqrt bentGrid (x, y) (((0 : Nat) : Int), ((1 : Nat) : Int)) = .ok none := by
  have h1 : byIndex bentGrid.lon (((0 : Nat) : Int), ((1 : Nat) : Int)) = .ok (1, 2, 2, 1) := rfl
  have h2 : byIndex bentGrid.lat (((0 : Nat) : Int), ((1 : Nat) : Int)) = .ok (0, 1, 3, 2) := rfl
  simp only [offset, h1, h2, xToL, coeffs, quot]
  norm_num

/-- C149 is false: a point of the common side has a value in one cell, and in the other the evaluation
fails. -/
theorem C149_refuted : ¬ C149_statement := by
  intro h
  have hA : IsCorners ([[1, 2, 3], [4, 5, 6]] : List (List ℝ)) 0 0 (1, 4, 5, 2) := by
    simp [IsCorners, entry]
  have := h Real.sqrt (fun k hk => Real.mul_self_sqrt hk) bentGrid [[1, 2, 3], [4, 5, 6]] 3 3
    (by simp [Rectangular]) (by simp [Rectangular, bentGrid]) (by simp [Rectangular, bentGrid]) rfl
    0 0 (0, 1, 2, 1) (0, 1, 1, 0) (1, 2, 2, 1) (0, 1, 3, 2) (1, 4, 5, 2) (2, 5, 6, 3)
    ⟨by simp [IsCorners, entry, bentGrid], by simp [IsCorners, entry, bentGrid], by
      intro u v _ _ e1 e2
      simp only [bilinear] at e1 e2
      refine Prod.ext ?_ ?_ <;> linarith⟩
    ⟨by simp [IsCorners, entry, bentGrid], by simp [IsCorners, entry, bentGrid], by
      intro u v _ _ e1 e2
      simp only [bilinear] at e1 e2
      refine Prod.ext ?_ ?_ <;> linarith⟩
    hA (by simp [IsCorners, entry]) (1 / 2) (by norm_num) (by norm_num)
  rw [C46_value Real.sqrt bentGrid _ 3 (by simp [Rectangular]) _ 0 0 _ _ _ (bent_first _ _ _)
    (by simp [bentGrid]) (by simp [bentGrid]) (by simpa [bentGrid, lowPads] using hA)] at this
  have h2 : nodeValue Real.sqrt bentGrid (plain [[1, 2, 3], [4, 5, 6]])
      (bilinear (0, 1, 2, 1) 1 (1 / 2), bilinear (0, 1, 1, 0) 1 (1 / 2))
      (((0 : Nat) : Int), ((0 + 1 : Nat) : Int)) = .error .assertionError := by
    unfold nodeValue
    rw [cellOffset_eq Real.sqrt bentGrid _ _ none (bent_second _ _ _)]
    rfl
  rw [h2] at this
  simp at this

/-- A point of the side between the cells of two squares: found in both. -/
example : let g : Grid ℝ := { bentGrid with lon := [[0, 1, 3], [0, 1, 3]], lat := [[0, 0, 0], [1, 1, 1]] }
    OneToOneCell g 0 0 (0, 0, 1, 1) (0, 1, 1, 0) ∧ OneToOneCell g 0 1 (1, 1, 3, 3) (0, 1, 1, 0) ∧
      offset Real.sqrt g (1, 1 / 2) (((0 : Nat) : Int), ((0 : Nat) : Int)) = .ok (some (1, 1 / 2)) ∧
      offset Real.sqrt g (1, 1 / 2) (((0 : Nat) : Int), ((1 : Nat) : Int)) = .ok (some (0, 1 / 2)) := by
  refine ⟨⟨by simp [IsCorners, entry], by simp [IsCorners, entry], ?_⟩,
    ⟨by simp [IsCorners, entry], by simp [IsCorners, entry], ?_⟩, ?_, ?_⟩
  · intro u v _ _ e1 e2
    simp only [bilinear] at e1 e2
    refine Prod.ext ?_ ?_ <;> linarith
  · intro u v _ _ e1 e2
    simp only [bilinear] at e1 e2
    refine Prod.ext ?_ ?_ <;> linarith
  · have h1 : byIndex ([[0, 1, 3], [0, 1, 3]] : List (List ℝ)) (((0 : Nat) : Int), ((0 : Nat) : Int)) =
        .ok (0, 0, 1, 1) := rfl
    have h2 : byIndex ([[0, 0, 0], [1, 1, 1]] : List (List ℝ)) (((0 : Nat) : Int), ((0 : Nat) : Int)) =
        .ok (0, 1, 1, 0) := rfl
    simp only [offset, h1, h2, xToL, coeffs, quot]
    norm_num
  · have h1 : byIndex ([[0, 1, 3], [0, 1, 3]] : List (List ℝ)) (((0 : Nat) : Int), ((1 : Nat) : Int)) =
        .ok (1, 1, 3, 3) := rfl
    have h2 : byIndex ([[0, 0, 0], [1, 1, 1]] : List (List ℝ)) (((0 : Nat) : Int), ((1 : Nat) : Int)) =
        .ok (0, 1, 1, 0) := rfl
    simp only [offset, h1, h2, xToL, coeffs, quot]
    norm_num

/-- Two cells that are not rectangles, with a point on the common side and one on no common side. -/
example : let g : Grid ℝ := { bentGrid with lon := [[0, 1, 3], [0, 2, 3]], lat := [[0, 0, 0], [1, 2, 1]] }
    EitherQuad g ⟨some (0, 0), (3 / 2, 1), 5⟩ ⟨some (0, 1), (3 / 2, 1), 5⟩ := by
  intro g
  refine ⟨rfl, Or.inr ⟨0, 0, (0, 0, 2, 1), (0, 1, 2, 0), (1, 2, 3, 3), (0, 2, 1, 0), 1 / 2, rfl, ?_, by
    norm_num, by norm_num, Or.inl ⟨rfl, ?_, ?_⟩⟩⟩
  · refine ⟨by simp [g, IsCorners, entry, bentGrid], by simp [g, IsCorners, entry, bentGrid], ?_, ?_⟩
    · intro m h0 h1
      simp only [bilinear]
      intro h
      linarith
    · rintro l m ⟨h0, h1, h2, h3⟩
      simp only at h0 h1 h2 h3
      simp only [bilinear]
      intro h
      nlinarith [mul_nonneg h0 h2]
  · refine ⟨by simp [g, IsCorners, entry, bentGrid], by simp [g, IsCorners, entry, bentGrid], ?_, ?_⟩
    · intro m h0 h1
      simp only [bilinear]
      intro h
      linarith
    · rintro l m ⟨h0, h1, h2, h3⟩
      simp only at h0 h1 h2 h3
      simp only [bilinear]
      intro h
      nlinarith [mul_nonneg h0 h2]
  · simp only [bilinear]
    norm_num

/-- With masked data it is false even on squares: the corners off the common side have no weight, but
whether they are masked matters. -/
theorem C149_refuted_masks :
    let g : Grid ℝ := { bentGrid with lon := [[0, 1, 2], [0, 1, 2]], lat := [[0, 0, 0], [1, 1, 1]] }
    let A : List (List (MV ℝ)) := [[⟨5, false⟩, ⟨5, true⟩, ⟨5, true⟩], [⟨5, false⟩, ⟨5, true⟩, ⟨5, true⟩]]
    nodeValue Real.sqrt g A (1, 1 / 2) (0, 0) = .ok (some 0) ∧
      nodeValue Real.sqrt g A (1, 1 / 2) (0, 1) = .ok none := by
  intro g A
  have o1 : offset Real.sqrt g (1, 1 / 2) (0, 0) = .ok (some (1, 1 / 2)) := by
    have h1 : byIndex g.lon (0, 0) = .ok (0, 0, 1, 1) := rfl
    have h2 : byIndex g.lat (0, 0) = .ok (0, 1, 1, 0) := rfl
    simp only [offset, h1, h2, xToL, coeffs, quot]
    norm_num
  have o2 : offset Real.sqrt g (1, 1 / 2) (0, 1) = .ok (some (0, 1 / 2)) := by
    have h1 : byIndex g.lon (0, 1) = .ok (1, 1, 2, 2) := rfl
    have h2 : byIndex g.lat (0, 1) = .ok (0, 1, 1, 0) := rfl
    simp only [offset, h1, h2, xToL, coeffs, quot]
    norm_num
  constructor
  · unfold nodeValue
    rw [cellOffset_eq Real.sqrt g _ _ _ o1]
    have hp : applyPadding (g.pads .node) (0, 0) = .ok (0, 0) := rfl
    have hb : byIndex A (0, 0) = .ok (⟨5, false⟩, ⟨5, false⟩, ⟨5, true⟩, ⟨5, true⟩) := rfl
    simp only [hp, hb, Option.bind_some, maskedDot, filledZero, nodeWeights, dot]
    norm_num
  · unfold nodeValue
    rw [cellOffset_eq Real.sqrt g _ _ _ o2]
    have hp : applyPadding (g.pads .node) (0, 1) = .ok (0, 1) := rfl
    have hb : byIndex A (0, 1) = .ok (⟨5, true⟩, ⟨5, true⟩, ⟨5, true⟩, ⟨5, true⟩) := rfl
    simp only [hp, hb, Option.bind_some, maskedDot]
    norm_num

end C149

end Verif
