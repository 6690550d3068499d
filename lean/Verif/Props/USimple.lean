import Verif.Props.UGeom
import Verif.Spec.UState

/-!
# C215: the simple search finds the face a point lies in
-/

set_option autoImplicit false

namespace Verif
open UGeom Spec

section
variable {K : Type} [Field K] [LinearOrder K] [IsStrictOrderedRing K]

/-- A point is a mean of other points with weights that are not negative. -/
def HullPoint (ps : List (K × K)) (pt : K × K) : Prop :=
  ∃ ws : List K, ws.length = ps.length ∧ (∀ w ∈ ws, 0 ≤ w) ∧ ws.sum = 1 ∧
    pt.1 = (List.zipWith (fun w p => w * p.1) ws ps).sum ∧
    pt.2 = (List.zipWith (fun w p => w * p.2) ws ps).sum

/-- A point lies in a (convex) face of the mesh. -/
def InConvexFace (m : Mesh K) (j : Nat) (pt : K × K) : Prop :=
  ∃ row ps, m.faces[j]? = some row ∧ List.Forall₂ (NodeAt m.nodes) row ps ∧ HullPoint ps pt

/-- The corners of a convex polygon, all to the left or all to the right. -/
def ConvexCorners (ps : List (K × K)) : Prop :=
  (∀ (i j k : Nat) a b c, i < j → j < k → ps[i]? = some a → ps[j]? = some b → ps[k]? = some c → TurnsLeft a b c) ∨
  (∀ (i j k : Nat) a b c, i < j → j < k → ps[i]? = some a → ps[j]? = some b → ps[k]? = some c → TurnsRight a b c)

/-- A mesh of convex faces, each with at least three nodes. -/
def ConvexMesh (m : Mesh K) : Prop :=
  m.faces ≠ [] ∧ ∀ row ∈ m.faces, 3 ≤ row.length ∧
    ∃ ps, List.Forall₂ (NodeAt m.nodes) row ps ∧ ConvexCorners ps

end

/-- C215 as stated, with tolerance 0: the answer is a face the point lies in, or -1 if there is none. -/
def C215_statement : Prop :=
  ∀ (m : Mesh ℚ) (pts : List (ℚ × ℚ)), ConvexMesh m →
    ∃ is, simpleLocate 0 m pts = .ok is ∧ List.Forall₂ (fun pt (i : Int) =>
      (∃ j : Nat, i = j ∧ InConvexFace m j pt) ∨ (i = -1 ∧ ∀ j, ¬ InConvexFace m j pt)) pts is

section
variable {K : Type} [Field K] [LinearOrder K] [IsStrictOrderedRing K]

/-- The point of a node of the mesh. -/
theorem pyGet_nodeAt {nodes : List (K × K)} {i : Int} {p : K × K} (h : NodeAt nodes i p) :
    Np.pyGet nodes i = .ok p := by
  obtain ⟨n, rfl, hn⟩ := h
  simp [Np.pyGet, hn]

/-- A mean of three points is in their triangle, and the other way round. -/
theorem hullPoint_three (p q r pt : K × K) : HullPoint [p, q, r] pt ↔ InTriangle p q r pt := by
  constructor
  · rintro ⟨ws, hl, hp, hs, hx, hy⟩
    obtain ⟨a, b, c, rfl⟩ : ∃ a b c, ws = [a, b, c] := List.length_eq_three.mp hl
    simp only [List.zipWith_cons_cons, List.zipWith_nil_right, List.sum_cons, List.sum_nil, add_zero] at hx hy hs
    exact ⟨a, b, c, hp a (by simp), hp b (by simp), hp c (by simp), by
      unfold Weighted; refine ⟨?_, ?_, ?_⟩ <;> linarith⟩
  · rintro ⟨a, b, c, ha, hb, hc, h1, h2, h3⟩
    refine ⟨[a, b, c], rfl, by simp [ha, hb, hc], ?_, ?_, ?_⟩ <;>
      simp only [List.zipWith_cons_cons, List.zipWith_nil_right, List.sum_cons, List.sum_nil, add_zero] <;>
      linarith

/-- A mesh of triangles whose nodes go counterclockwise. -/
def LeftTriangles (m : Mesh K) : Prop :=
  m.faces ≠ [] ∧ ∀ row ∈ m.faces, ∃ a b c p q r, row = [a, b, c] ∧
    NodeAt m.nodes a p ∧ NodeAt m.nodes b q ∧ NodeAt m.nodes c r ∧ TurnsLeft p q r

/-- C215 for triangles that go counterclockwise, with any tolerance: a point is reported in a triangle
that contains it but for half the tolerance, and outside only if it is in no triangle. Missing: clockwise
triangles (`C215_clockwise`) and faces of more than three nodes (`C215_first_three`). -/
theorem C215_partial (eps : K) (h0 : 0 ≤ eps) (m : Mesh K) (pts : List (K × K)) (hm : LeftTriangles m) :
    ∃ is, simpleLocate eps m pts = .ok is ∧ List.Forall₂ (fun pt (i : Int) =>
      (∃ (j : Nat) (a b c : Int) (p q r : K × K), i = j ∧ m.faces[j]? = some [a, b, c] ∧
        NodeAt m.nodes a p ∧ NodeAt m.nodes b q ∧ NodeAt m.nodes c r ∧
        NearTriangle (eps / 2) p q r pt ∧ (eps = 0 → InConvexFace m j pt)) ∨
      (i = -1 ∧ ∀ j, ¬ InConvexFace m j pt)) pts is := by
  have ht : Testable m := by
    intro f hf
    obtain ⟨a, b, c, p, q, r, rfl, h1, h2, h3, -⟩ := hm.2 f hf
    exact ⟨a, b, c, [], p, q, r, rfl, pyGet_nodeAt h1, pyGet_nodeAt h2, pyGet_nodeAt h3⟩
  obtain ⟨is, h1, h2⟩ := C33_simple_locate_partial eps m pts ht hm.1
  refine ⟨is, h1, h2.imp ?_⟩
  have told : ∀ (pt : K × K) (j : Nat) (bo : Bool), FaceSays eps m pt j bo →
      ∃ a b c p q r, m.faces[j]? = some [a, b, c] ∧ NodeAt m.nodes a p ∧ NodeAt m.nodes b q ∧
        NodeAt m.nodes c r ∧ TurnsLeft p q r ∧ pointInTri eps p q r pt = bo := by
    rintro pt j bo ⟨x, y, z, t, p, q, r, hf, hx, hy, hz, hb⟩
    obtain ⟨a, b, c, p', q', r', he, g1, g2, g3, g4⟩ := hm.2 _ (List.mem_of_getElem? hf)
    cases he
    have e1 := (pyGet_nodeAt g1).symm.trans hx
    have e2 := (pyGet_nodeAt g2).symm.trans hy
    have e3 := (pyGet_nodeAt g3).symm.trans hz
    cases e1; cases e2; cases e3
    exact ⟨_, _, _, _, _, _, hf, g1, g2, g3, g4, hb⟩
  rintro pt i (⟨j, rfl, hj, -⟩ | ⟨rfl, hj⟩)
  · obtain ⟨a, b, c, p, q, r, hf, g1, g2, g3, g4, hb⟩ := told pt j true hj
    refine Or.inl ⟨j, a, b, c, p, q, r, rfl, hf, g1, g2, g3,
      (C32_counterclockwise_partial eps p q r pt g4).mp hb, ?_⟩
    rintro rfl
    exact ⟨_, [p, q, r], hf, .cons g1 (.cons g2 (.cons g3 .nil)),
      (hullPoint_three p q r pt).mpr ((C32_closed_triangle_partial 0 le_rfl p q r pt g4).2 hb)⟩
  · refine Or.inr ⟨rfl, ?_⟩
    rintro j ⟨row, ps, hf, hn, hmean⟩
    have hlt : j < m.faces.length := (List.getElem?_eq_some_iff.mp hf).1
    obtain ⟨a, b, c, p, q, r, hf', g1, g2, g3, g4, hb⟩ := told pt j false (hj j hlt)
    rw [hf] at hf'
    cases hf'
    have same : ∀ {i : Int} {x y : K × K}, NodeAt m.nodes i x → NodeAt m.nodes i y → x = y := by
      rintro i x y ⟨n, rfl, h⟩ ⟨n', e, h'⟩
      have : n = n' := by omega
      subst this
      rw [h] at h'
      exact Option.some.inj h'
    cases hn with
    | cons k1 hn =>
      cases hn with
      | cons k2 hn =>
        cases hn with
        | cons k3 hn =>
          cases hn
          rw [same k1 g1, same k2 g2, same k3 g3, hullPoint_three] at hmean
          rw [(C32_closed_triangle_partial eps h0 p q r pt g4).1 hmean] at hb
          cases hb

/-- C215, what happens instead: of faces with more nodes only the triangle of the first three is
searched. -/
theorem C215_first_three (eps : K) (m : Mesh K) (pts : List (K × K)) :
    simpleLocate eps m pts = simpleLocate eps { m with faces := m.faces.map (List.take 3) } pts := by
  have hloop : ∀ (pt : K × K) (fs : List (List Int)) (i : Nat) (cur : Int),
      simpleLoop eps m.nodes pt fs i cur = simpleLoop eps m.nodes pt (fs.map (List.take 3)) i cur := by
    intro pt fs
    induction fs with
    | nil => intro i cur; rfl
    | cons f fs ih =>
      intro i cur
      have hf : faceTest eps m.nodes f pt = faceTest eps m.nodes (f.take 3) pt := by
        match f with
        | [] => rfl
        | [_] => rfl
        | [_, _] => rfl
        | _ :: _ :: _ :: _ => rfl
      simp only [List.map_cons, simpleLoop, ← hf, ih]
  unfold simpleLocate
  congr 1
  funext pt
  exact hloop pt m.faces 0 0

/-- C215, what happens instead: if the first three nodes of the first face go clockwise, every point
anywhere is reported in that face. -/
theorem C215_clockwise (eps : K) (h0 : 0 ≤ eps) (m : Mesh K) (pts : List (K × K)) (a b c : Int)
    (t : List Int) (fs : List (List Int)) (hf : m.faces = (a :: b :: c :: t) :: fs) (p q r : K × K)
    (h1 : NodeAt m.nodes a p) (h2 : NodeAt m.nodes b q) (h3 : NodeAt m.nodes c r)
    (hr : TurnsRight p q r) : simpleLocate eps m pts = .ok (pts.map fun _ => 0) := by
  have hp : ∀ pt, simpleLoop eps m.nodes pt m.faces 0 0 = .ok 0 := by
    intro pt
    rw [hf]
    simp [simpleLoop, faceTest, pyGet_nodeAt h1, pyGet_nodeAt h2, pyGet_nodeAt h3,
      C32_clockwise_always_true eps h0 p q r pt hr]
  unfold simpleLocate
  induction pts with
  | nil => rfl
  | cons pt pts ih => simp only [DepthM.mapE, hp pt, ih, List.map_cons]

/-- A face of fewer than three nodes cannot be searched. -/
theorem C215_small (eps : K) (m : Mesh K) (pt : K × K) (pts : List (K × K)) (f : List Int)
    (fs : List (List Int)) (hf : m.faces = f :: fs) (hl : f.length < 3) :
    simpleLocate eps m (pt :: pts) = .error .indexError := by
  have ht : faceTest eps m.nodes f pt = .error .indexError := by
    match f, hl with
    | [], _ => rfl
    | [_], _ => rfl
    | [_, _], _ => rfl
  unfold simpleLocate
  rw [hf]
  simp only [DepthM.mapE, simpleLoop, ht]

end

/-- One triangle, clockwise. -/
def exClockwise : Mesh ℚ := ⟨[(0, 0), (1, 0), (0, 1)], [[0, 2, 1]]⟩

theorem exClockwise_convex : ConvexMesh exClockwise := by
  refine ⟨by decide, ?_⟩
  intro row hr
  simp only [exClockwise, List.mem_singleton] at hr
  subst hr
  refine ⟨by decide, [(0, 0), (0, 1), (1, 0)],
    .cons ⟨0, rfl, rfl⟩ (.cons ⟨2, rfl, rfl⟩ (.cons ⟨1, rfl, rfl⟩ .nil)), Or.inr ?_⟩
  intro i j k a b c hij hjk ha hb hc
  have hk : k < 3 := (List.getElem?_eq_some_iff.mp hc).1
  have : i = 0 := by omega
  have : j = 1 := by omega
  have : k = 2 := by omega
  subst i j k
  cases ha; cases hb; cases hc
  unfold TurnsRight TurnsLeft
  decide +kernel

/-- C215 is false: every point is reported in a clockwise triangle. -/
theorem C215_refuted : ¬ C215_statement := by
  intro h
  obtain ⟨is, h1, h2⟩ := h exClockwise [(5, 5)] exClockwise_convex
  have e : simpleLocate 0 exClockwise [(5, 5)] = .ok [0] := by decide +kernel
  rw [e] at h1
  cases h1
  cases h2 with
  | cons hd _ =>
    rcases hd with ⟨j, hj, row, ps, hf, hn, ws, hl, hp, hs, hx, -⟩ | ⟨hj, -⟩
    · have : j = 0 := by omega
      subst this
      cases hf
      cases hn with
      | cons k1 hn =>
        cases hn with
        | cons k2 hn =>
          cases hn with
          | cons k3 hn =>
            cases hn
            obtain ⟨n1, e1, g1⟩ := k1
            obtain ⟨n2, e2, g2⟩ := k2
            obtain ⟨n3, e3, g3⟩ := k3
            have : n1 = 0 := by omega
            have : n2 = 2 := by omega
            have : n3 = 1 := by omega
            subst n1 n2 n3
            cases g1; cases g2; cases g3
            obtain ⟨a, b, c, rfl⟩ : ∃ a b c, ws = [a, b, c] := List.length_eq_three.mp hl
            have ha := hp a (by simp)
            have hb := hp b (by simp)
            simp at hs hx
            linarith
    · exact absurd hj (by decide)

/-- A triangle that goes counterclockwise. -/
example : LeftTriangles (K := ℚ) ⟨[(0, 0), (1, 0), (0, 1)], [[0, 1, 2]]⟩ ∧
    simpleLocate (K := ℚ) 0 ⟨[(0, 0), (1, 0), (0, 1)], [[0, 1, 2]]⟩ [(1 / 4, 1 / 4), (1, 1)] = .ok [0, -1] := by
  refine ⟨⟨by decide, ?_⟩, by decide +kernel⟩
  intro row hr
  rw [List.mem_singleton] at hr
  subst hr
  exact ⟨0, 1, 2, (0, 0), (1, 0), (0, 1), rfl, ⟨0, rfl, rfl⟩, ⟨1, rfl, rfl⟩, ⟨2, rfl, rfl⟩, by
    unfold TurnsLeft; decide +kernel⟩

/-- The second half of a square is not found. -/
example : simpleLocate (K := ℚ) (1 / 100000) ⟨[(0, 0), (1, 0), (1, 1), (0, 1)], [[0, 1, 2, 3]]⟩
    [(3 / 4, 1 / 4), (1 / 4, 3 / 4)] = .ok [0, -1] := by
  decide +kernel

end Verif
