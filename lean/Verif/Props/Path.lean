import Verif.Lemmas.Path
import Verif.Props.CellChoice
import Verif.Props.Smooth

/-!
# C176: results change with position no faster than the data
-/

set_option autoImplicit false

namespace Verif
open Verif.At Verif.DepthM Verif.Spec Verif.TimeM

section C176
variable {K : Type} [Field K] [LinearOrder K]

/-- The position a part `s` of the way from `a` to `b`. -/
def onTheWay (a b : K × K) (s : K) : K × K := (a.1 + s * (b.1 - a.1), a.2 + s * (b.2 - a.2))

/-- Every position on the straight line from `a` to `b` is in a triangle of the mesh. -/
def Covered (m : UGeom.Mesh K) (a b : K × K) : Prop :=
  ∀ s : K, 0 ≤ s → s ≤ 1 → ∃ f : Int, 0 ≤ f ∧ InItsTriangle m ⟨f, onTheWay a b s, 0⟩

/-- Two triangles of the mesh meet along a common edge or at a common corner, if at all. -/
def Conforming (m : UGeom.Mesh K) : Prop :=
  ∀ p p' : UPt K, 0 ≤ p.face → 0 ≤ p'.face → InItsTriangle m p → InItsTriangle m p' →
    p'.pos = p.pos → p'.face = p.face ∨ OnCommon m p.face p'.face p.pos

/-- In every triangle the plane through the values at the corners has slopes within `Gx` and `Gy`. -/
def SlopesWithin (m : UGeom.Mesh K) (Gx Gy : K) (s : List (Option K)) : Prop :=
  ∀ (f : Int) (A B C : K × K) (u v w : K), 0 ≤ f → OnFace m s f A B C u v w → ProperTriangle A B C →
    ∃ c fx fy : K, |fx| ≤ Gx ∧ |fy| ≤ Gy ∧ u = c + fx * A.1 + fy * A.2 ∧
      v = c + fx * B.1 + fy * B.2 ∧ w = c + fx * C.1 + fy * C.2

/-- A triangle with the plane through the values at its corners. -/
private structure Piece (K : Type) where
  face : Int
  A : K × K
  B : K × K
  C : K × K
  c : K
  fx : K
  fy : K

variable [IsStrictOrderedRing K]

omit [IsStrictOrderedRing K] in
private def Piece.Good (m : UGeom.Mesh K) (Gx Gy : K) (s : List (Option K)) (i : Piece K) : Prop :=
  0 ≤ i.face ∧ OnFace m s i.face i.A i.B i.C (i.c + i.fx * i.A.1 + i.fy * i.A.2)
    (i.c + i.fx * i.B.1 + i.fy * i.B.2) (i.c + i.fx * i.C.1 + i.fy * i.C.2) ∧
    ProperTriangle i.A i.B i.C ∧ |i.fx| ≤ Gx ∧ |i.fy| ≤ Gy

private def Piece.weights (a b : K × K) (i : Piece K) : List (K × K) :=
  let d := UGeom.denom i.A i.B i.C
  [(UGeom.num1 i.A i.B i.C a / d, (UGeom.num1 i.A i.B i.C b - UGeom.num1 i.A i.B i.C a) / d),
   (UGeom.num2 i.A i.B i.C a / d, (UGeom.num2 i.A i.B i.C b - UGeom.num2 i.A i.B i.C a) / d),
   (UGeom.num3 i.A i.B i.C a / d, (UGeom.num3 i.A i.B i.C b - UGeom.num3 i.A i.B i.C a) / d)]

private def Piece.val (a b : K × K) (i : Piece K) (s : K) : K :=
  i.c + i.fx * (onTheWay a b s).1 + i.fy * (onTheWay a b s).2

private theorem piece_on {m : UGeom.Mesh K} {Gx Gy : K} {s : List (Option K)} {i : Piece K}
    (h : i.Good m Gx Gy s) (a b : K × K) (r : K) :
    Path.On (i.weights a b) r ↔ InTriangle i.A i.B i.C (onTheWay a b r) := by
  obtain ⟨_, _, hp, _⟩ := h
  have hd := UGeom.denom_ne hp
  have e1 : UGeom.num1 i.A i.B i.C a / UGeom.denom i.A i.B i.C +
      (UGeom.num1 i.A i.B i.C b - UGeom.num1 i.A i.B i.C a) / UGeom.denom i.A i.B i.C * r =
      UGeom.num1 i.A i.B i.C (onTheWay a b r) / UGeom.denom i.A i.B i.C := by
    rw [div_mul_eq_mul_div, ← add_div]
    congr 1
    simp only [UGeom.num1, onTheWay]; ring
  have e2 : UGeom.num2 i.A i.B i.C a / UGeom.denom i.A i.B i.C +
      (UGeom.num2 i.A i.B i.C b - UGeom.num2 i.A i.B i.C a) / UGeom.denom i.A i.B i.C * r =
      UGeom.num2 i.A i.B i.C (onTheWay a b r) / UGeom.denom i.A i.B i.C := by
    rw [div_mul_eq_mul_div, ← add_div]
    congr 1
    simp only [UGeom.num2, onTheWay]; ring
  have e3 : UGeom.num3 i.A i.B i.C a / UGeom.denom i.A i.B i.C +
      (UGeom.num3 i.A i.B i.C b - UGeom.num3 i.A i.B i.C a) / UGeom.denom i.A i.B i.C * r =
      UGeom.num3 i.A i.B i.C (onTheWay a b r) / UGeom.denom i.A i.B i.C := by
    rw [div_mul_eq_mul_div, ← add_div]
    congr 1
    simp only [UGeom.num3, onTheWay]; ring
  unfold Path.On Piece.weights
  simp only [List.mem_cons, List.not_mem_nil, or_false, forall_eq_or_imp, forall_eq, e1, e2, e3]
  constructor
  · rintro ⟨h1, h2, h3⟩
    exact ⟨_, _, _, h1, h2, h3, (UGeom.weighted_iff hd _ _ _ _).mpr ⟨rfl, rfl, rfl⟩⟩
  · rintro ⟨x, y, z, h1, h2, h3, hw⟩
    obtain ⟨rfl, rfl, rfl⟩ := (UGeom.weighted_iff hd _ _ _ _).mp hw
    exact ⟨h1, h2, h3⟩

private theorem good_in {m : UGeom.Mesh K} {Gx Gy : K} {s : List (Option K)} {i : Piece K}
    (h : i.Good m Gx Gy s) {pt : K × K} (z : K) :
    InTriangle i.A i.B i.C pt ↔ InItsTriangle m ⟨i.face, pt, z⟩ := by
  obtain ⟨h0, ⟨a, b, c, h1, h2, h3, h4, _⟩, hp, _⟩ := h
  constructor
  · intro hin
    exact ⟨by show i.face ≠ -1; omega, a, b, c, i.A, i.B, i.C, h1, h2, h3, h4, hp, hin⟩
  · rintro ⟨_, a', b', c', A, B, C, g1, g2, g3, g4, _, g5⟩
    simp only at g1
    rw [h1] at g1; cases g1
    rw [h2] at g2; rw [h3] at g3; rw [h4] at g4
    cases g2; cases g3; cases g4
    exact g5

private theorem good_value {m : UGeom.Mesh K} {Gx Gy : K} {s : List (Option K)} {i : Piece K}
    (h : i.Good m Gx Gy s) (pt : K × K) :
    UGeom.interpNode m s i.face pt = .ok (some (i.c + i.fx * pt.1 + i.fy * pt.2)) := by
  obtain ⟨h0, h1, hp, _⟩ := h
  exact C31_linear_exact i.c i.fx i.fy h1 (by omega) hp pt

private theorem good_exists {m : UGeom.Mesh K} {Gx Gy : K} {s : List (Option K)} (hs : NoNaN m s)
    (hg : SlopesWithin m Gx Gy s) {p : UPt K} (hf : 0 ≤ p.face) (hp : InItsTriangle m p) :
    ∃ i : Piece K, i.face = p.face ∧ i.Good m Gx Gy s := by
  obtain ⟨_, a, b, c, A, B, C, h1, h2, h3, h4, h5, _⟩ := hp
  have fin : ∀ (i : Int) (A : K × K), Np.pyGet m.nodes i = .ok A →
      ∃ x, Np.pyGet s i = .ok (some x) := by
    intro i A h
    obtain ⟨v, hv, hmem⟩ := pyGet_same hs.1 h
    obtain ⟨x, rfl⟩ := hs.2 v hmem
    exact ⟨x, hv⟩
  obtain ⟨u, hu⟩ := fin a A h2
  obtain ⟨v, hv⟩ := fin b B h3
  obtain ⟨w, hw⟩ := fin c C h4
  obtain ⟨d, fx, fy, gx, gy, rfl, rfl, rfl⟩ :=
    hg p.face A B C u v w hf ⟨a, b, c, h1, h2, h3, h4, hu, hv, hw⟩ h5
  exact ⟨⟨p.face, A, B, C, d, fx, fy⟩, rfl, hf, ⟨a, b, c, h1, h2, h3, h4, hu, hv, hw⟩, h5, gx, gy⟩

/-- C176, one slice of data without NaN on the nodes of triangles that fit together: along a straight
line that stays on the mesh the result changes no faster than the planes of the triangles slope, however
many triangles the line crosses and whichever of several triangles the ends are said to be in. -/
theorem C176_slice {m : UGeom.Mesh K} (hm : Conforming m) {Gx Gy : K} {s : List (Option K)}
    (hs : NoNaN m s) (hg : SlopesWithin m Gx Gy s) {p p' : UPt K} (hf : 0 ≤ p.face) (hf' : 0 ≤ p'.face)
    (hp : InItsTriangle m p) (hp' : InItsTriangle m p') (hc : Covered m p.pos p'.pos) :
    ∃ x y : K, UGeom.interpNode m s p.face p.pos = .ok (some x) ∧
      UGeom.interpNode m s p'.face p'.pos = .ok (some y) ∧
      |y - x| ≤ Gx * |p'.pos.1 - p.pos.1| + Gy * |p'.pos.2 - p.pos.2| := by
  obtain ⟨ps, h1, h2⟩ := Path.exists_list
    (fun (f : Int) (i : Piece K) => i.face = f ∧ i.Good m Gx Gy s)
    ((List.range m.faces.length).map Int.ofNat)
  have good : ∀ i ∈ ps, i.Good m Gx Gy s := by
    intro i hi
    obtain ⟨_, _, _, h⟩ := h1 i hi
    exact h
  have listed : ∀ q : UPt K, 0 ≤ q.face → InItsTriangle m q → ∃ i ∈ ps, i.face = q.face ∧
      i.Good m Gx Gy s := by
    intro q hq hin
    refine h2 q.face ?_ (good_exists hs hg hq hin)
    obtain ⟨_, a, b, c, _, _, _, e, _⟩ := hin
    have : q.face.toNat < m.faces.length := by
      unfold Np.pyGet at e
      rw [if_pos hq] at e
      split at e
      · rename_i y hy
        exact (List.getElem?_eq_some_iff.mp hy).1
      · cases e
    exact List.mem_map.mpr ⟨q.face.toNat, List.mem_range.mpr this, by simp [hq]⟩
  obtain ⟨i, hi, ei, gi⟩ := listed p hf hp
  obtain ⟨j, hj, ej, gj⟩ := listed p' hf' hp'
  have w0 : onTheWay p.pos p'.pos 0 = p.pos := by simp [onTheWay]
  have w1 : onTheWay p.pos p'.pos 1 = p'.pos := by simp [onTheWay]
  have hi0 : Path.On (i.weights p.pos p'.pos) 0 := by
    rw [piece_on gi, w0, good_in gi p.z, ei]; exact hp
  have hj1 : Path.On (j.weights p.pos p'.pos) 1 := by
    rw [piece_on gj, w1, good_in gj p'.z, ej]; exact hp'
  have key := Path.along ps (fun i => i.weights p.pos p'.pos) (fun i => i.val p.pos p'.pos)
    (Gx * |p'.pos.1 - p.pos.1| + Gy * |p'.pos.2 - p.pos.2|) (by
      intro k hk r r'
      obtain ⟨_, _, _, gx, gy⟩ := good k hk
      have : k.val p.pos p'.pos r' - k.val p.pos p'.pos r =
          (k.fx * (p'.pos.1 - p.pos.1) + k.fy * (p'.pos.2 - p.pos.2)) * (r' - r) := by
        simp only [Piece.val, onTheWay]; ring
      rw [this, abs_mul]
      refine mul_le_mul_of_nonneg_right ((abs_add_le _ _).trans ?_) (abs_nonneg _)
      rw [abs_mul, abs_mul]
      exact add_le_add (mul_le_mul_of_nonneg_right gx (abs_nonneg _))
        (mul_le_mul_of_nonneg_right gy (abs_nonneg _))) (by
      intro r r0 r1
      obtain ⟨f, hf, hin⟩ := hc r r0 r1
      obtain ⟨k, hk, ek, gk⟩ := listed _ hf hin
      refine ⟨k, hk, ?_⟩
      rw [piece_on gk, good_in gk 0, ek]
      exact hin) (by
      intro k hk l hl r ok ol
      have gk := good k hk
      have gl := good l hl
      rw [piece_on gk, good_in gk 0] at ok
      rw [piece_on gl, good_in gl 0] at ol
      have vk := good_value gk (onTheWay p.pos p'.pos r)
      have vl := good_value gl (onTheWay p.pos p'.pos r)
      rcases hm _ _ gk.1 gl.1 ok ol rfl with e | e
      · simp only at e
        rw [← e, vl] at vk
        exact (Option.some.inj (Except.ok.inj vk)).symm
      · have on : ∀ q : UPt K, InItsTriangle m q → OnTriangle m q := by
          rintro q ⟨h1, a, b, c, A, B, C, h2, h3, h4, h5, h6, _⟩
          exact ⟨h1, a, b, c, A, B, C, h2, h3, h4, h5, h6⟩
        have := C148_slice (data := s) hs.1 (by
          intro v hv
          obtain ⟨x, rfl⟩ := hs.2 v hv
          simp) (on _ ok) (on _ ol) rfl e
        simp only at this
        rw [vk, vl] at this
        exact (Option.some.inj (Except.ok.inj this)).symm) _ 0 1 le_rfl one_pos le_rfl le_rfl i hi j hj hi0 hj1
  simp only [Piece.val, w0, w1, sub_zero, mul_one] at key
  exact ⟨_, _, by rw [← ei]; exact good_value gi _, by rw [← ej]; exact good_value gj _, key⟩

/-- The two points of a move across the mesh: both located, and the straight line between them stays
on the mesh. -/
def Across (m : UGeom.Mesh K) (q : UPt K × UPt K) : Prop :=
  0 ≤ q.1.face ∧ 0 ≤ q.2.face ∧ InItsTriangle m q.1 ∧ InItsTriangle m q.2 ∧
    Covered m q.1.pos q.2.pos

/-- The most a value with these slopes can change between two positions. -/
def most (Gx Gy : K) (a b : K × K) : K := Gx * |b.1 - a.1| + Gy * |b.2 - a.2|

private theorem uValue_across {m : UGeom.Mesh K} (hm : Conforming m) {Gx Gy : K} {s : List (Option K)}
    (hs : NoNaN m s) (hg : SlopesWithin m Gx Gy s) {q : UPt K × UPt K} (hq : Across m q) :
    |uValue m s q.2 - uValue m s q.1| ≤ most Gx Gy q.1.pos q.2.pos := by
  obtain ⟨h1, h2, h3, h4, h5⟩ := hq
  obtain ⟨x, y, ex, ey, hb⟩ := C176_slice hm hs hg h1 h2 h3 h4 h5
  unfold uValue
  rw [ex, ey]
  exact hb

private theorem mean_within {θ a b a' b' B : K} (t0 : 0 ≤ θ) (t1 : θ ≤ 1) (h1 : |a' - a| ≤ B)
    (h2 : |b' - b| ≤ B) : |((1 - θ) * a' + θ * b') - ((1 - θ) * a + θ * b)| ≤ B := by
  obtain ⟨l1, u1⟩ := abs_le.mp h1
  obtain ⟨l2, u2⟩ := abs_le.mp h2
  rw [abs_le]
  constructor
  · have q1 := mul_le_mul_of_nonneg_left l1 (sub_nonneg.mpr t1)
    have q2 := mul_le_mul_of_nonneg_left l2 t0
    linarith
  · have q1 := mul_le_mul_of_nonneg_left u1 (sub_nonneg.mpr t1)
    have q2 := mul_le_mul_of_nonneg_left u2 t0
    linarith

/-- C176, data over time: at every time served, whatever the depths. -/
theorem C176_surface (m : UGeom.Mesh K) (hm : Conforming m) (times : List Int) (hs : StrictIncr times)
    (hne : times ≠ []) (ds : DepthSys K (UPt K)) (data : List (List (Option K)))
    (hdl : data.length = times.length) (hd : ∀ s ∈ data, NoNaN m s) (Gx Gy : K)
    (hg : ∀ s ∈ data, SlopesWithin m Gx Gy s) (t : Int) (e : Bool) (ht : Served times t e)
    (pts : List (UPt K × UPt K)) (hpts : ∀ q ∈ pts, Across m q) :
    ∃ out out', eval (xyU m .node) times ds (.time data) (pts.map fun q => q.1) t e = .ok out ∧
      eval (xyU m .node) times ds (.time data) (pts.map fun q => q.2) t e = .ok out' ∧
      out.length = pts.length ∧ out'.length = pts.length ∧
      ∀ (n : Nat) (q : UPt K × UPt K), pts[n]? = some q → ∃ x y, out[n]? = some ⟨some x, false⟩ ∧
        out'[n]? = some ⟨some y, false⟩ ∧ |y - x| ≤ most Gx Gy q.1.pos q.2.pos := by
  obtain ⟨i, j, α, ⟨a0, a1, hi, hj, _⟩, hall⟩ := C113_surface (xyU m .node) times hs hne data hdl
    (InItsTriangle m) (fun i p => uValue m ((data[i]?).getD []) p) (by
      intro i s his ps hps
      obtain ⟨lo, hi, h⟩ := noNaN_within (hd s (List.mem_of_getElem? his))
      rw [xyU_value m lo hi s h ps hps]
      simp only [his, Option.getD_some]) t e ht
  refine ⟨_, _, hall ds _ ?_, hall ds _ ?_, by simp, by simp, ?_⟩
  · intro p hp
    obtain ⟨q, hq, rfl⟩ := List.mem_map.mp hp
    exact (hpts q hq).2.2.1
  · intro p hp
    obtain ⟨q, hq, rfl⟩ := List.mem_map.mp hp
    exact (hpts q hq).2.2.2.1
  · intro n q hq
    refine ⟨_, _, by simp only [List.getElem?_map, hq, Option.map_some]; rfl,
      by simp only [List.getElem?_map, hq, Option.map_some]; rfl, ?_⟩
    have each : ∀ k, k < times.length → |uValue m ((data[k]?).getD []) q.2 -
        uValue m ((data[k]?).getD []) q.1| ≤ most Gx Gy q.1.pos q.2.pos := by
      intro k hk
      obtain ⟨s, hsl⟩ : ∃ s, data[k]? = some s := ⟨_, List.getElem?_eq_getElem (by omega)⟩
      simp only [hsl, Option.getD_some]
      have := List.mem_of_getElem? hsl
      exact uValue_across hm (hd s this) (hg s this) (hpts q (List.mem_of_getElem? hq))
    exact mean_within a0 a1 (each i hi) (each j hj)

/-- Data over times and levels, points moved at the same depth. -/
private theorem level_move (m : UGeom.Mesh K) (hm : Conforming m) (times : List Int)
    (hs : StrictIncr times) (hne : times ≠ []) (levels : List K)
    (hlv : StrictIncr levels ∨ StrictDecr levels) (hn : 2 ≤ levels.length) (sbc bbc : BC)
    (data : List (List (List (Option K)))) (hdl : data.length = times.length)
    (hdr : ∀ r ∈ data, r.length = levels.length) (hd : ∀ r ∈ data, ∀ s ∈ r, NoNaN m s) (Gx Gy : K)
    (hg : ∀ r ∈ data, ∀ s ∈ r, SlopesWithin m Gx Gy s) (t : Int) (e : Bool) (ht : Served times t e)
    (pts : List (UPt K × UPt K))
    (hpts : ∀ q ∈ pts, Across m q ∧ q.2.z = q.1.z ∧ WithinLevels levels q.1.z) :
    ∃ out out', eval (xyU m .node) times (levelSys UPt.z levels sbc bbc) (.timeDepth data)
        (pts.map fun q => q.1) t e = .ok out ∧
      eval (xyU m .node) times (levelSys UPt.z levels sbc bbc) (.timeDepth data)
        (pts.map fun q => q.2) t e = .ok out' ∧
      out.length = pts.length ∧ out'.length = pts.length ∧
      ∀ (n : Nat) (q : UPt K × UPt K), pts[n]? = some q → ∃ x y, out[n]? = some ⟨some x, false⟩ ∧
        out'[n]? = some ⟨some y, false⟩ ∧ |y - x| ≤ most Gx Gy q.1.pos q.2.pos := by
  obtain ⟨i, j, θ, hw, hall⟩ := C113_levels_partial (xyU m .node) times hs hne levels.length hn data
    (InItsTriangle m) (fun i k p => uValue m (((data[i]?).getD [])[k]?.getD []) p) ⟨hdl, hdr, by
      intro i k r s hr hk ps hps
      obtain ⟨lo, hi, h⟩ := noNaN_within (hd r (List.mem_of_getElem? hr) s (List.mem_of_getElem? hk))
      rw [xyU_value m lo hi s h ps hps]
      simp only [hr, hk, Option.getD_some]⟩ t e ht
  obtain ⟨ents, he, hbl, hp⟩ := levelSys_picks UPt.z levels hlv hn sbc bbc (pts.map fun q => q.1) (by
    intro p hp
    obtain ⟨q, hq, rfl⟩ := List.mem_map.mp hp
    exact (hpts q hq).2.2)
  have he' : (levelSys UPt.z levels sbc bbc).alphas (pts.map fun q => q.2) = .ok ents := by
    rw [← he]
    simp only [levelSys, List.map_map]
    congr 1
    refine List.map_congr_left fun q hq => ?_
    exact (hpts q hq).2.1
  have hnl : levels.length ≠ (levelSys (P := UPt K) UPt.z levels sbc bbc).numLayers := by
    show levels.length ≠ levels.length - 1; omega
  obtain ⟨out, ho, hol, h1⟩ := hall (levelSys UPt.z levels sbc bbc) (pts.map fun q => q.1) ents (by
    intro p hp
    obtain ⟨q, hq, rfl⟩ := List.mem_map.mp hp
    exact (hpts q hq).1.2.2.1) hnl he hbl
  obtain ⟨out', ho', hol', h2⟩ := hall (levelSys UPt.z levels sbc bbc) (pts.map fun q => q.2) ents (by
    intro p hp
    obtain ⟨q, hq, rfl⟩ := List.mem_map.mp hp
    exact (hpts q hq).1.2.2.2.1) hnl he' ⟨by simpa using hbl.1, hbl.2⟩
  refine ⟨out, out', ho, ho', by simpa using hol, by simpa using hol', ?_⟩
  intro n q hq
  have hmem := List.mem_of_getElem? hq
  have q1 : (pts.map fun q => q.1)[n]? = some q.1 := by rw [List.getElem?_map, hq]; rfl
  have q2 : (pts.map fun q => q.2)[n]? = some q.2 := by rw [List.getElem?_map, hq]; rfl
  obtain ⟨ent, hent⟩ : ∃ ent, ents[n]? = some ent := by
    have := (List.getElem?_eq_some_iff.mp q1).1
    exact ⟨_, List.getElem?_eq_getElem (by rw [hbl.1]; exact this)⟩
  obtain ⟨hmk, α, k, a, b, hα, hk, ha, hb, hab⟩ := hp n q.1 ent q1 hent
  obtain ⟨_, α2, hα2, a0, a1, _⟩ := hbl.2 ent (List.mem_of_getElem? hent) hmk
  rw [hα] at hα2; cases hα2
  have hkl := (List.getElem?_eq_some_iff.mp hb).1
  have mixes : ∀ (f : Nat → K) (v : K), LevelMix levels.length f ent.idx α v →
      v = (1 - α) * f k + α * f (k + 1) := by
    intro f v hv
    rcases hv with ⟨j, hj, _, hv⟩ | ⟨hj, _⟩ | ⟨hj, _⟩
    · obtain rfl : j = k := by omega
      exact hv
    · omega
    · omega
  obtain ⟨c, hc, hcm, hcv⟩ := h1 n q.1 ent q1 hent
  obtain ⟨c', hc', hcm', hcv'⟩ := h2 n q.2 ent q2 hent
  obtain ⟨β, v, w, hβ, hv, hw1, hx⟩ := hcv hmk
  obtain ⟨β', v', w', hβ', hv', hw1', hy⟩ := hcv' hmk
  rw [hα] at hβ hβ'; cases hβ; cases hβ'
  rw [mixes _ v hv, mixes _ w hw1] at hx
  rw [mixes _ v' hv', mixes _ w' hw1'] at hy
  have hout : ∀ (c : Cell K) (x : K), c.masked = ent.masked → c.value = some x → c = ⟨some x, false⟩ := by
    rintro ⟨cv, cm⟩ x h1 h2
    simp only at h1 h2
    rw [h1, h2, hmk]
  refine ⟨_, _, by rw [hc]; exact congrArg some (hout c _ hcm hx),
    by rw [hc']; exact congrArg some (hout c' _ hcm' hy), ?_⟩
  have each : ∀ i, i < times.length → ∀ k, k < levels.length →
      |uValue m (((data[i]?).getD [])[k]?.getD []) q.2 -
        uValue m (((data[i]?).getD [])[k]?.getD []) q.1| ≤ most Gx Gy q.1.pos q.2.pos := by
    intro i hi k hk
    obtain ⟨r, hr⟩ : ∃ r, data[i]? = some r := ⟨_, List.getElem?_eq_getElem (by omega)⟩
    have hrm := List.mem_of_getElem? hr
    have hrl := hdr r hrm
    obtain ⟨s, hsl⟩ : ∃ s, r[k]? = some s := ⟨_, List.getElem?_eq_getElem (by omega)⟩
    simp only [hr, hsl, Option.getD_some]
    have := List.mem_of_getElem? hsl
    exact uValue_across hm (hd r hrm s this) (hg r hrm s this) (hpts q hmem).1
  exact mean_within hw.1 hw.2.1
    (mean_within a0 a1 (each i hw.2.2.1 k (by omega)) (each i hw.2.2.1 (k + 1) hkl))
    (mean_within a0 a1 (each j hw.2.2.2.1 k (by omega)) (each j hw.2.2.2.1 (k + 1) hkl))

/-- C176, data over times and levels, depths within the levels: both queries answer, and every result
changes by no more than the horizontal slopes times the distances plus the rate with depth times the
change of depth. -/
theorem C176_levels (m : UGeom.Mesh K) (hm : Conforming m) (times : List Int)
    (hs : StrictIncr times) (hne : times ≠ []) (levels : List K)
    (hlv : StrictIncr levels ∨ StrictDecr levels) (hn : 2 ≤ levels.length) (sbc bbc : BC)
    (data : List (List (List (Option K)))) (hdl : data.length = times.length)
    (hdr : ∀ r ∈ data, r.length = levels.length) (hd : ∀ r ∈ data, ∀ s ∈ r, NoNaN m s) (Gx Gy Gz : K)
    (hg : ∀ r ∈ data, ∀ s ∈ r, SlopesWithin m Gx Gy s) (hz : 0 ≤ Gz)
    (hslow : ∀ r ∈ data, SlowInDepth levels Gz r) (t : Int) (e : Bool) (ht : Served times t e)
    (pts : List (UPt K × UPt K))
    (hpts : ∀ q ∈ pts, Across m q ∧ WithinLevels levels q.1.z ∧ WithinLevels levels q.2.z) :
    ∃ out out', eval (xyU m .node) times (levelSys UPt.z levels sbc bbc) (.timeDepth data)
        (pts.map fun q => q.1) t e = .ok out ∧
      eval (xyU m .node) times (levelSys UPt.z levels sbc bbc) (.timeDepth data)
        (pts.map fun q => q.2) t e = .ok out' ∧
      out.length = pts.length ∧ out'.length = pts.length ∧
      ∀ (n : Nat) (q : UPt K × UPt K), pts[n]? = some q → ∃ x y, out[n]? = some ⟨some x, false⟩ ∧
        out'[n]? = some ⟨some y, false⟩ ∧
        |y - x| ≤ most Gx Gy q.1.pos q.2.pos + Gz * |q.2.z - q.1.z| := by
  obtain ⟨out, mid, ho, hmid, hol, _, h1⟩ := level_move m hm times hs hne levels hlv hn sbc bbc data hdl
    hdr hd Gx Gy hg t e ht (pts.map fun q => (q.1, { q.2 with z := q.1.z })) (by
      intro q hq
      obtain ⟨q, hq', rfl⟩ := List.mem_map.mp hq
      obtain ⟨⟨a1, a2, a3, a4, a5⟩, b, _⟩ := hpts q hq'
      exact ⟨⟨a1, a2, a3, a4, a5⟩, rfl, b⟩)
  obtain ⟨mid', out', hmid', ho', _, hol', h2⟩ := C167_partial m times hs hne levels hlv hn sbc bbc data
    hdl hdr hd Gz hz hslow t e ht (pts.map fun q => ({ q.2 with z := q.1.z }, q.2)) (by
      intro q hq
      obtain ⟨q, hq', rfl⟩ := List.mem_map.mp hq
      obtain ⟨⟨a1, a2, a3, a4, a5⟩, b, c⟩ := hpts q hq'
      exact ⟨⟨a4, rfl, rfl⟩, b, c⟩)
  simp only [List.map_map, Function.comp_def] at ho hmid hmid' ho'
  rw [hmid] at hmid'
  cases hmid'
  refine ⟨out, out', ho, ho', by simpa using hol, by simpa using hol', ?_⟩
  intro n q hq
  obtain ⟨x, y, e1, e2, b1⟩ := h1 n (q.1, { q.2 with z := q.1.z }) (by rw [List.getElem?_map, hq]; rfl)
  obtain ⟨y', w, e3, e4, b2⟩ := h2 n ({ q.2 with z := q.1.z }, q.2) (by rw [List.getElem?_map, hq]; rfl)
  rw [e2] at e3
  cases e3
  refine ⟨x, w, e1, e4, ?_⟩
  have : w - x = (y - x) + (w - y) := by ring
  rw [this]
  exact (abs_add_le _ _).trans (add_le_add b1 b2)

end C176

/-! ## A case -/

/-- Two triangles that make a square. -/
def square : UGeom.Mesh ℚ where
  nodes := [(0, 0), (4, 0), (0, 4), (4, 4)]
  faces := [[0, 1, 2], [2, 1, 3]]

private theorem square_faces {f a b c : Int} (h0 : 0 ≤ f) (h : Np.pyGet square.faces f = .ok [a, b, c]) :
    f = 0 ∧ a = 0 ∧ b = 1 ∧ c = 2 ∨ f = 1 ∧ a = 2 ∧ b = 1 ∧ c = 3 := by
  obtain ⟨n, rfl⟩ := Int.eq_ofNat_of_zero_le h0
  rcases n with _ | _ | n
  · cases h; exact Or.inl ⟨rfl, rfl, rfl, rfl⟩
  · cases h; exact Or.inr ⟨rfl, rfl, rfl, rfl⟩
  · exfalso
    unfold Np.pyGet at h
    rw [if_pos h0] at h
    simp [square] at h

/-- In the first triangle: below the diagonal; in the second: above. -/
private theorem square_in {p : UPt ℚ} (h0 : 0 ≤ p.face) (h : InItsTriangle square p) :
    p.face = 0 ∧ p.pos.1 + p.pos.2 ≤ 4 ∨ p.face = 1 ∧ 4 ≤ p.pos.1 + p.pos.2 := by
  obtain ⟨_, a, b, c, A, B, C, h1, h2, h3, h4, _, α, β, γ, x, y, z, w1, w2, w3⟩ := h
  rcases square_faces h0 h1 with ⟨e, rfl, rfl, rfl⟩ | ⟨e, rfl, rfl, rfl⟩
  · cases h2; cases h3; cases h4
    exact Or.inl ⟨e, by rw [w2, w3]; norm_num; linarith⟩
  · cases h2; cases h3; cases h4
    exact Or.inr ⟨e, by rw [w2, w3]; norm_num; linarith⟩

theorem square_conforming : Conforming square := by
  intro p p' h0 h0' h h' hpos
  have common : ∀ x y : ℚ, x + y = 4 → OnCommon square 0 1 (x, y) ∧ OnCommon square 1 0 (x, y) := by
    intro x y hxy
    have c0 : CornerOf square 0 1 := ⟨0, 1, 2, rfl, by decide⟩
    have c1 : CornerOf square 0 2 := ⟨0, 1, 2, rfl, by decide⟩
    have c2 : CornerOf square 1 1 := ⟨2, 1, 3, rfl, by decide⟩
    have c3 : CornerOf square 1 2 := ⟨2, 1, 3, rfl, by decide⟩
    have e : ((x, y) : ℚ × ℚ) = ((1 - y / 4) * 4 + y / 4 * 0, (1 - y / 4) * 0 + y / 4 * 4) := by
      rw [Prod.mk.injEq]; exact ⟨by linarith, by ring⟩
    exact ⟨⟨1, 2, (4, 0), (0, 4), y / 4, c0, c1, c2, c3, rfl, rfl, e⟩,
      ⟨1, 2, (4, 0), (0, 4), y / 4, c2, c3, c0, c1, rfl, rfl, e⟩⟩
  rcases square_in h0 h with ⟨e, g⟩ | ⟨e, g⟩ <;> rcases square_in h0' h' with ⟨e', g'⟩ | ⟨e', g'⟩
  · exact Or.inl (by rw [e, e'])
  · rw [hpos] at g'
    rw [e, e']
    exact Or.inr (common p.pos.1 p.pos.2 (le_antisymm g g')).1
  · rw [hpos] at g'
    rw [e, e']
    exact Or.inr (common p.pos.1 p.pos.2 (le_antisymm g' g)).2
  · exact Or.inl (by rw [e, e'])

theorem square_low {x y : ℚ} (z : ℚ) (hx : 0 ≤ x) (hy : 0 ≤ y) (h : x + y ≤ 4) :
    InItsTriangle square ⟨0, (x, y), z⟩ :=
  ⟨by show (0 : Int) ≠ -1; decide, 0, 1, 2, (0, 0), (4, 0), (0, 4), rfl, rfl, rfl, rfl,
    Or.inl (by unfold TurnsLeft; norm_num), 1 - x / 4 - y / 4, x / 4, y / 4, by linarith, by linarith,
    by linarith, by ring, by ring, by ring⟩

theorem square_high {x y : ℚ} (z : ℚ) (hx : x ≤ 4) (hy : y ≤ 4) (h : 4 ≤ x + y) :
    InItsTriangle square ⟨1, (x, y), z⟩ :=
  ⟨by show (1 : Int) ≠ -1; decide, 2, 1, 3, (0, 4), (4, 0), (4, 4), rfl, rfl, rfl, rfl,
    Or.inl (by unfold TurnsLeft; norm_num), 1 - x / 4, 1 - y / 4, x / 4 + y / 4 - 1, by linarith,
    by linarith, by linarith, by ring, by ring, by ring⟩

theorem square_across : Across square (⟨0, (1, 0), 2⟩, ⟨1, (3, 4), 6⟩) := by
  refine ⟨le_rfl, by decide, square_low 2 (by norm_num) (by norm_num) (by norm_num),
    square_high 6 (by norm_num) (by norm_num) (by norm_num), ?_⟩
  intro s s0 s1
  have e : onTheWay ((1, 0) : ℚ × ℚ) (3, 4) s = (1 + 2 * s, 4 * s) := by
    simp only [onTheWay, Prod.mk.injEq]; exact ⟨by ring, by ring⟩
  show ∃ f : Int, 0 ≤ f ∧ InItsTriangle square ⟨f, onTheWay ((1, 0) : ℚ × ℚ) (3, 4) s, 0⟩
  rw [e]
  rcases le_total s (1 / 2) with h | h
  · exact ⟨0, le_rfl, square_low 0 (by linarith) (by linarith) (by linarith)⟩
  · exact ⟨1, by decide, square_high 0 (by linarith) (by linarith) (by linarith)⟩

/-- Slopes of data on the square, from the corner values. -/
private theorem square_slopes (a b c d Gx Gy : ℚ) (h1 : |(b - a) / 4| ≤ Gx) (h2 : |(c - a) / 4| ≤ Gy)
    (h3 : |(d - c) / 4| ≤ Gx) (h4 : |(d - b) / 4| ≤ Gy) :
    SlopesWithin square Gx Gy [some a, some b, some c, some d] := by
  rintro f A B C u v w hf ⟨i, j, k, e1, e2, e3, e4, e5, e6, e7⟩ _
  rcases square_faces hf e1 with ⟨_, rfl, rfl, rfl⟩ | ⟨_, rfl, rfl, rfl⟩
  · cases e2; cases e3; cases e4; cases e5; cases e6; cases e7
    exact ⟨a, (b - a) / 4, (c - a) / 4, h1, h2, by ring, by ring, by ring⟩
  · cases e2; cases e3; cases e4; cases e5; cases e6; cases e7
    exact ⟨b + c - d, (d - c) / 4, (d - b) / 4, h3, h4, by ring, by ring, by ring⟩

private theorem close4 (B a b c d a' b' c' d' : ℚ) (h1 : |a' - a| ≤ B) (h2 : |b' - b| ≤ B)
    (h3 : |c' - c| ≤ B) (h4 : |d' - d| ≤ B) :
    CloseU B [some a, some b, some c, some d] [some a', some b', some c', some d'] := by
  refine ⟨rfl, ?_⟩
  intro i u v hu hv x y hx hy
  rcases i with _ | _ | _ | _ | i <;> cases hu <;> cases hv <;> cases hx <;> cases hy <;> assumption

/-- From the first triangle to the second, and deeper. -/
example : ∃ out out',
    eval (xyU square .node) [0, 10] (levelSys UPt.z [0, 10] .extrapolate .mask)
      (.timeDepth [[[some 1, some 5, some 9, some 5], [some 3, some 7, some 11, some 7]],
        [[some 1, some 5, some 9, some 5], [some 1, some 5, some 9, some 5]]])
      [⟨0, (1, 0), 2⟩] 5 false = .ok out ∧
    eval (xyU square .node) [0, 10] (levelSys UPt.z [0, 10] .extrapolate .mask)
      (.timeDepth [[[some 1, some 5, some 9, some 5], [some 3, some 7, some 11, some 7]],
        [[some 1, some 5, some 9, some 5], [some 1, some 5, some 9, some 5]]])
      [⟨1, (3, 4), 6⟩] 5 false = .ok out' ∧
    out.length = 1 ∧ out'.length = 1 ∧
    ∀ (n : Nat) (q : UPt ℚ × UPt ℚ),
      [((⟨0, (1, 0), 2⟩, ⟨1, (3, 4), 6⟩) : UPt ℚ × UPt ℚ)][n]? = some q →
      ∃ x y, out[n]? = some ⟨some x, false⟩ ∧ out'[n]? = some ⟨some y, false⟩ ∧
        |y - x| ≤ most 1 2 q.1.pos q.2.pos + 1 / 5 * |q.2.z - q.1.z| := by
  refine C176_levels square square_conforming [0, 10] (by unfold StrictIncr; decide) (by simp) [0, 10]
    (Or.inl (by unfold StrictIncr; decide +kernel)) (by decide) _ _ _ rfl (by simp) ?_ 1 2 (1 / 5) ?_
    (by norm_num) ?_ 5 false (Or.inr (Or.inr ⟨0, 10, rfl, rfl, by decide, by decide⟩))
    [(⟨0, (1, 0), 2⟩, ⟨1, (3, 4), 6⟩)] ?_
  · intro r hr s hs
    simp only [List.mem_cons, List.not_mem_nil, or_false] at hr
    rcases hr with rfl | rfl <;>
    · simp only [List.mem_cons, List.not_mem_nil, or_false] at hs
      rcases hs with rfl | rfl <;> exact ⟨rfl, by simp⟩
  · intro r hr s hs
    simp only [List.mem_cons, List.not_mem_nil, or_false] at hr
    rcases hr with rfl | rfl <;>
    · simp only [List.mem_cons, List.not_mem_nil, or_false] at hs
      rcases hs with rfl | rfl <;> exact square_slopes _ _ _ _ _ _ (by norm_num) (by norm_num)
        (by norm_num) (by norm_num)
  · intro r hr i j x y s s' hx hy hs hs'
    simp only [List.mem_cons, List.not_mem_nil, or_false] at hr
    rcases hr with rfl | rfl <;> rcases i with _ | _ | i <;> rcases j with _ | _ | j <;>
      cases hx <;> cases hy <;> cases hs <;> cases hs' <;>
      exact close4 _ _ _ _ _ _ _ _ _ (by norm_num) (by norm_num) (by norm_num) (by norm_num)
  · intro q hq
    simp only [List.mem_singleton] at hq
    subst hq
    exact ⟨square_across, ⟨0, 10, rfl, rfl, Or.inl (by norm_num)⟩, ⟨0, 10, rfl, rfl, Or.inl (by norm_num)⟩⟩

end Verif
