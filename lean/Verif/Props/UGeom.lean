import Verif.Lemmas.UGeom
import Mathlib.Algebra.Order.Ring.Rat
import Mathlib.Algebra.Field.Rat

/-!
# C31-C34: triangles, simple location, interpolation on unstructured grids
-/

set_option autoImplicit false

namespace Verif
open UGeom Spec
open Verif.DepthM (mapE)

/-! ## C31 -/

section C31
variable {K : Type*} [Field K] [LinearOrder K] [IsStrictOrderedRing K]

/-- In a triangle of either winding the weights are finite, add up to 1 and reproduce the point;
they are the only such weights. -/
theorem C31_weights {p q r : K × K} (h : ProperTriangle p q r) (pt : K × K) (ind : Int)
    (hi : ind ≠ -1) :
    ∃ a b c : K, alphas ind p q r pt = (some a, some b, some c) ∧ Weighted p q r pt a b c ∧
      ∀ a' b' c', Weighted p q r pt a' b' c' → a' = a ∧ b' = b ∧ c' = c := by
  have hd := denom_ne h
  refine ⟨_, _, _, ?_, (weighted_iff hd pt _ _ _).mpr ⟨rfl, rfl, rfl⟩, fun a' b' c' hw =>
    (weighted_iff hd pt _ _ _).mp hw⟩
  simp [alphas, hi, fdiv, hd]

/-- The weights are all non-negative exactly for points of the closed triangle. -/
theorem C31_nonneg_iff {p q r : K × K} (h : ProperTriangle p q r) (pt : K × K) (ind : Int)
    (hi : ind ≠ -1) (a b c : K) (ha : alphas ind p q r pt = (some a, some b, some c)) :
    (0 ≤ a ∧ 0 ≤ b ∧ 0 ≤ c) ↔ InTriangle p q r pt := by
  obtain ⟨a', b', c', h1, h2, h3⟩ := C31_weights h pt ind hi
  rw [h1] at ha
  simp only [Prod.mk.injEq, Option.some.injEq] at ha
  obtain ⟨rfl, rfl, rfl⟩ := ha
  constructor
  · rintro ⟨ha, hb, hc⟩
    exact ⟨_, _, _, ha, hb, hc, h2⟩
  · rintro ⟨a, b, c, ha, hb, hc, hw⟩
    obtain ⟨rfl, rfl, rfl⟩ := h3 a b c hw
    exact ⟨ha, hb, hc⟩

/-- Interpolating node data on a triangular face whose vertices are `p`, `q`, `r` with values `u`,
`v`, `w`. -/
def OnFace (m : Mesh K) (data : List (Option K)) (ind : Int) (p q r : K × K) (u v w : K) : Prop :=
  ∃ a b c : Int, Np.pyGet m.faces ind = .ok [a, b, c] ∧
    Np.pyGet m.nodes a = .ok p ∧ Np.pyGet m.nodes b = .ok q ∧ Np.pyGet m.nodes c = .ok r ∧
    Np.pyGet data a = .ok (some u) ∧ Np.pyGet data b = .ok (some v) ∧
    Np.pyGet data c = .ok (some w)

theorem interpNode_on {m : Mesh K} {data : List (Option K)} {ind : Int} {p q r : K × K} {u v w : K}
    (h : OnFace m data ind p q r u v w) (hi : ind ≠ -1) (hp : ProperTriangle p q r) (pt : K × K) :
    ∃ a b c : K, Weighted p q r pt a b c ∧
      interpNode m data ind pt = .ok (some (u * a + v * b + w * c)) := by
  obtain ⟨ia, ib, ic, h1, h2, h3, h4, h5, h6, h7⟩ := h
  obtain ⟨a, b, c, e1, e2, -⟩ := C31_weights hp pt ind hi
  refine ⟨a, b, c, e2, ?_⟩
  unfold interpNode
  simp only [h1, h2, h3, h4, h5, h6, h7, e1, hi, if_false, fmul, fadd]

/-- Linear fields are interpolated exactly, at every point of the plane the face is used for. -/
theorem C31_linear_exact {m : Mesh K} {data : List (Option K)} {ind : Int} {p q r : K × K}
    (f0 fx fy : K)
    (h : OnFace m data ind p q r (f0 + fx * p.1 + fy * p.2) (f0 + fx * q.1 + fy * q.2)
      (f0 + fx * r.1 + fy * r.2))
    (hi : ind ≠ -1) (hp : ProperTriangle p q r) (pt : K × K) :
    interpNode m data ind pt = .ok (some (f0 + fx * pt.1 + fy * pt.2)) := by
  obtain ⟨a, b, c, ⟨w1, w2, w3⟩, e⟩ := interpNode_on h hi hp pt
  rw [e]
  congr 2
  rw [w2, w3]
  linear_combination f0 * w1

/-- No overshoot: in the closed triangle the result is between any bounds on the vertex values. -/
theorem C31_no_overshoot {m : Mesh K} {data : List (Option K)} {ind : Int} {p q r : K × K}
    {u v w : K} (h : OnFace m data ind p q r u v w) (hi : ind ≠ -1) (hp : ProperTriangle p q r)
    (pt : K × K) (hin : InTriangle p q r pt) :
    ∃ x : K, interpNode m data ind pt = .ok (some x) ∧ min u (min v w) ≤ x ∧
      x ≤ max u (max v w) := by
  obtain ⟨a, b, c, hw, e⟩ := interpNode_on h hi hp pt
  obtain ⟨a', b', c', ha, hb, hc, hw'⟩ := hin
  have hu := (weighted_iff (denom_ne hp) pt a b c).mp hw
  have hu' := (weighted_iff (denom_ne hp) pt a' b' c').mp hw'
  obtain rfl : a' = a := hu'.1.trans hu.1.symm
  obtain rfl : b' = b := hu'.2.1.trans hu.2.1.symm
  obtain rfl : c' = c := hu'.2.2.trans hu.2.2.symm
  refine ⟨_, e, ?_, ?_⟩
  · have m1 : min u (min v w) ≤ u := min_le_left _ _
    have m2 : min u (min v w) ≤ v := (min_le_right _ _).trans (min_le_left _ _)
    have m3 : min u (min v w) ≤ w := (min_le_right _ _).trans (min_le_right _ _)
    generalize min u (min v w) = lo at m1 m2 m3
    calc lo = lo * a' + lo * b' + lo * c' := by linear_combination -lo * hw.1
      _ ≤ u * a' + v * b' + w * c' := by
        have := mul_le_mul_of_nonneg_right m1 ha
        have := mul_le_mul_of_nonneg_right m2 hb
        have := mul_le_mul_of_nonneg_right m3 hc
        linarith
  · have m1 : u ≤ max u (max v w) := le_max_left _ _
    have m2 : v ≤ max u (max v w) := (le_max_left _ _).trans (le_max_right _ _)
    have m3 : w ≤ max u (max v w) := (le_max_right _ _).trans (le_max_right _ _)
    generalize max u (max v w) = hi' at m1 m2 m3
    calc u * a' + v * b' + w * c' ≤ hi' * a' + hi' * b' + hi' * c' := by
          have := mul_le_mul_of_nonneg_right m1 ha
          have := mul_le_mul_of_nonneg_right m2 hb
          have := mul_le_mul_of_nonneg_right m3 hc
          linarith
      _ = hi' := by linear_combination hi' * hw.1

/-- At a vertex the interpolated value is the vertex's value. -/
theorem C31_vertex_value {m : Mesh K} {data : List (Option K)} {ind : Int} {p q r : K × K}
    {u v w : K} (h : OnFace m data ind p q r u v w) (hi : ind ≠ -1) (hp : ProperTriangle p q r) :
    interpNode m data ind p = .ok (some u) ∧ interpNode m data ind q = .ok (some v) ∧
      interpNode m data ind r = .ok (some w) := by
  have key : ∀ (pt : K × K) (a b c : K), Weighted p q r pt a b c →
      interpNode m data ind pt = .ok (some (u * a + v * b + w * c)) := by
    intro pt a b c hw
    obtain ⟨a', b', c', hw', e⟩ := interpNode_on h hi hp pt
    have hu := (weighted_iff (denom_ne hp) pt a b c).mp hw
    have hu' := (weighted_iff (denom_ne hp) pt a' b' c').mp hw'
    obtain rfl : a' = a := hu'.1.trans hu.1.symm
    obtain rfl : b' = b := hu'.2.1.trans hu.2.1.symm
    obtain rfl : c' = c := hu'.2.2.trans hu.2.2.symm
    exact e
  refine ⟨?_, ?_, ?_⟩
  · rw [key p 1 0 0 ⟨by ring, by ring, by ring⟩]; congr 2; ring
  · rw [key q 0 1 0 ⟨by ring, by ring, by ring⟩]; congr 2; ring
  · rw [key r 0 0 1 ⟨by ring, by ring, by ring⟩]; congr 2; ring

/-- A clockwise triangle with data, a point inside it, and the value there. -/
example : ProperTriangle (K := ℚ) (0, 0) (0, 2) (2, 0) ∧
    InTriangle (K := ℚ) (0, 0) (0, 2) (2, 0) (1 / 2, 1) ∧
    OnFace (K := ℚ) ⟨[(5, 5), (0, 0), (0, 2), (2, 0)], [[0, 1, 2], [1, 2, 3]]⟩
      [none, some 1, some 3, some 9] 1 (0, 0) (0, 2) (2, 0) 1 3 9 ∧
    interpNode (K := ℚ) ⟨[(5, 5), (0, 0), (0, 2), (2, 0)], [[0, 1, 2], [1, 2, 3]]⟩
      [none, some 1, some 3, some 9] 1 (1 / 2, 1) = .ok (some 4) :=
  ⟨by unfold ProperTriangle TurnsRight TurnsLeft; decide +kernel,
   ⟨1 / 4, 1 / 2, 1 / 4, by decide +kernel, by decide +kernel, by decide +kernel,
    by unfold Weighted; decide +kernel⟩,
   ⟨1, 2, 3, by decide +kernel⟩, by decide +kernel⟩

end C31

/-! ## C32 -/

section C32

/-- The full claim: for triangles of either winding the test holds exactly in the triangle widened
by half the relative tolerance. -/
def C32_statement : Prop :=
  ∀ (eps : ℚ) (p q r pt : ℚ × ℚ), 0 ≤ eps → ProperTriangle p q r →
    (pointInTri eps p q r pt = true ↔ NearTriangle (eps / 2) p q r pt)

variable {K : Type*} [Field K] [LinearOrder K] [IsStrictOrderedRing K]

/-- For a clockwise triangle the test holds for every point of the plane. -/
theorem C32_clockwise_always_true (eps : K) (h0 : 0 ≤ eps) (p q r pt : K × K)
    (h : TurnsRight p q r) : pointInTri eps p q r pt = true := by
  have hA : signedArea p q r < 0 := by
    unfold TurnsRight TurnsLeft at h
    have : signedArea p q r = -(((p.1 - q.1) * (r.2 - q.2) - (r.1 - q.1) * (p.2 - q.2)) / 2) := by
      unfold signedArea; ring
    rw [this]
    linarith
  unfold pointInTri
  simp only [ne_of_lt hA, if_false, decide_eq_true_eq]
  exact (div_nonpos_of_nonneg_of_nonpos (abs_nonneg _) hA.le).trans h0

theorem C32_refuted : ¬ C32_statement := by
  intro h
  have hr : TurnsRight ((0, 0) : ℚ × ℚ) (0, 1) (1, 0) := by
    unfold TurnsRight TurnsLeft; decide +kernel
  have h1 := (h 0 (0, 0) (0, 1) (1, 0) (5, 5) (le_refl _) (Or.inr hr)).mp
    (C32_clockwise_always_true 0 (le_refl _) _ _ _ _ hr)
  obtain ⟨a, b, c, ⟨w1, w2, w3⟩, hle⟩ := h1
  simp only [mul_zero, mul_one, zero_add, add_zero, zero_div] at w2 w3 hle
  have ha : a = -9 := by linarith
  have m1 : (0 : ℚ) ≤ max 0 (-b) := le_max_left _ _
  have m2 : (0 : ℚ) ≤ max 0 (-c) := le_max_left _ _
  have m3 : -a ≤ max 0 (-a) := le_max_right _ _
  linarith

/-- For a counterclockwise triangle the test is right, tolerance included. -/
theorem C32_counterclockwise_partial (eps : K) (p q r pt : K × K) (h : TurnsLeft p q r) :
    pointInTri eps p q r pt = true ↔ NearTriangle (eps / 2) p q r pt := by
  have hd : 0 < denom p q r := by rw [denom_turn]; exact h
  have hA : signedArea p q r = denom p q r / 2 := signedArea_denom p q r
  have hne : signedArea p q r ≠ 0 := by rw [hA]; linarith
  have hw := (weighted_iff (ne_of_gt hd) pt _ _ _).mpr ⟨rfl, rfl, rfl⟩
  have ht := total_eq hd pt hw
  unfold pointInTri
  simp only [hne, if_false, decide_eq_true_eq]
  rw [ht, hA]
  have key : ∀ N : K, 0 ≤ N → (|denom p q r * N| / (denom p q r / 2) ≤ eps ↔ N ≤ eps / 2) := by
    intro N hN
    rw [abs_of_nonneg (mul_nonneg hd.le hN), div_le_iff₀ (by linarith),
      show eps * (denom p q r / 2) = denom p q r * (eps / 2) by ring]
    exact mul_le_mul_iff_right₀ hd
  rw [key _ (by
    have := le_max_left (0 : K) (-(num1 p q r pt / denom p q r))
    have := le_max_left (0 : K) (-(num2 p q r pt / denom p q r))
    have := le_max_left (0 : K) (-(num3 p q r pt / denom p q r))
    linarith)]
  constructor
  · intro h
    exact ⟨_, _, _, hw, h⟩
  · rintro ⟨a, b, c, hw', h⟩
    obtain ⟨rfl, rfl, rfl⟩ := (weighted_iff (ne_of_gt hd) pt a b c).mp hw'
    exact h

/-- In particular every point of the closed triangle passes, and with tolerance 0 no other. -/
theorem C32_closed_triangle_partial (eps : K) (h0 : 0 ≤ eps) (p q r pt : K × K)
    (h : TurnsLeft p q r) :
    (InTriangle p q r pt → pointInTri eps p q r pt = true) ∧
      (pointInTri 0 p q r pt = true → InTriangle p q r pt) := by
  constructor
  · rintro ⟨a, b, c, ha, hb, hc, hw⟩
    rw [C32_counterclockwise_partial eps p q r pt h]
    refine ⟨a, b, c, hw, ?_⟩
    rw [max_eq_left (by linarith), max_eq_left (by linarith), max_eq_left (by linarith)]
    linarith
  · intro hp
    rw [C32_counterclockwise_partial 0 p q r pt h] at hp
    obtain ⟨a, b, c, hw, hle⟩ := hp
    have m1 := le_max_left (0 : K) (-a)
    have m2 := le_max_left (0 : K) (-b)
    have m3 := le_max_left (0 : K) (-c)
    have n1 := le_max_right (0 : K) (-a)
    have n2 := le_max_right (0 : K) (-b)
    have n3 := le_max_right (0 : K) (-c)
    exact ⟨a, b, c, by linarith, by linarith, by linarith, hw⟩

/-- Points of a line: never inside. -/
theorem C32_degenerate_false (eps : K) (p q r pt : K × K) (h : ¬ ProperTriangle p q r) :
    pointInTri eps p q r pt = false := by
  have : signedArea p q r = 0 := by
    unfold ProperTriangle TurnsRight TurnsLeft at h
    push Not at h
    have h1 : denom p q r ≤ 0 := by rw [denom_turn]; exact h.1
    have h2 : 0 ≤ denom p q r := by
      have := h.2
      have e : (p.1 - q.1) * (r.2 - q.2) - (r.1 - q.1) * (p.2 - q.2) = - denom p q r := by
        unfold denom; ring
      rw [e] at this
      linarith
    rw [signedArea_denom, le_antisymm h1 h2, zero_div]
  simp [pointInTri, this]

example : TurnsLeft (K := ℚ) (0, 0) (1, 0) (0, 1) ∧
    pointInTri (K := ℚ) (1 / 100000) (0, 0) (1, 0) (0, 1) (1 / 2, 1 / 2) = true ∧
    pointInTri (K := ℚ) (1 / 100000) (0, 0) (1, 0) (0, 1) (1 / 2, 51 / 100) = false :=
  ⟨by unfold TurnsLeft; decide +kernel, by decide +kernel, by decide +kernel⟩

end C32

/-! ## C33 -/

section C33
variable {K : Type*} [Field K] [LinearOrder K]

/-- The containment test of face number `j` of the mesh says `b`. -/
def FaceSays (eps : K) (m : Mesh K) (pt : K × K) (j : Nat) (b : Bool) : Prop :=
  ∃ (x y z : Int) (t : List Int) (p q r : K × K), m.faces[j]? = some (x :: y :: z :: t) ∧
    Np.pyGet m.nodes x = .ok p ∧ Np.pyGet m.nodes y = .ok q ∧ Np.pyGet m.nodes z = .ok r ∧
    pointInTri eps p q r pt = b

/-- Every face can be tested: it has three vertices, all existing. -/
def Testable (m : Mesh K) : Prop :=
  ∀ f ∈ m.faces, ∃ (x y z : Int) (t : List Int) (p q r : K × K), f = x :: y :: z :: t ∧
    Np.pyGet m.nodes x = .ok p ∧ Np.pyGet m.nodes y = .ok q ∧ Np.pyGet m.nodes z = .ok r

/-- The right answer for one point: the first face whose test holds, or -1 if there is none. -/
def RightFace (eps : K) (m : Mesh K) (pt : K × K) (i : Int) : Prop :=
  (∃ j : Nat, i = j ∧ FaceSays eps m pt j true ∧ ∀ k < j, FaceSays eps m pt k false) ∨
  (i = -1 ∧ ∀ j < m.faces.length, FaceSays eps m pt j false)

/-- The full claim. -/
def C33_statement : Prop :=
  ∀ (eps : ℚ) (m : Mesh ℚ) (pts : List (ℚ × ℚ)), Testable m →
    ∃ is, simpleLocate eps m pts = .ok is ∧ List.Forall₂ (RightFace eps m) pts is

/-- On a mesh without faces every point is reported in face 0. -/
theorem C33_refuted : ¬ C33_statement := by
  intro h
  obtain ⟨is, h1, h2⟩ := h 0 ⟨[], []⟩ [(0, 0)] (by intro f hf; simp at hf)
  have h3 : simpleLocate (0 : ℚ) ⟨[], []⟩ [(0, 0)] = .ok [0] := by decide +kernel
  rw [h3] at h1
  cases h1
  rcases h2 with _ | ⟨h, -⟩
  rcases h with ⟨j, -, ⟨x, y, z, t, p, q, r, hf, -⟩, -⟩ | ⟨h, -⟩
  · simp at hf
  · simp at h

theorem simpleLoop_spec (eps : K) (m : Mesh K) (ht : Testable m) (pt : K × K) :
    ∀ (fs : List (List Int)) (i : Nat) (cur : Int), m.faces.drop i = fs →
      (∀ k < i, FaceSays eps m pt k false) → (fs = [] → cur = -1) →
      ∃ x, simpleLoop eps m.nodes pt fs i cur = .ok x ∧ RightFace eps m pt x := by
  intro fs
  induction fs with
  | nil =>
    intro i cur hd hk hc
    refine ⟨cur, rfl, Or.inr ⟨hc rfl, fun j hj => hk j ?_⟩⟩
    have := List.drop_eq_nil_iff.mp hd
    omega
  | cons f fs ih =>
    intro i cur hd hk _
    have hget : m.faces[i]? = some f := by
      have : (m.faces.drop i)[0]? = some f := by rw [hd]; rfl
      simpa using this
    obtain ⟨x, y, z, t, p, q, r, rfl, hx, hy, hz⟩ := ht f (List.mem_of_getElem? hget)
    have htest : faceTest eps m.nodes (x :: y :: z :: t) pt = .ok (pointInTri eps p q r pt) := by
      simp [faceTest, hx, hy, hz]
    cases hb : pointInTri eps p q r pt with
    | true =>
      refine ⟨i, by simp [simpleLoop, htest, hb], Or.inl ⟨i, rfl, ?_, hk⟩⟩
      exact ⟨x, y, z, t, p, q, r, hget, hx, hy, hz, hb⟩
    | false =>
      have hd' : m.faces.drop (i + 1) = fs := by
        rw [← List.tail_drop, hd]; rfl
      obtain ⟨v, hv, hv'⟩ := ih (i + 1) (-1) hd' (by
        intro k hlt
        rcases Nat.lt_succ_iff_lt_or_eq.mp hlt with h | rfl
        · exact hk k h
        · exact ⟨x, y, z, t, p, q, r, hget, hx, hy, hz, hb⟩) (fun _ => rfl)
      exact ⟨v, by simp [simpleLoop, htest, hb, hv], hv'⟩

/-- On a mesh with at least one face the simple method is right for every list of points. -/
theorem C33_simple_locate_partial (eps : K) (m : Mesh K) (pts : List (K × K)) (ht : Testable m)
    (hne : m.faces ≠ []) :
    ∃ is, simpleLocate eps m pts = .ok is ∧ List.Forall₂ (RightFace eps m) pts is :=
  DepthM.mapE_rel fun pt _ => simpleLoop_spec eps m ht pt m.faces 0 0 rfl
    (by intro k hk; omega) (fun h => absurd h hne)

/-- The answer of `RightFace` is unique, so the theorem above determines the result. -/
theorem C33_answer_unique (eps : K) (m : Mesh K) (pt : K × K) (i j : Int)
    (hi : RightFace eps m pt i) (hj : RightFace eps m pt j) : i = j := by
  have det : ∀ k b b', FaceSays eps m pt k b → FaceSays eps m pt k b' → b = b' := by
    rintro k b b' ⟨x, y, z, t, p, q, r, h1, h2, h3, h4, h5⟩
      ⟨x', y', z', t', p', q', r', g1, g2, g3, g4, g5⟩
    rw [h1] at g1
    simp only [Option.some.injEq, List.cons.injEq] at g1
    obtain ⟨rfl, rfl, rfl, -⟩ := g1
    rw [h2] at g2; rw [h3] at g3; rw [h4] at g4
    cases g2; cases g3; cases g4
    exact h5.symm.trans g5
  have hlt : ∀ k, FaceSays eps m pt k true → k < m.faces.length := by
    rintro k ⟨x, y, z, t, p, q, r, h1, -⟩
    exact (List.getElem?_eq_some_iff.mp h1).1
  rcases hi with ⟨a, rfl, a1, a2⟩ | ⟨rfl, a2⟩ <;> rcases hj with ⟨b, rfl, b1, b2⟩ | ⟨rfl, b2⟩
  · rcases Nat.lt_trichotomy a b with h | h | h
    · cases det _ _ _ a1 (b2 a h)
    · rw [h]
    · cases det _ _ _ b1 (a2 b h)
  · cases det _ _ _ a1 (b2 a (hlt a a1))
  · cases det _ _ _ b1 (a2 b (hlt b b1))
  · rfl

example : Testable (K := ℚ) ⟨[(0, 0), (1, 0), (0, 1), (1, 1)], [[0, 1, 2], [1, 3, 2]]⟩ ∧
    simpleLocate (K := ℚ) (1 / 100000) ⟨[(0, 0), (1, 0), (0, 1), (1, 1)], [[0, 1, 2], [1, 3, 2]]⟩
      [(3 / 4, 3 / 4), (1 / 4, 1 / 4), (5, 5)] = .ok [1, 0, -1] := by
  refine ⟨?_, by decide +kernel⟩
  intro f hf
  simp only [List.mem_cons, List.not_mem_nil, or_false] at hf
  rcases hf with rfl | rfl
  · exact ⟨0, 1, 2, [], (0, 0), (1, 0), (0, 1), rfl, rfl, rfl, rfl⟩
  · exact ⟨1, 3, 2, [], (1, 0), (1, 1), (0, 1), rfl, rfl, rfl, rfl⟩

end C33

/-! ## C34 -/

section C34
variable {K : Type*} [Field K] [LinearOrder K]

/-- What a point should get: 0 outside the grid; inside, the face value or a value between the
smallest and the largest of the values at the vertices of its face. -/
def RightValue (m : Mesh K) (loc : Loc) (data : List (Option K)) (ind : Int) (pt : K × K)
    (v : Option K) : Prop :=
  if ind = -1 then v = some 0
  else match loc with
    | .face => ∃ x, data[ind.toNat]? = some x ∧ v = x
    | .node => ∀ (p q r : K × K) (u w z : K), OnFace m data ind p q r u w z →
        ProperTriangle p q r → InTriangle p q r pt →
        ∃ x, v = some x ∧ min u (min w z) ≤ x ∧ x ≤ max u (max w z)
    | .boundary => True

/-- The located face of each point exists or is -1. -/
def Located (m : Mesh K) (pts : List (Int × (K × K))) : Prop :=
  ∀ q ∈ pts, q.1 = -1 ∨ (0 ≤ q.1 ∧ q.1.toNat < m.faces.length)

/-- Data match the mesh. -/
def DataFits (m : Mesh K) (loc : Loc) (data : List (Option K)) : Prop :=
  match loc with
  | .face => data.length = m.faces.length
  | .node => data.length = m.nodes.length
  | .boundary => True

/-- A valid triangular mesh. -/
def TriMesh (m : Mesh K) : Prop :=
  m.faces ≠ [] ∧ ∀ f ∈ m.faces, ∃ a b c : Nat, f = [(a : Int), (b : Int), (c : Int)] ∧
    a < m.nodes.length ∧ b < m.nodes.length ∧ c < m.nodes.length

/-- The full claim: any data, also with values that are not finite. -/
def C34_statement : Prop :=
  ∀ (m : Mesh ℚ) (loc : Loc) (data : List (Option ℚ)) (pts : List (Int × (ℚ × ℚ))),
    TriMesh m → Located m pts → DataFits m loc data → loc ≠ .boundary →
    ∃ vs, interpolate m loc data pts = .ok (some vs) ∧
      List.Forall₂ (fun q v => RightValue m loc data q.1 q.2 v) pts vs

/-- A point outside the grid takes the value of the last face times zero, which is nan when that
value is nan. -/
theorem C34_refuted : ¬ C34_statement := by
  intro h
  obtain ⟨vs, h1, h2⟩ := h ⟨[(0, 0), (1, 0), (0, 1)], [[0, 1, 2]]⟩ .face [none] [(-1, (5, 5))]
    ⟨by simp, by
      intro f hf
      simp only [List.mem_cons, List.not_mem_nil, or_false] at hf
      subst hf
      exact ⟨0, 1, 2, rfl, by simp, by simp, by simp⟩⟩
    (by intro q hq; simp only [List.mem_cons, List.not_mem_nil, or_false] at hq; subst hq
        exact Or.inl rfl)
    rfl (by simp)
  have h3 : interpolate (K := ℚ) ⟨[(0, 0), (1, 0), (0, 1)], [[0, 1, 2]]⟩ .face [none]
    [(-1, (5, 5))] = .ok (some [none]) := by decide +kernel
  rw [h3] at h1
  cases h1
  rcases h2 with _ | ⟨h, -⟩
  simp [RightValue] at h

/-- The same happens for node data when the last face has no area, even if the point and all data
are unremarkable. -/
theorem C34_degenerate_last_face :
    interpolate (K := ℚ) ⟨[(0, 0), (1, 0), (0, 1), (2, 0)], [[0, 1, 2], [0, 1, 3]]⟩ .node
      [some 1, some 1, some 1, some 1] [(-1, (5, 5))] = .ok (some [none]) := by decide +kernel

variable [IsStrictOrderedRing K]

/-- With finite data, and a last face that is a proper triangle, the claim holds in full. -/
theorem C34_fill_partial (m : Mesh K) (loc : Loc) (data : List (Option K))
    (pts : List (Int × (K × K))) (hm : TriMesh m) (hl : Located m pts) (hf : DataFits m loc data)
    (hloc : loc ≠ .boundary) (hfin : ∀ v ∈ data, v ≠ none)
    (hlast : loc = .node → ∀ a b c : Int, m.faces.getLast? = some [a, b, c] → ∀ p q r : K × K,
      Np.pyGet m.nodes a = .ok p → Np.pyGet m.nodes b = .ok q → Np.pyGet m.nodes c = .ok r →
      ProperTriangle p q r) :
    ∃ vs, interpolate m loc data pts = .ok (some vs) ∧
      List.Forall₂ (fun q v => RightValue m loc data q.1 q.2 v) pts vs := by
  obtain ⟨hne, hm⟩ := hm
  cases loc with
  | boundary => exact absurd rfl hloc
  | face =>
    have hf' : data.length = m.faces.length := hf
    have hd : data ≠ [] := by
      intro h
      rw [h] at hf'
      exact hne (List.length_eq_zero_iff.mp hf'.symm)
    obtain ⟨vs, h1, h2⟩ := DepthM.mapE_rel (f := fun q : Int × (K × K) => interpFace data q.1)
      (R := fun q v => RightValue m .face data q.1 q.2 v) (l := pts) (by
        intro q hq
        rcases hl q hq with h | ⟨h0, h1⟩
        · obtain ⟨x, hx⟩ : ∃ x, data.getLast? = some x := by
            cases hx : data.getLast? with
            | none => exact absurd (List.getLast?_eq_none_iff.mp hx) hd
            | some x => exact ⟨x, rfl⟩
          have hmem : x ∈ data := List.mem_of_getLast? hx
          cases hxv : x with
          | none => exact absurd hxv (hfin x hmem)
          | some y =>
            refine ⟨some 0, ?_, by simp [RightValue, h]⟩
            simp [interpFace, h, Np.pyGet_neg_one hx, hxv, fmul]
        · obtain ⟨x, hx, hx'⟩ := getE data q.1.toNat (by rw [hf']; exact h1)
          rw [Int.toNat_of_nonneg h0] at hx
          have hq1 : q.1 ≠ -1 := by omega
          exact ⟨x, by simp [interpFace, hx, hq1], by simp [RightValue, hq1, hx']⟩)
    refine ⟨vs, ?_, h2⟩
    simp only [interpolate, h1]
  | node =>
    have hf' : data.length = m.nodes.length := hf
    obtain ⟨vs, h1, h2⟩ := DepthM.mapE_rel
      (f := fun q : Int × (K × K) => interpNode m data q.1 q.2)
      (R := fun q v => RightValue m .node data q.1 q.2 v) (l := pts) (by
        intro q hq
        -- the face used, and its vertices and values
        have hface : ∃ f, Np.pyGet m.faces q.1 = .ok f ∧ f ∈ m.faces ∧
            (q.1 = -1 → m.faces.getLast? = some f) := by
          rcases hl q hq with h | ⟨h0, h1⟩
          · obtain ⟨x, hx⟩ : ∃ x, m.faces.getLast? = some x := by
              cases hx : m.faces.getLast? with
              | none => exact absurd (List.getLast?_eq_none_iff.mp hx) hne
              | some x => exact ⟨x, rfl⟩
            exact ⟨x, by rw [h]; exact Np.pyGet_neg_one hx, List.mem_of_getLast? hx, fun _ => hx⟩
          · obtain ⟨x, hx, hx'⟩ := getE m.faces q.1.toNat h1
            rw [Int.toNat_of_nonneg h0] at hx
            exact ⟨x, hx, List.mem_of_getElem? hx', fun h => by omega⟩
        obtain ⟨f, hf1, hf2, hf3⟩ := hface
        obtain ⟨a, b, c, rfl, ha, hb, hc⟩ := hm f hf2
        obtain ⟨p, hp, -⟩ := getE m.nodes a ha
        obtain ⟨q', hq', -⟩ := getE m.nodes b hb
        obtain ⟨r, hr, -⟩ := getE m.nodes c hc
        have fin : ∀ i, i < m.nodes.length → ∃ x : K, Np.pyGet data (i : Int) = .ok (some x) := by
          intro i hi
          obtain ⟨x, hx, hx'⟩ := getE data i (by rw [hf']; exact hi)
          cases hxv : x with
          | none => exact absurd hxv (hfin x (List.mem_of_getElem? hx'))
          | some y => exact ⟨y, by rw [hx, hxv]⟩
        obtain ⟨u, hu⟩ := fin a ha
        obtain ⟨v, hv⟩ := fin b hb
        obtain ⟨w, hw⟩ := fin c hc
        by_cases hi : q.1 = -1
        · have hpr := hlast rfl a b c (hf3 hi) p q' r hp hq' hr
          have hd := denom_ne hpr
          refine ⟨some 0, ?_, by simp [RightValue, hi]⟩
          unfold interpNode
          rw [hf1]
          simp only [hp, hq', hr, hu, hv, hw, hi, if_true, alphas, fdiv, hd, if_false, fmul, fadd]
          simp
        · by_cases hpr : ProperTriangle p q' r
          · obtain ⟨x, y, z, hwt, e⟩ := interpNode_on (pt := q.2) ⟨a, b, c, hf1, hp, hq', hr, hu, hv, hw⟩
              hi hpr
            refine ⟨_, e, ?_⟩
            simp only [RightValue, hi, if_false]
            intro p2 q2 r2 u2 w2 z2 hon hpr2 hin
            obtain ⟨x', hx', hlo, hhi⟩ := C31_no_overshoot hon hi hpr2 q.2 hin
            rw [e] at hx'
            cases hx'
            exact ⟨_, rfl, hlo, hhi⟩
          · refine ⟨_, by simp only [interpNode, hf1, hp, hq', hr, hu, hv, hw]; rfl, ?_⟩
            simp only [RightValue, hi, if_false]
            intro p2 q2 r2 u2 w2 z2 hon hpr2 _
            obtain ⟨a2, b2, c2, g1, g2, g3, g4, -⟩ := hon
            rw [hf1] at g1
            simp only [Except.ok.injEq, List.cons.injEq, and_true] at g1
            obtain ⟨rfl, rfl, rfl⟩ := g1
            rw [hp] at g2; rw [hq'] at g3; rw [hr] at g4
            cases g2; cases g3; cases g4
            exact absurd hpr2 hpr)
    refine ⟨vs, ?_, h2⟩
    simp only [interpolate, h1]

omit [IsStrictOrderedRing K] in
/-- A point's result does not depend on the other points. -/
theorem C34_independent (m : Mesh K) (loc : Loc) (data : List (Option K))
    (pts : List (Int × (K × K))) (vs : List (Option K))
    (h : interpolate m loc data pts = .ok (some vs)) (i : Nat) (q : Int × (K × K))
    (hq : pts[i]? = some q) :
    ∃ v, vs[i]? = some v ∧ interpolate m loc data [q] = .ok (some [v]) := by
  have gen : ∀ (f : Int × (K × K) → Except Err (Option K)) (l : List (Int × (K × K)))
      (vs : List (Option K)) (i : Nat), mapE f l = .ok vs → l[i]? = some q →
      ∃ v, vs[i]? = some v ∧ f q = .ok v := by
    intro f l
    induction l with
    | nil => intro vs i _ hi; simp at hi
    | cons x l ih =>
      intro vs i hv hi
      simp only [mapE] at hv
      cases hx : f x with
      | error e => rw [hx] at hv; simp at hv
      | ok b =>
        cases hl : mapE f l with
        | error e => rw [hx, hl] at hv; simp at hv
        | ok bs =>
          rw [hx, hl] at hv
          simp only [Except.ok.injEq] at hv
          subst hv
          cases i with
          | zero =>
            simp only [List.getElem?_cons_zero, Option.some.injEq] at hi
            subst hi
            exact ⟨b, rfl, hx⟩
          | succ i => exact ih bs i hl (by simpa using hi)
  cases loc with
  | boundary => simp [interpolate] at h
  | face =>
    simp only [interpolate] at h
    cases hm : mapE (fun q => interpFace data q.1) pts with
    | error e => rw [hm] at h; simp at h
    | ok ws =>
      rw [hm] at h
      simp only [Except.ok.injEq, Option.some.injEq] at h
      subst h
      obtain ⟨v, h1, h2⟩ := gen _ pts ws i hm hq
      exact ⟨v, h1, by simp [interpolate, mapE, h2]⟩
  | node =>
    simp only [interpolate] at h
    cases hm : mapE (fun q => interpNode m data q.1 q.2) pts with
    | error e => rw [hm] at h; simp at h
    | ok ws =>
      rw [hm] at h
      simp only [Except.ok.injEq, Option.some.injEq] at h
      subst h
      obtain ⟨v, h1, h2⟩ := gen _ pts ws i hm hq
      exact ⟨v, h1, by simp [interpolate, mapE, h2]⟩

example : TriMesh (K := ℚ) ⟨[(0, 0), (1, 0), (0, 1), (1, 1)], [[0, 1, 2], [1, 3, 2]]⟩ ∧
    interpolate (K := ℚ) ⟨[(0, 0), (1, 0), (0, 1), (1, 1)], [[0, 1, 2], [1, 3, 2]]⟩ .node
      [some 1, some 2, some 3, some 8] [(0, (1 / 4, 1 / 4)), (-1, (7, 7)), (1, (3 / 4, 3 / 4))]
      = .ok (some [some (7 / 4), some 0, some (21 / 4)]) := by
  refine ⟨⟨by simp, ?_⟩, by decide +kernel⟩
  intro f hf
  simp only [List.mem_cons, List.not_mem_nil, or_false] at hf
  rcases hf with rfl | rfl
  · exact ⟨0, 1, 2, rfl, by simp, by simp, by simp⟩
  · exact ⟨1, 3, 2, rfl, by simp, by simp, by simp⟩

end C34

end Verif
