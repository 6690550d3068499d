import Verif.Lemmas.Plane
import Mathlib.Analysis.SpecialFunctions.Complex.Circle
import Mathlib.Algebra.Order.Ring.Rat
import Mathlib.Algebra.Field.Rat

/-!
# Properties of plane vectors, averages and polygons: C50, C59
-/

set_option autoImplicit false

namespace Verif
open Verif.Spec Verif.Plane

/-! ## C50 -/

/-- C50. Rotating by an angle is multiplying by `exp(i angle)`: counterclockwise, in radians. -/
theorem C50_direction (x y a : ℝ) :
    (⟨(rotate x y a).1, (rotate x y a).2⟩ : ℂ) = ⟨x, y⟩ * Complex.exp (a * Complex.I) := by
  rw [Complex.exp_mul_I, ← Complex.ofReal_cos, ← Complex.ofReal_sin]
  apply Complex.ext
  · simp only [rotate, Complex.mul_re, Complex.add_re, Complex.add_im, Complex.mul_im,
      Complex.ofReal_re, Complex.ofReal_im, Complex.I_re, Complex.I_im]
    ring
  · simp only [rotate, Complex.mul_re, Complex.add_re, Complex.add_im, Complex.mul_im,
      Complex.ofReal_re, Complex.ofReal_im, Complex.I_re, Complex.I_im]
    ring

/-- C50. The length is kept. -/
theorem C50_length (x y a : ℝ) : vectorSum (rotate x y a).1 (rotate x y a).2 = vectorSum x y := by
  unfold vectorSum rotate
  congr 1
  have := Real.sin_sq_add_cos_sq a
  linear_combination (x ^ 2 + y ^ 2) * this

/-- C50. Rotations add up. -/
theorem C50_compose (x y a b : ℝ) :
    rotate (rotate x y a).1 (rotate x y a).2 b = rotate x y (a + b) := by
  unfold rotate
  rw [Real.cos_add, Real.sin_add]
  ext <;> simp <;> ring

/-- C50. Nothing happens at angle 0, and the opposite angle undoes a rotation. -/
theorem C50_inverse (x y a : ℝ) :
    rotate x y 0 = (x, y) ∧ rotate (rotate x y a).1 (rotate x y a).2 (-a) = (x, y) := by
  have h0 : rotate x y 0 = (x, y) := by simp [rotate]
  refine ⟨h0, ?_⟩
  rw [C50_compose, add_neg_cancel, h0]

/-- C50. Arrays of one length are rotated entry by entry, and others refused. -/
theorem C50_arrays (xs ys as : List ℝ) :
    (xs.length = ys.length ∧ xs.length = as.length →
      ∃ us vs, rotateVectors xs ys as = .ok (us, vs) ∧ us.length = xs.length ∧
        vs.length = xs.length ∧
        ∀ (i : Nat) (x y a : ℝ), xs[i]? = some x → ys[i]? = some y → as[i]? = some a →
          us[i]? = some (rotate x y a).1 ∧ vs[i]? = some (rotate x y a).2) ∧
    (¬ (xs.length = ys.length ∧ xs.length = as.length) →
      rotateVectors xs ys as = .error .valueError) := by
  constructor
  · intro h
    unfold rotateVectors
    rw [if_pos h]
    refine ⟨_, _, rfl, by simp; omega, by simp; omega, ?_⟩
    intro i x y a hx hy ha
    have hz : (xs.zip ys)[i]? = some (x, y) := List.getElem?_zip_eq_some.2 ⟨hx, hy⟩
    simp [List.getElem?_zipWith, hz, ha]
  · intro h
    unfold rotateVectors
    rw [if_neg h]

/-- C50. The vector sum is the length of the vector. -/
theorem C50_vector_sum (x y : ℝ) :
    0 ≤ vectorSum x y ∧ vectorSum x y ^ 2 = x ^ 2 + y ^ 2 ∧ (vectorSum x y = 0 ↔ x = 0 ∧ y = 0) := by
  have hn : 0 ≤ x ^ 2 + y ^ 2 := by positivity
  have hs : vectorSum x y ^ 2 = x ^ 2 + y ^ 2 := Real.sq_sqrt hn
  refine ⟨Real.sqrt_nonneg _, hs, ?_, ?_⟩
  · intro h
    rw [h] at hs
    constructor <;> nlinarith [sq_nonneg x, sq_nonneg y]
  · rintro ⟨rfl, rfl⟩
    simp [vectorSum]

example : rotate 1 0 (Real.pi / 2) = (0, 1) ∧ vectorSum 3 4 = 5 := by
  constructor
  · simp [rotate]
  · unfold vectorSum
    rw [show (3 : ℝ) ^ 2 + 4 ^ 2 = 5 ^ 2 by norm_num]
    exact Real.sqrt_sq (by norm_num)

section
variable {K : Type*} [Field K]

/-- An entry of an array, if there is one. -/
def entryOf {K : Type*} (a : Arr K) (i j : Nat) : Option K :=
  if h : i < a.rows ∧ j < a.cols then some (a.get ⟨i, h.1⟩ ⟨j, h.2⟩) else none

/-- C50. Averaging along the columns: one column fewer, each entry halfway between neighbours. Every
`avg_dim` other than 0 does this. -/
theorem C50_average_columns (a : Arr K) (d : Int) (hd : d ≠ 0) :
    (avgToCellCenter a d).rows = a.rows ∧ (avgToCellCenter a d).cols = a.cols - 1 ∧
      ∀ (i j : Nat) (x y : K), entryOf a i j = some x → entryOf a i (j + 1) = some y →
        entryOf (avgToCellCenter a d) i j = some ((x + y) / 2) := by
  have e : avgToCellCenter a d = a.avgCols := by simp [avgToCellCenter, hd]
  rw [e]
  refine ⟨rfl, rfl, ?_⟩
  intro i j x y hx hy
  unfold entryOf at hx hy
  split at hx
  · split at hy
    · next h1 h2 =>
      rw [Option.some.injEq] at hx hy
      subst hx hy
      have h3 : i < a.avgCols.rows ∧ j < a.avgCols.cols := ⟨h1.1, by
        have := h2.2; simp only [Arr.avgCols]; omega⟩
      unfold entryOf
      rw [dif_pos h3]
      simp only [Arr.avgCols, Arr.dropFirst, Arr.dropLast]
      congr 1
      ring
    · simp at hy
  · simp at hx

/-- C50. Averaging along the rows: one row fewer, each entry halfway between neighbours. -/
theorem C50_average_rows (a : Arr K) :
    (avgToCellCenter a 0).rows = a.rows - 1 ∧ (avgToCellCenter a 0).cols = a.cols ∧
      ∀ (i j : Nat) (x y : K), entryOf a i j = some x → entryOf a (i + 1) j = some y →
        entryOf (avgToCellCenter a 0) i j = some ((x + y) / 2) := by
  have e : avgToCellCenter a 0 = a.transpose.avgCols.transpose := by simp [avgToCellCenter]
  rw [e]
  refine ⟨rfl, rfl, ?_⟩
  intro i j x y hx hy
  unfold entryOf at hx hy
  split at hx
  · split at hy
    · next h1 h2 =>
      rw [Option.some.injEq] at hx hy
      subst hx hy
      have h3 : i < a.transpose.avgCols.transpose.rows ∧ j < a.transpose.avgCols.transpose.cols :=
        ⟨by have := h2.1; simp only [Arr.avgCols, Arr.transpose]; omega, h1.2⟩
      unfold entryOf
      rw [dif_pos h3]
      simp only [Arr.avgCols, Arr.dropFirst, Arr.dropLast, Arr.transpose]
      congr 1
      ring
    · simp at hy
  · simp at hx

end

/-- A row of three cells. -/
example : ∃ a : Arr ℚ, a.rows = 1 ∧ a.cols = 3 ∧ (avgToCellCenter a 1).cols = 2 ∧
    (avgToCellCenter a 0).rows = 0 :=
  ⟨⟨1, 3, fun _ j => j.1⟩, rfl, rfl, rfl, rfl⟩

/-! ## C59 -/

section
variable {K : Type*} [Field K] [LinearOrder K] [IsStrictOrderedRing K]

/-- C59. Every point is tested against its own polygon. -/
theorem C59_each (points : List (K × K)) (polys : List (List (K × K))) (i : Nat) (p : K × K)
    (poly : List (K × K)) (hp : points[i]? = some p) (hq : polys[i]? = some poly) :
    (pointsInPolys points polys)[i]? = some (inPoly p poly) := by
  unfold pointsInPolys
  rw [List.getElem?_zipWith, hp, hq]

/-- C59. The answer does not depend on the vertex the polygon starts from. -/
theorem C59_start (p : K × K) (poly : List (K × K)) (n : Nat) :
    inPoly p (poly.rotate n) = inPoly p poly := by
  induction n generalizing poly with
  | zero => simp
  | succ n ih =>
    cases poly with
    | nil => simp
    | cons a l => rw [List.rotate_cons_succ, ih, inPoly_rotate_one]

/-- C59. Nor on the direction in which the vertices are listed. -/
theorem C59_direction (p : K × K) (poly : List (K × K)) : inPoly p poly.reverse = inPoly p poly :=
  inPoly_reverse p poly

/-- C59. A point that some straight line separates from all vertices is not in the polygon. -/
theorem C59_separated (p : K × K) (poly : List (K × K)) (h : Separated p poly) :
    inPoly p poly = false := by
  obtain ⟨α, β, h⟩ := h
  match poly, h with
  | [], _ => rfl
  | [a], _ => exact inPoly_one p a
  | a :: b :: l, h => exact inPoly_separated p α β l a b h

/-- C59. In particular a point outside the bounding box. -/
theorem C59_bounding_box (p : K × K) (poly : List (K × K))
    (h : (∀ v ∈ poly, p.1 < v.1) ∨ (∀ v ∈ poly, v.1 < p.1) ∨ (∀ v ∈ poly, p.2 < v.2) ∨
      (∀ v ∈ poly, v.2 < p.2)) : inPoly p poly = false := by
  apply C59_separated
  rcases h with h | h | h | h
  · exact ⟨1, 0, fun v hv => by have := h v hv; linarith⟩
  · exact ⟨-1, 0, fun v hv => by have := h v hv; linarith⟩
  · exact ⟨0, 1, fun v hv => by have := h v hv; linarith⟩
  · exact ⟨0, -1, fun v hv => by have := h v hv; linarith⟩

theorem side_rot (a b c : K × K) : side b c a = side a b c := by
  unfold side; ring

theorem side_left (a b : K × K) : side a b a = 0 ∧ side a b b = 0 := by
  unfold side; constructor <;> ring

/-- C59. A point strictly left of every side of a convex polygon is in it. -/
theorem C59_convex_inside (p : K × K) (poly : List (K × K)) (hne : poly ≠ [])
    (hc : ConvexPolygon poly) (h : ∀ a b, IsSide poly a b → 0 < side a b p) :
    inPoly p poly = true := by
  match poly, hne, hc, h with
  | [a], _, _, h =>
    have := h a a (Or.inr ⟨rfl, rfl⟩)
    rw [side_self] at this
    exact absurd this (lt_irrefl 0)
  | a :: w :: l, _, hc, h =>
    have hw : 0 < side a w p := h a w (Or.inl ⟨0, rfl, rfl⟩)
    apply fan_true p a l w
    · rw [List.isChain_iff_getElem]
      intro i hi
      refine h _ _ (Or.inl ⟨i + 1, ?_, ?_⟩)
      · rw [List.getElem?_cons_succ]; exact List.getElem?_eq_getElem _
      · rw [List.getElem?_cons_succ]; exact List.getElem?_eq_getElem _
    · rw [List.pairwise_iff_getElem]
      intro i j hi hj hij hx
      have gx : (a :: w :: l)[i + 1]? = some ((w :: l)[i]) := by
        rw [List.getElem?_cons_succ]; exact List.getElem?_eq_getElem _
      have gy : (a :: w :: l)[j + 1]? = some ((w :: l)[j]) := by
        rw [List.getElem?_cons_succ]; exact List.getElem?_eq_getElem _
      generalize (w :: l)[i] = x at gx hx
      generalize (w :: l)[j] = y at gy
      cases i with
      | zero =>
        have : x = w := by simpa using gx.symm
        subst this
        exact absurd hw (not_lt.2 hx)
      | succ i =>
        have c1 : 0 < side a w x := hc 0 1 (i + 1 + 1) a w x (by omega) (by omega) rfl rfl gx
        have c2 : 0 < side a w y := hc 0 1 (j + 1) a w y (by omega) (by omega) rfl rfl gy
        have c3 : 0 < side a x y := hc 0 (i + 1 + 1) (j + 1) a x y (by omega) (by omega) rfl gx gy
        have e := side_plucker a w x y p
        have q1 := mul_nonpos_of_nonneg_of_nonpos (le_of_lt c2) hx
        have q2 := mul_pos hw c3
        by_contra hy
        have := mul_nonneg (le_of_lt c1) (not_lt.1 hy)
        linarith
    · exact hw
    · intro z hz
      have := h z a (Or.inr ⟨by rw [List.getLast?_cons_cons]; exact hz, rfl⟩)
      rw [side_swap] at this
      linarith

/-- C59. A point strictly right of some side of a convex polygon is not in it. -/
theorem C59_convex_outside (p : K × K) (poly : List (K × K)) (hc : ConvexPolygon poly)
    (a b : K × K) (hs : IsSide poly a b) (h : side a b p < 0) : inPoly p poly = false := by
  have key : ∀ v ∈ poly, 0 ≤ side a b v := by
    intro v hv
    obtain ⟨k, hk⟩ := List.mem_iff_getElem?.1 hv
    rcases hs with ⟨i, hi, hi'⟩ | ⟨hl, hf⟩
    · rcases lt_trichotomy k i with hki | hki | hki
      · rw [← side_rot, ← side_rot]
        rw [side_rot, side_rot]
        have := hc k i (i + 1) v a b hki (by omega) hk hi hi'
        rw [← side_rot] at this
        exact le_of_lt this
      · subst hki
        have : v = a := Option.some.inj (hk.symm.trans hi)
        rw [this, (side_left a b).1]
      · rcases Nat.lt_or_eq_of_le hki with hki | hki
        · exact le_of_lt (hc i (i + 1) k a b v (by omega) (by omega) hi hi' hk)
        · subst hki
          have : v = b := Option.some.inj (hk.symm.trans hi')
          rw [this, (side_left a b).2]
    · rw [List.getLast?_eq_getElem?] at hl
      rw [List.head?_eq_getElem?] at hf
      have hkl : k < poly.length := (List.getElem?_eq_some_iff.1 hk).1
      rcases Nat.eq_zero_or_pos k with h0 | h0
      · subst h0
        have : v = b := Option.some.inj (hk.symm.trans hf)
        rw [this, (side_left a b).2]
      · rcases Nat.lt_or_eq_of_le (by omega : k ≤ poly.length - 1) with h1 | h1
        · have := hc 0 k (poly.length - 1) b v a h0 h1 hf hk hl
          rw [← side_rot, ← side_rot] at this
          exact le_of_lt this
        · subst h1
          have : v = a := Option.some.inj (hk.symm.trans hl)
          rw [this, (side_left a b).1]
  apply C59_separated
  refine ⟨-(b.2 - a.2), b.1 - a.1, fun v hv => ?_⟩
  have := key v hv
  unfold side at this h
  linarith

/-- C59. A box contains its left and lower sides and not the other two, whichever way and from
whichever corner it is listed. -/
theorem C59_box (p : K × K) (a b c d : K) (hab : a < b) (hcd : c < d) (poly : List (K × K)) (n : Nat)
    (hp : poly = [(a, c), (b, c), (b, d), (a, d)].rotate n ∨
      poly = ([(a, c), (b, c), (b, d), (a, d)].rotate n).reverse) :
    inPoly p poly = true ↔ (a ≤ p.1 ∧ p.1 < b) ∧ c ≤ p.2 ∧ p.2 < d := by
  have e : inPoly p poly = inPoly p [(a, c), (b, c), (b, d), (a, d)] := by
    rcases hp with rfl | rfl
    · exact C59_start p _ n
    · rw [C59_direction, C59_start]
  rw [e]
  have e2 : inPoly p [(a, c), (b, c), (b, d), (a, d)] =
      (crosses p (a, d) (a, c) ^^ (crosses p (a, c) (b, c) ^^ (crosses p (b, c) (b, d) ^^
        crosses p (b, d) (a, d)))) := by
    rw [inPoly_cons, loop_cons, loop_cons, loop_cons, loop_nil]
    simp
  have f1 : crosses p (a, c) (b, c) = false := by simp [crosses]
  have f2 : crosses p (b, d) (a, d) = false := by simp [crosses]
  have f3 : crosses p (a, d) (a, c) = (decide (c ≤ p.2 ∧ p.2 < d) && decide (p.1 < a)) := by
    unfold crosses
    by_cases h1 : p.2 < c
    · have : p.2 < d := lt_trans h1 hcd
      simp [h1, this, not_le.2 h1]
    · by_cases h2 : p.2 < d <;> simp [h1, h2, not_lt.1 h1]
  have f4 : crosses p (b, c) (b, d) = (decide (c ≤ p.2 ∧ p.2 < d) && decide (p.1 < b)) := by
    unfold crosses
    by_cases h1 : p.2 < c
    · have : p.2 < d := lt_trans h1 hcd
      simp [h1, this, not_le.2 h1]
    · by_cases h2 : p.2 < d <;> simp [h1, h2, not_lt.1 h1]
  rw [e2, f1, f2, f3, f4]
  by_cases h : c ≤ p.2 ∧ p.2 < d
  · by_cases h1 : p.1 < a
    · have : p.1 < b := lt_trans h1 hab
      simp [h, h1, this, not_le.2 h1]
    · by_cases h2 : p.1 < b <;> simp [h, h1, h2, not_lt.1 h1]
  · simp [h]

end

/-- A convex pentagon with a point inside and one outside. -/
example : inPoly ((2, 2) : ℚ × ℚ) [(0, 0), (4, 0), (5, 3), (2, 5), (-1, 3)] = true ∧
    inPoly ((5, 1) : ℚ × ℚ) [(0, 0), (4, 0), (5, 3), (2, 5), (-1, 3)] = false := by
  decide +kernel

example : ConvexPolygon ([(0, 0), (4, 0), (5, 3), (2, 5)] : List (ℚ × ℚ)) := by
  intro i j k a b c hij hjk ha hb hc
  have hk : k < 4 := (List.getElem?_eq_some_iff.1 hc).1
  have : (i = 0 ∧ j = 1 ∧ k = 2) ∨ (i = 0 ∧ j = 1 ∧ k = 3) ∨ (i = 0 ∧ j = 2 ∧ k = 3) ∨
      (i = 1 ∧ j = 2 ∧ k = 3) := by omega
  rcases this with ⟨rfl, rfl, rfl⟩ | ⟨rfl, rfl, rfl⟩ | ⟨rfl, rfl, rfl⟩ | ⟨rfl, rfl, rfl⟩ <;>
    · simp at ha hb hc
      subst ha hb hc
      norm_num [side]

/-- A polygon that is not convex: the notch is outside. -/
example : inPoly ((2, 3) : ℚ × ℚ) [(0, 0), (4, 0), (4, 4), (2, 1), (0, 4)] = false := by
  decide +kernel

end Verif
