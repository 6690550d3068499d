import Verif.Model.SInterp
import Verif.Spec.SInterp
import Verif.Lemmas.SIndex
import Verif.Lemmas.Depth
import Mathlib.Tactic.FieldSimp
import Mathlib.Tactic.LinearCombination
import Mathlib.Tactic.Linarith

/-!
# Algebra of the bilinear map and its inverse
-/

set_option autoImplicit false

namespace Verif.SInterp
open Verif Verif.Spec Verif.SIndex

variable {K : Type*} [Field K] [LinearOrder K] [IsStrictOrderedRing K]

/-- Value of the coefficient form. -/
def evalC (a : Coeffs K) (l m : K) : K := a.c1 + a.c2 * l + a.c3 * m + a.c4 * l * m

theorem eval_coeffs (v : K × K × K × K) (l m : K) : evalC (coeffs v) l m = bilinear v l m := by
  simp only [evalC, coeffs, bilinear]; ring

theorem root_form (x y m : K) (a b : Coeffs K) :
    (a.c4 * b.c3 - a.c3 * b.c4) * (m * m) +
      (a.c4 * b.c1 - a.c1 * b.c4 + a.c2 * b.c3 - a.c3 * b.c2 + x * b.c4 - y * a.c4) * m +
      (a.c2 * b.c1 - a.c1 * b.c2 + x * b.c2 - y * a.c2) =
    (b.c2 + b.c4 * m) * (x - a.c1 - a.c3 * m) - (a.c2 + a.c4 * m) * (y - b.c1 - b.c3 * m) := by
  ring

/-- A root with non-zero denominator gives a preimage. -/
theorem root_maps (x y m : K) (a b : Coeffs K) (hd : a.c2 + a.c4 * m ≠ 0)
    (h : (a.c4 * b.c3 - a.c3 * b.c4) * (m * m) +
      (a.c4 * b.c1 - a.c1 * b.c4 + a.c2 * b.c3 - a.c3 * b.c2 + x * b.c4 - y * a.c4) * m +
      (a.c2 * b.c1 - a.c1 * b.c2 + x * b.c2 - y * a.c2) = 0) :
    evalC a ((x - a.c1 - a.c3 * m) / (a.c2 + a.c4 * m)) m = x ∧
      evalC b ((x - a.c1 - a.c3 * m) / (a.c2 + a.c4 * m)) m = y := by
  rw [root_form] at h
  have hl : (x - a.c1 - a.c3 * m) / (a.c2 + a.c4 * m) * (a.c2 + a.c4 * m) =
      x - a.c1 - a.c3 * m := div_mul_cancel₀ _ hd
  generalize (x - a.c1 - a.c3 * m) / (a.c2 + a.c4 * m) = l at hl
  constructor
  · simp only [evalC]; linear_combination hl
  · have : (a.c2 + a.c4 * m) * (evalC b l m - y) = 0 := by
      simp only [evalC]
      linear_combination h + (b.c2 + b.c4 * m) * hl
    rcases mul_eq_zero.1 this with h' | h'
    · exact absurd h' hd
    · exact sub_eq_zero.1 h'

/-- A preimage is a root. -/
theorem maps_root (x y l m : K) (a b : Coeffs K) (hx : evalC a l m = x) (hy : evalC b l m = y) :
    (a.c4 * b.c3 - a.c3 * b.c4) * (m * m) +
      (a.c4 * b.c1 - a.c1 * b.c4 + a.c2 * b.c3 - a.c3 * b.c2 + x * b.c4 - y * a.c4) * m +
      (a.c2 * b.c1 - a.c1 * b.c2 + x * b.c2 - y * a.c2) = 0 := by
  subst hx hy; simp only [evalC]; ring

theorem maps_num (x l m : K) (a : Coeffs K) (hx : evalC a l m = x) :
    x - a.c1 - a.c3 * m = l * (a.c2 + a.c4 * m) := by
  subst hx; simp only [evalC]; ring

/-- The two values of the quadratic formula are roots. -/
theorem quad_roots (aa bb cc d : K) (ha : aa ≠ 0) (hd : d * d = bb * bb - 4 * aa * cc) :
    aa * (((-bb - d) / (2 * aa)) * ((-bb - d) / (2 * aa))) + bb * ((-bb - d) / (2 * aa)) + cc = 0 ∧
    aa * (((-bb + d) / (2 * aa)) * ((-bb + d) / (2 * aa))) + bb * ((-bb + d) / (2 * aa)) + cc = 0 := by
  have h2 : (2 : K) ≠ 0 := by norm_num
  constructor
  · field_simp
    linear_combination hd
  · field_simp
    linear_combination hd

/-- Every root is one of the two. -/
theorem quad_complete (aa bb cc d m : K) (ha : aa ≠ 0) (hd : d * d = bb * bb - 4 * aa * cc)
    (hm : aa * (m * m) + bb * m + cc = 0) :
    m = (-bb - d) / (2 * aa) ∨ m = (-bb + d) / (2 * aa) := by
  have h2 : (2 : K) ≠ 0 := by norm_num
  have h : (2 * aa * m + bb - d) * (2 * aa * m + bb + d) = 0 := by
    linear_combination 4 * aa * hm - hd
  rcases mul_eq_zero.1 h with h | h
  · right
    rw [eq_div_iff (mul_ne_zero h2 ha)]
    linear_combination h
  · left
    rw [eq_div_iff (mul_ne_zero h2 ha)]
    linear_combination h

theorem quot_some (n d q : K) : quot n d = some q ↔ d ≠ 0 ∧ q = n / d := by
  unfold quot
  by_cases h : d = 0
  · simp [h]
  · simp [h, eq_comm]

theorem dot_cons (x y : K) (xs ys : List K) : dot (x :: xs) (y :: ys) = x * y + dot xs ys := by
  simp [dot]

theorem clip_beside (n i : Nat) (d : Int) (h : i < n) (h1 : -1 ≤ d) (h2 : d ≤ 1) :
    clip n ((i : Int) + d) = beside n i d := by
  unfold clip beside
  split_ifs <;> omega

theorem clip_clip (n : Nat) (i : Int) (h : 0 < n) : clip n (clip n i) = clip n i := by
  unfold clip; omega

/-- Reading next to a cell, staying put at the rim. -/
theorem atIndex_beside {α : Type*} (c : Nat) (A : List (List α)) (hr : Rectangular c A) (i j : Nat)
    (hi : i < A.length) (hj : j < c) (d e : Int) (hd1 : -1 ≤ d) (hd2 : d ≤ 1) (he1 : -1 ≤ e)
    (he2 : e ≤ 1) (v : α) (h : entry A (beside A.length i d) (beside c j e) = some v) :
    atIndex A ((i : Int) + d, (j : Int) + e) = .ok v := by
  have hn : ncols A = c := ncols_eq c A hr (by rintro rfl; simp at hi)
  have hb := entry_lt c A hr _ _ v h
  rw [← atIndex_eq c A hr _ _ v h]
  unfold atIndex ravel
  rw [hn, clip_beside _ _ _ hi hd1 hd2, clip_beside _ _ _ hj he1 he2, clip_id _ _ hb.1,
    clip_id _ _ hb.2]

end Verif.SInterp
