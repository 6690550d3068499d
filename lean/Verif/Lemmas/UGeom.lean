import Verif.Model.UGeom
import Verif.Spec.Geom
import Verif.Lemmas.Np
import Verif.Lemmas.Depth
import Mathlib.Tactic.LinearCombination
import Mathlib.Tactic.FieldSimp
import Mathlib.Tactic.Linarith

set_option autoImplicit false

namespace Verif.UGeom
open Verif.Spec

section
variable {K : Type*} [Field K] [LinearOrder K] [IsStrictOrderedRing K]

theorem denom_turn (p q r : K × K) :
    denom p q r = (q.1 - p.1) * (r.2 - p.2) - (r.1 - p.1) * (q.2 - p.2) := by
  unfold denom; ring

theorem denom_ne {p q r : K × K} (h : ProperTriangle p q r) : denom p q r ≠ 0 := by
  rw [denom_turn]
  rcases h with h | h
  · exact ne_of_gt h
  · unfold TurnsRight TurnsLeft at h
    intro h0
    have : (p.1 - q.1) * (r.2 - q.2) - (r.1 - q.1) * (p.2 - q.2) = 0 := by
      linear_combination -h0
    rw [this] at h
    exact lt_irrefl _ h

/-- The weights are the coordinates of the point, uniquely. -/
theorem weighted_iff {p q r : K × K} (h : denom p q r ≠ 0) (pt : K × K) (a b c : K) :
    Weighted p q r pt a b c ↔
      a = num1 p q r pt / denom p q r ∧ b = num2 p q r pt / denom p q r ∧
        c = num3 p q r pt / denom p q r := by
  constructor
  · rintro ⟨h1, h2, h3⟩
    have ha : a = 1 - b - c := by linear_combination h1
    subst ha
    refine ⟨?_, ?_, ?_⟩
    · rw [eq_div_iff h]
      unfold num1 denom
      rw [h2, h3]; ring
    · rw [eq_div_iff h]
      unfold num2 denom
      rw [h2, h3]; ring
    · rw [eq_div_iff h]
      unfold num3 denom
      rw [h2, h3]; ring
  · rintro ⟨rfl, rfl, rfl⟩
    refine ⟨?_, ?_, ?_⟩
    · field_simp; unfold num1 num2 num3 denom; ring
    · field_simp; unfold num1 num2 num3 denom; ring
    · field_simp; unfold num1 num2 num3 denom; ring

theorem signedArea_denom (p q r : K × K) : signedArea p q r = denom p q r / 2 := by
  unfold signedArea denom; ring

theorem sub1 (p q r pt : K × K) : signedArea p q pt = num3 p q r pt / 2 := by
  unfold signedArea num3; ring

theorem sub2 (p q r pt : K × K) : signedArea q r pt = num1 p q r pt / 2 := by
  unfold signedArea num1; ring

theorem sub3 (p q r pt : K × K) : signedArea p r pt = -(num2 p q r pt / 2) := by
  unfold signedArea num2; ring

theorem abs_neg_part (x : K) : |x| = x + 2 * max 0 (-x) := by
  rcases le_total 0 x with h | h
  · rw [abs_of_nonneg h, max_eq_left (by linarith)]; ring
  · rw [abs_of_nonpos h, max_eq_right (by linarith)]; ring

/-- The sum of the sub-areas, in terms of the coordinates of the point. -/
theorem total_eq {p q r : K × K} (hd : 0 < denom p q r) (pt : K × K) {a b c : K}
    (hw : Weighted p q r pt a b c) :
    |signedArea p q pt| + |signedArea q r pt| + |signedArea p r pt| - signedArea p q r
      = denom p q r * (max 0 (-a) + max 0 (-b) + max 0 (-c)) := by
  obtain ⟨ha, hb, hc⟩ := (weighted_iff (ne_of_gt hd) pt a b c).mp hw
  have e1 : num1 p q r pt = a * denom p q r := by rw [ha]; field_simp
  have e2 : num2 p q r pt = b * denom p q r := by rw [hb]; field_simp
  have e3 : num3 p q r pt = c * denom p q r := by rw [hc]; field_simp
  have hh : (0 : K) < denom p q r / 2 := by linarith
  rw [sub1 p q r, sub2 p q r, sub3 p q r, signedArea_denom, abs_neg, e1, e2, e3]
  have f : ∀ x : K, |x * denom p q r / 2| = (x + 2 * max 0 (-x)) * (denom p q r / 2) := by
    intro x
    rw [show x * denom p q r / 2 = x * (denom p q r / 2) by ring, abs_mul, abs_of_pos hh,
      abs_neg_part]
  rw [f, f, f]
  have h1 := hw.1
  linear_combination (denom p q r / 2) * h1

theorem getE {α : Type*} (l : List α) (i : Nat) (hi : i < l.length) :
    ∃ x, Np.pyGet l (i : Int) = .ok x ∧ l[i]? = some x :=
  ⟨l[i], Np.pyGet_nonneg (List.getElem?_eq_getElem hi), List.getElem?_eq_getElem hi⟩

theorem pyGet_mem {α : Type*} {l : List α} {i : Int} {x : α} (h : Np.pyGet l i = .ok x) : x ∈ l := by
  unfold Np.pyGet at h
  split at h
  · split at h
    · rename_i y hy; cases h; exact List.mem_of_getElem? hy
    · cases h
  · split at h
    · split at h
      · rename_i y hy; cases h; exact List.mem_of_getElem? hy
      · cases h
    · cases h

end

end Verif.UGeom
