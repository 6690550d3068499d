import Verif.Model.SAngle
import Verif.Spec.SAngle
import Mathlib.Tactic.Ring
import Mathlib.Tactic.FieldSimp
import Mathlib.Tactic.LinearCombination
import Mathlib.Tactic.NormNum
import Mathlib.Tactic.Linarith
import Mathlib.Analysis.SpecialFunctions.Trigonometric.Angle

/-!
# Angles of structured grids: C108
-/

set_option autoImplicit false

namespace Verif
open Verif.Spec Verif.SAngle

theorem pyMod_range (x m : ℝ) (hm : 0 < m) : 0 ≤ pyMod x m ∧ pyMod x m < m := by
  have h1 := Int.floor_le (x / m)
  have h2 := Int.lt_floor_add_one (x / m)
  rw [le_div_iff₀ hm] at h1
  rw [div_lt_iff₀ hm] at h2
  unfold pyMod
  constructor <;> nlinarith

/-- C108. Bearings are degrees from 0 to 360. -/
theorem C108_bearing (p q : ℝ × ℝ) : 0 ≤ bearing p q ∧ bearing p q < 360 :=
  pyMod_range _ 360 (by norm_num)

/-- Angles lie in a range of one turn. -/
theorem C108_range (p q : ℝ × ℝ) :
    -(3 * Real.pi / 2) < fromEast p q ∧ fromEast p q ≤ Real.pi / 2 := by
  obtain ⟨h1, h2⟩ := C108_bearing p q
  have hp := Real.pi_pos
  unfold fromEast
  constructor <;> nlinarith

theorem eastward_eq (p q : ℝ × ℝ) : eastward p q =
    Real.sin (q.1 * Real.pi / 180 - p.1 * Real.pi / 180) * Real.cos (q.2 * Real.pi / 180) := by
  simp only [eastward, dot3, onSphere, eastAt, rad, Real.sin_sub]
  ring

theorem northward_eq (p q : ℝ × ℝ) : northward p q =
    Real.cos (p.2 * Real.pi / 180) * Real.sin (q.2 * Real.pi / 180) -
      Real.sin (p.2 * Real.pi / 180) * Real.cos (q.2 * Real.pi / 180) *
        Real.cos (q.1 * Real.pi / 180 - p.1 * Real.pi / 180) := by
  simp only [northward, dot3, onSphere, northAt, rad, Real.cos_sub]
  ring

theorem fromEast_eq (p q : ℝ × ℝ) : ∃ k : ℤ, fromEast p q =
    Real.pi / 2 - arctan2 (eastward p q) (northward p q) + k * (2 * Real.pi) := by
  have hp := Real.pi_ne_zero
  rw [eastward_eq, northward_eq]
  unfold fromEast bearing pyMod
  simp only
  generalize arctan2 _ _ = a
  generalize ⌊(a * 180 / Real.pi + 360) / 360⌋ = n
  refine ⟨n - 1, ?_⟩
  push_cast
  field_simp
  ring

/-- C108. The angle is the one at which the second point is seen from the first, from east towards
north. -/
theorem C108_direction (p q : ℝ × ℝ) : SeenAt p q (fromEast p q) := by
  obtain ⟨k, hk⟩ := fromEast_eq p q
  refine ⟨‖(⟨northward p q, eastward p q⟩ : ℂ)‖, norm_nonneg _, ?_, ?_⟩
  · rw [hk, Real.cos_add_int_mul_two_pi, Real.cos_pi_div_two_sub]
    exact (Complex.norm_mul_sin_arg ⟨northward p q, eastward p q⟩).symm
  · rw [hk, Real.sin_add_int_mul_two_pi, Real.sin_pi_div_two_sub]
    exact (Complex.norm_mul_cos_arg ⟨northward p q, eastward p q⟩).symm

/-- It is the only such angle in its range, for points that are not the same or opposite. -/
theorem C108_unique (p q : ℝ × ℝ) (hne : eastward p q ≠ 0 ∨ northward p q ≠ 0) (θ : ℝ)
    (h : SeenAt p q θ) (h1 : -(3 * Real.pi / 2) < θ) (h2 : θ ≤ Real.pi / 2) : θ = fromEast p q := by
  obtain ⟨r, hr, e1, e2⟩ := h
  obtain ⟨s, hs, f1, f2⟩ := C108_direction p q
  obtain ⟨b1, b2⟩ := C108_range p q
  generalize fromEast p q = φ at *
  have hrs : r = s := by
    have a : r ^ 2 = s ^ 2 := by
      have c1 := Real.sin_sq_add_cos_sq θ
      have c2 := Real.sin_sq_add_cos_sq φ
      have : r ^ 2 * (Real.sin θ ^ 2 + Real.cos θ ^ 2) = s ^ 2 * (Real.sin φ ^ 2 + Real.cos φ ^ 2) := by
        have d1 : r * Real.cos θ = s * Real.cos φ := e1.symm.trans f1
        have d2 : r * Real.sin θ = s * Real.sin φ := e2.symm.trans f2
        linear_combination (r * Real.sin θ + s * Real.sin φ) * d2 +
          (r * Real.cos θ + s * Real.cos φ) * d1
      rw [c1, c2] at this
      linarith
    have := abs_eq_abs.2 (sq_eq_sq_iff_eq_or_eq_neg.1 a)
    rwa [abs_of_nonneg hr, abs_of_nonneg hs] at this
  subst hrs
  have hr0 : r ≠ 0 := by
    rintro rfl
    rcases hne with h | h
    · exact h (by rw [e1]; ring)
    · exact h (by rw [e2]; ring)
  have hc : Real.cos θ = Real.cos φ := mul_left_cancel₀ hr0 (e1.symm.trans f1)
  have hsn : Real.sin θ = Real.sin φ := mul_left_cancel₀ hr0 (e2.symm.trans f2)
  have hang : ((θ : ℝ) : Real.Angle) = φ := Real.Angle.cos_sin_inj hc hsn
  rw [Real.Angle.angle_eq_iff_two_pi_dvd_sub] at hang
  obtain ⟨k, hk⟩ := hang
  have hp := Real.pi_pos
  have hk0 : k = 0 := by
    have u : (k : ℝ) < 1 := by
      by_contra hcon
      have : (1 : ℝ) ≤ k := not_lt.1 hcon
      nlinarith
    have l : (-1 : ℝ) < k := by
      by_contra hcon
      have : (k : ℝ) ≤ -1 := not_lt.1 hcon
      nlinarith
    have u' : k < 1 := by exact_mod_cast u
    have l' : -1 < k := by exact_mod_cast l
    omega
  rw [hk0] at hk
  simp only [Int.cast_zero, mul_zero] at hk
  linarith

/-- Eastwards along the equator the angle is zero. -/
theorem C108_east (a b : ℝ) (h1 : a < b) (h2 : b < a + 180) : fromEast (a, 0) (b, 0) = 0 := by
  have hp := Real.pi_pos
  have he : eastward (a, 0) (b, 0) = Real.sin ((b - a) * Real.pi / 180) := by
    rw [eastward_eq]
    simp only [zero_mul, zero_div, Real.cos_zero, mul_one]
    congr 1
    ring
  have hn : northward (a, 0) (b, 0) = 0 := by
    rw [northward_eq]
    simp
  have hpos : 0 < Real.sin ((b - a) * Real.pi / 180) := by
    apply Real.sin_pos_of_pos_of_lt_pi
    · have : 0 < b - a := by linarith
      positivity
    · rw [div_lt_iff₀ (by norm_num)]
      nlinarith
  symm
  apply C108_unique _ _ (Or.inl (by rw [he]; exact hpos.ne')) 0 ⟨_, hpos.le, by rw [he]; simp,
    by rw [hn]; simp⟩ <;> linarith

/-- Northwards along a meridian it is a quarter turn. -/
theorem C108_north (a b c : ℝ) (h1 : b < c) (h2 : c < b + 180) :
    fromEast (a, b) (a, c) = Real.pi / 2 := by
  have hp := Real.pi_pos
  have he : eastward (a, b) (a, c) = 0 := by
    rw [eastward_eq]
    simp
  have hn : northward (a, b) (a, c) = Real.sin ((c - b) * Real.pi / 180) := by
    rw [northward_eq, show (c - b) * Real.pi / 180 = c * Real.pi / 180 - b * Real.pi / 180 by ring,
      Real.sin_sub]
    simp only [sub_self, Real.cos_zero]
    ring
  have hpos : 0 < Real.sin ((c - b) * Real.pi / 180) := by
    apply Real.sin_pos_of_pos_of_lt_pi
    · have : 0 < c - b := by linarith
      positivity
    · rw [div_lt_iff₀ (by norm_num)]
      nlinarith
  symm
  apply C108_unique _ _ (Or.inr (by rw [hn]; exact hpos.ne')) (Real.pi / 2) ⟨_, hpos.le,
    by rw [he]; simp, by rw [hn]; simp⟩ <;> linarith

example : fromEast (10, 0) (20, 0) = 0 ∧ fromEast (10, -45) (10, 50) = Real.pi / 2 :=
  ⟨C108_east 10 20 (by norm_num) (by norm_num), C108_north 10 (-45) 50 (by norm_num) (by norm_num)⟩

/-- C108. In a row of two centers or more every center has an angle, to its neighbour, and the last
has that of the one before. -/
theorem C108_rows_partial (pts : List (ℝ × ℝ)) (h : 2 ≤ pts.length) :
    (rowAngles pts).length = pts.length ∧
      (∀ i p q, pts[i]? = some p → pts[i + 1]? = some q →
        (rowAngles pts)[i]? = some (fromEast p q)) ∧
      (rowAngles pts)[pts.length - 1]? = (rowAngles pts)[pts.length - 2]? := by
  have hl : ((pts.dropLast.zip pts.tail).map (fun e => fromEast e.1 e.2)).length = pts.length - 1 := by
    simp
  generalize hm : (pts.dropLast.zip pts.tail).map (fun e => fromEast e.1 e.2) = m at hl
  have hr : rowAngles pts = m ++ m.getLast?.toList := by rw [← hm]; rfl
  have hne : m ≠ [] := by rintro rfl; simp at hl; omega
  have hlast : m.getLast?.toList = [m.getLast hne] := by rw [List.getLast?_eq_some_getLast hne]; rfl
  rw [hr, hlast]
  refine ⟨by simp [hl]; omega, ?_, ?_⟩
  · intro i p q hp hq
    have hi : i + 1 < pts.length := (List.getElem?_eq_some_iff.1 hq).1
    rw [List.getElem?_append_left (by omega), ← hm, List.getElem?_map]
    have : (pts.dropLast.zip pts.tail)[i]? = some (p, q) := by
      rw [List.getElem?_zip_eq_some]
      refine ⟨?_, ?_⟩
      · rw [List.getElem?_dropLast, if_pos (by omega)]
        exact hp
      · rw [List.getElem?_tail]
        exact hq
    rw [this]
    rfl
  · rw [List.getElem?_append_right (by omega), List.getElem?_append_left (by omega), hl,
      Nat.sub_self, List.getElem?_cons_zero, List.getLast_eq_getElem,
      ← List.getElem?_eq_getElem (by omega)]
    congr 1
    omega

/-- C108 as listed: every center has an angle. -/
def C108_statement : Prop := ∀ pts : List (ℝ × ℝ), (rowAngles pts).length = pts.length

/-- C108 is false: a single column of centers has no angles. -/
theorem C108_refuted : ¬ C108_statement := by
  intro h
  have := h [(1, 2)]
  simp [rowAngles, repeatLast] at this

/-- The arrays have one row of angles for each row of centers. -/
theorem C108_array (lon lat : List (List ℝ)) (h : lon.length = lat.length) :
    (angles lon lat).length = lon.length ∧
      ∀ (i : Nat) (x y : List ℝ), lon[i]? = some x → lat[i]? = some y →
        (angles lon lat)[i]? = some (rowAngles (x.zip y)) := by
  constructor
  · simp [angles, h]
  · intro i x y hx hy
    unfold angles
    have : (lon.zip lat)[i]? = some (x, y) := List.getElem?_zip_eq_some.2 ⟨hx, hy⟩
    rw [List.getElem?_map, this]
    rfl

end Verif
