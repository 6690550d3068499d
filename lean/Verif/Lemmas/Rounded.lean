import Verif.Model.Rounded
import Verif.Spec.Rounded
import Verif.Spec.Order
import Mathlib.Tactic.Linarith
import Mathlib.Tactic.Ring
import Mathlib.Tactic.FieldSimp
import Mathlib.Tactic.Positivity
import Mathlib.Tactic.NormNum

/-!
# Error bounds of rounded operations
-/

set_option autoImplicit false

namespace Verif.Rounded
open Verif.Spec

section
variable {K : Type*} [Field K] [LinearOrder K] [IsStrictOrderedRing K]

theorem acc_nonneg {rnd : K → K} {u : K} (h : Accurate rnd u) : 0 ≤ u := by
  have := h 1
  rw [abs_one, mul_one] at this
  exact le_trans (abs_nonneg _) this

/-- One rounding of a number known up to `e`. -/
theorem acc_step {rnd : K → K} {u : K} (h : Accurate rnd u) {x y e B : K} (hxy : |x - y| ≤ e)
    (hB : |x| ≤ B) : |rnd x - y| ≤ e + u * B := by
  have h1 := h x
  have h2 : u * |x| ≤ u * B := mul_le_mul_of_nonneg_left hB (acc_nonneg h)
  calc |rnd x - y| = |(rnd x - x) + (x - y)| := by congr 1; ring
    _ ≤ |rnd x - x| + |x - y| := abs_add_le _ _
    _ ≤ _ := by linarith

theorem abs_le_of_near {x y e B : K} (hxy : |x - y| ≤ e) (hB : |y| ≤ B) : |x| ≤ B + e := by
  calc |x| = |(x - y) + y| := by congr 1; ring
    _ ≤ |x - y| + |y| := abs_add_le _ _
    _ ≤ _ := by linarith

/-- Error of a product. -/
theorem mul_near {x x' y y' e f B C : K} (hx : |x' - x| ≤ e) (hy : |y' - y| ≤ f) (hB : |x| ≤ B)
    (hC : |y'| ≤ C) : |x' * y' - x * y| ≤ e * C + B * f := by
  have he : 0 ≤ e := le_trans (abs_nonneg _) hx
  have hB0 : 0 ≤ B := le_trans (abs_nonneg _) hB
  calc |x' * y' - x * y| = |(x' - x) * y' + x * (y' - y)| := by congr 1; ring
    _ ≤ |(x' - x) * y'| + |x * (y' - y)| := abs_add_le _ _
    _ = |x' - x| * |y'| + |x| * |y' - y| := by rw [abs_mul, abs_mul]
    _ ≤ e * C + B * f :=
      add_le_add (mul_le_mul hx hC (abs_nonneg _) he) (mul_le_mul hB hy (abs_nonneg _) hB0)

theorem mul_bound {x y B C : K} (hx : |x| ≤ B) (hy : |y| ≤ C) : |x * y| ≤ B * C := by
  rw [abs_mul]
  exact mul_le_mul hx hy (abs_nonneg _) (le_trans (abs_nonneg _) hx)

/-- A rounded quotient of two rounded numbers, for an exact quotient between 0 and 1. -/
theorem quot_err {rnd : K → K} {u : K} (h : Accurate rnd u) (hu : u ≤ 1 / 16) {n d : K} (hd : d ≠ 0)
    (h0 : 0 ≤ n / d) (h1 : n / d ≤ 1) :
    rnd d ≠ 0 ∧ |rnd (rnd n / rnd d) - n / d| ≤ 4 * u := by
  have hu0 := acc_nonneg h
  have hdp : 0 < |d| := abs_pos.mpr hd
  have e1 := h n
  have e2 := h d
  have hd' : 15 / 16 * |d| ≤ |rnd d| := by
    have : |d| ≤ |rnd d| + u * |d| := by
      calc |d| = |rnd d - (rnd d - d)| := by congr 1; ring
        _ ≤ |rnd d| + |rnd d - d| := abs_sub _ _
        _ ≤ _ := by linarith
    have h2 : u * |d| ≤ 1 / 16 * |d| := mul_le_mul_of_nonneg_right hu hdp.le
    linarith
  have hd0 : 0 < |rnd d| := lt_of_lt_of_le (by positivity) hd'
  have hdne : rnd d ≠ 0 := abs_pos.mp hd0
  refine ⟨hdne, ?_⟩
  have hn : |n| ≤ |d| := by
    have : |n / d| ≤ 1 := by rw [abs_of_nonneg h0]; exact h1
    rw [abs_div, div_le_one hdp] at this
    exact this
  have hq : |rnd n / rnd d - n / d| ≤ 32 / 15 * u := by
    have he : rnd n / rnd d - n / d = ((rnd n - n) * d - n * (rnd d - d)) / (rnd d * d) := by
      field_simp; ring
    rw [he, abs_div, abs_mul, div_le_iff₀ (by positivity)]
    have a1 : |(rnd n - n) * d - n * (rnd d - d)| ≤ 2 * (u * |d| * |d|) := by
      refine le_trans (abs_sub _ _) ?_
      rw [abs_mul, abs_mul]
      have b1 : |rnd n - n| * |d| ≤ u * |d| * |d| :=
        mul_le_mul_of_nonneg_right (le_trans e1 (mul_le_mul_of_nonneg_left hn hu0)) hdp.le
      have b2 : |n| * |rnd d - d| ≤ |d| * (u * |d|) :=
        mul_le_mul hn e2 (abs_nonneg _) hdp.le
      have : |d| * (u * |d|) = u * |d| * |d| := by ring
      linarith
    have a2 : 32 / 15 * u * (15 / 16 * |d| * |d|) ≤ 32 / 15 * u * (|rnd d| * |d|) :=
      mul_le_mul_of_nonneg_left (mul_le_mul_of_nonneg_right hd' hdp.le) (by positivity)
    have a3 : 32 / 15 * u * (15 / 16 * |d| * |d|) = 2 * (u * |d| * |d|) := by ring
    linarith
  have hB : |rnd n / rnd d| ≤ 6 / 5 := by
    have := abs_le_of_near hq (show |n / d| ≤ 1 by rw [abs_of_nonneg h0]; exact h1)
    linarith
  have := acc_step h hq hB
  linarith

/-- Error of the mix of two values with a weight known up to `4 u`. -/
theorem mix_err {rnd : K → K} {u : K} (h : Accurate rnd u) (hu : u ≤ 1 / 16) {v0 v1 M α α' : K}
    (hv0 : |v0| ≤ M) (hv1 : |v1| ≤ M) (h0 : 0 ≤ α) (h1 : α ≤ 1) (hα : |α' - α| ≤ 4 * u) :
    |mixR rnd v0 v1 α' - (v0 + (v1 - v0) * α)| ≤ 16 * u * M := by
  have hu0 := acc_nonneg h
  have hM : 0 ≤ M := le_trans (abs_nonneg _) hv0
  have huM : 0 ≤ u * M := mul_nonneg hu0 hM
  have huM' : u * M ≤ M / 16 := by
    have := mul_le_mul_of_nonneg_right hu hM
    linarith
  have huu : u * (u * M) ≤ u * M / 16 := by
    have := mul_le_mul_of_nonneg_right hu huM
    linarith
  have hd : |v1 - v0| ≤ 2 * M := le_trans (abs_sub _ _) (by linarith)
  have d1 : |rnd (v1 - v0) - (v1 - v0)| ≤ 2 * (u * M) := by
    have := mul_le_mul_of_nonneg_left hd hu0
    have := h (v1 - v0)
    linarith
  have hα' : |α'| ≤ 5 / 4 := by
    have := abs_le_of_near hα (show |α| ≤ 1 by rw [abs_of_nonneg h0]; exact h1)
    linarith
  have p1 := mul_near d1 hα hd hα'
  have p1' : |rnd (v1 - v0) * α' - (v1 - v0) * α| ≤ 21 / 2 * (u * M) := by
    have : 2 * (u * M) * (5 / 4) + 2 * M * (4 * u) = 21 / 2 * (u * M) := by ring
    linarith
  have p2 : |rnd (v1 - v0) * α'| ≤ 8 / 3 * M := by
    have := mul_bound (abs_le_of_near d1 hd) hα'
    linarith
  have p3 := acc_step h p1' p2
  have s1 : |v0 + rnd (rnd (v1 - v0) * α') - (v0 + (v1 - v0) * α)| ≤
      21 / 2 * (u * M) + u * (8 / 3 * M) := by
    have : v0 + rnd (rnd (v1 - v0) * α') - (v0 + (v1 - v0) * α) =
      rnd (rnd (v1 - v0) * α') - (v1 - v0) * α := by ring
    rw [this]; exact p3
  have hex : |v0 + (v1 - v0) * α| ≤ M := by
    have : v0 + (v1 - v0) * α = v0 * (1 - α) + v1 * α := by ring
    rw [this]
    refine le_trans (abs_add_le _ _) ?_
    rw [abs_mul, abs_mul, abs_of_nonneg h0, abs_of_nonneg (show 0 ≤ 1 - α by linarith)]
    have a1 := mul_le_mul_of_nonneg_right hv0 (show 0 ≤ 1 - α by linarith)
    have a2 := mul_le_mul_of_nonneg_right hv1 h0
    linarith
  have s2 := abs_le_of_near s1 hex
  have s2' : |v0 + rnd (rnd (v1 - v0) * α')| ≤ 11 / 6 * M := by
    have : u * (8 / 3 * M) = 8 / 3 * (u * M) := by ring
    linarith
  have fin := acc_step h s1 s2'
  unfold mixR
  refine le_trans fin ?_
  have : 21 / 2 * (u * M) + u * (8 / 3 * M) + u * (11 / 6 * M) = 15 * (u * M) := by ring
  rw [this]
  have : 16 * u * M = 16 * (u * M) := by ring
  linarith

/-- Error of a difference of products of differences. -/
theorem cross_err {rnd : K → K} {u : K} (h : Accurate rnd u) (hu : u ≤ 1 / 16) {S : K}
    {a a' b b' c c' d d' : K} (ha : |a - a'| ≤ S) (hb : |b - b'| ≤ S) (hc : |c - c'| ≤ S)
    (hd : |d - d'| ≤ S) :
    |crossR rnd a a' b b' c c' d d' - ((a - a') * (b - b') - (c - c') * (d - d'))| ≤
      9 * (u * (S * S)) := by
  have hu0 := acc_nonneg h
  have hS : 0 ≤ S := le_trans (abs_nonneg _) ha
  set P := S * S with hP
  have hP0 : 0 ≤ P := mul_nonneg hS hS
  have huP : 0 ≤ u * P := mul_nonneg hu0 hP0
  have huP' : u * P ≤ P / 16 := by
    have := mul_le_mul_of_nonneg_right hu hP0; linarith
  have huu : u * (u * P) ≤ u * P / 16 := by
    have := mul_le_mul_of_nonneg_right hu huP; linarith
  have huS : u * S ≤ S / 16 := by
    have := mul_le_mul_of_nonneg_right hu hS; linarith
  have diff : ∀ x y : K, |x - y| ≤ S → |rnd (x - y) - (x - y)| ≤ u * S ∧ |rnd (x - y)| ≤ 17 / 16 * S := by
    intro x y hxy
    have h1 := h (x - y)
    have h2 := mul_le_mul_of_nonneg_left hxy hu0
    have h3 : |rnd (x - y) - (x - y)| ≤ u * S := le_trans h1 h2
    exact ⟨h3, by have := abs_le_of_near h3 hxy; linarith⟩
  have prod : ∀ x y z w : K, |x - y| ≤ S → |z - w| ≤ S →
      |rnd (rnd (x - y) * rnd (z - w)) - (x - y) * (z - w)| ≤ 16 / 5 * (u * P) := by
    intro x y z w h1 h2
    obtain ⟨e1, b1⟩ := diff x y h1
    obtain ⟨e2, b2⟩ := diff z w h2
    have m1 := mul_near e1 e2 h1 b2
    have m2 := mul_bound b1 b2
    have m3 := acc_step h m1 m2
    have q1 : u * S * (17 / 16 * S) + S * (u * S) + u * (17 / 16 * S * (17 / 16 * S)) =
      (33 / 16 + 289 / 256) * (u * P) := by rw [hP]; ring
    rw [q1] at m3
    linarith
  have f1 := prod a a' b b' ha hb
  have f2 := prod c c' d d' hc hd
  have g1 : |(rnd (rnd (a - a') * rnd (b - b')) - rnd (rnd (c - c') * rnd (d - d'))) -
      ((a - a') * (b - b') - (c - c') * (d - d'))| ≤ 32 / 5 * (u * P) := by
    have : (rnd (rnd (a - a') * rnd (b - b')) - rnd (rnd (c - c') * rnd (d - d'))) -
      ((a - a') * (b - b') - (c - c') * (d - d')) =
      (rnd (rnd (a - a') * rnd (b - b')) - (a - a') * (b - b')) -
        (rnd (rnd (c - c') * rnd (d - d')) - (c - c') * (d - d')) := by ring
    rw [this]
    exact le_trans (abs_sub _ _) (by linarith)
  have g2 : |(a - a') * (b - b') - (c - c') * (d - d')| ≤ 2 * P := by
    have m1 := mul_bound ha hb
    have m2 := mul_bound hc hd
    exact le_trans (abs_sub _ _) (by linarith)
  have g3 := abs_le_of_near g1 g2
  have g4 : |rnd (rnd (a - a') * rnd (b - b')) - rnd (rnd (c - c') * rnd (d - d'))| ≤ 12 / 5 * P := by
    linarith
  have g5 := acc_step h g1 g4
  unfold crossR
  refine le_trans g5 ?_
  have : u * (12 / 5 * P) = 12 / 5 * (u * P) := by ring
  linarith

/-- A weight from a numerator and a denominator known up to `9 u S²`, where `κ` bounds
`S² / |d|`. -/
theorem weight_err {rnd : K → K} {u : K} (h : Accurate rnd u) {n n' d d' P κ : K}
    (hn : |n' - n| ≤ 9 * (u * P)) (hd : |d' - d| ≤ 9 * (u * P)) (hd0 : d ≠ 0) (hP : P ≤ κ * |d|)
    (hκ : 1 / 2 ≤ κ) (huκ : u * κ ≤ 1 / 144) (h0 : 0 ≤ n / d) (h1 : n / d ≤ 1) :
    d' ≠ 0 ∧ |rnd (n' / d') - n / d| ≤ 22 * (u * κ) := by
  have hu0 := acc_nonneg h
  have hdp : 0 < |d| := abs_pos.mpr hd0
  set ε := u * κ with hε
  have hε0 : 0 ≤ ε := mul_nonneg hu0 (by linarith)
  have hu2 : u ≤ 2 * ε := by
    have := mul_le_mul_of_nonneg_left hκ hu0
    rw [← hε] at this; linarith
  have huP : u * P ≤ ε * |d| := by
    have := mul_le_mul_of_nonneg_left hP hu0
    rw [hε]; linarith [this, mul_assoc u κ |d|]
  have hεd : ε * |d| ≤ 1 / 144 * |d| := mul_le_mul_of_nonneg_right huκ hdp.le
  have hd' : 15 / 16 * |d| ≤ |d'| := by
    have : |d| ≤ |d'| + |d' - d| := by
      calc |d| = |d' - (d' - d)| := by congr 1; ring
        _ ≤ _ := abs_sub _ _
    linarith
  have hd'0 : 0 < |d'| := lt_of_lt_of_le (by positivity) hd'
  have hne : d' ≠ 0 := abs_pos.mp hd'0
  refine ⟨hne, ?_⟩
  have hα : |n / d| ≤ 1 := by rw [abs_of_nonneg h0]; exact h1
  have hq : |n' / d' - n / d| ≤ 96 / 5 * ε := by
    have he : n' / d' - n / d = ((n' - n) - n / d * (d' - d)) / d' := by
      field_simp; ring
    rw [he, abs_div, div_le_iff₀ hd'0]
    have b1 : |n / d * (d' - d)| ≤ 1 * (9 * (u * P)) := mul_bound hα hd
    have b2 : |(n' - n) - n / d * (d' - d)| ≤ 18 * (u * P) :=
      le_trans (abs_sub _ _) (by linarith)
    have b3 := mul_le_mul_of_nonneg_left hd' (show 0 ≤ 96 / 5 * ε by positivity)
    have b4 : 96 / 5 * ε * (15 / 16 * |d|) = 18 * (ε * |d|) := by ring
    linarith
  have hB : |n' / d'| ≤ 8 / 7 := by
    have := abs_le_of_near hq hα
    linarith
  have := acc_step h hq hB
  linarith

/-- Error of the weighted sum for weights known up to `22 ε` (`u ≤ 2 ε`). -/
theorem sum_err {rnd : K → K} {u ε M : K} (h : Accurate rnd u) (hu2 : u ≤ 2 * ε) (hε : ε ≤ 1 / 144)
    {v0 v1 v2 a b c a' b' c' : K} (h0 : |v0| ≤ M) (h1 : |v1| ≤ M) (h2 : |v2| ≤ M)
    (ha : 0 ≤ a) (hb : 0 ≤ b) (hc : 0 ≤ c) (hs : a + b + c = 1)
    (ea : |a' - a| ≤ 22 * ε) (eb : |b' - b| ≤ 22 * ε) (ec : |c' - c| ≤ 22 * ε) :
    |sumR rnd v0 v1 v2 a' b' c' - (v0 * a + v1 * b + v2 * c)| ≤ 80 * ε * M := by
  have hu0 := acc_nonneg h
  have hM : 0 ≤ M := le_trans (abs_nonneg _) h0
  have hε0 : 0 ≤ ε := by linarith
  have hu : u ≤ 1 / 72 := by linarith
  set E := ε * M with hE
  have hE0 : 0 ≤ E := mul_nonneg hε0 hM
  have huM : u * M ≤ 2 * E := by
    have := mul_le_mul_of_nonneg_right hu2 hM
    rw [hE]; linarith [this, mul_assoc 2 ε M]
  have hEM : E ≤ M / 144 := by
    have := mul_le_mul_of_nonneg_right hε hM
    rw [hE]; linarith
  have prod : ∀ v x x' : K, |v| ≤ M → 0 ≤ x → |x' - x| ≤ 22 * ε →
      |rnd (v * x') - v * x| ≤ 22 * E + u * (M * x + 22 * E) ∧ |v * x| ≤ M * x := by
    intro v x x' hv hx he
    have e1 : |v * x' - v * x| ≤ 22 * E := by
      have := mul_bound hv he
      rw [show v * x' - v * x = v * (x' - x) by ring]
      refine le_trans this (le_of_eq ?_)
      rw [hE]; ring
    have e2 : |v * x| ≤ M * x := by
      rw [abs_mul, abs_of_nonneg hx]
      exact mul_le_mul_of_nonneg_right hv hx
    exact ⟨acc_step h e1 (abs_le_of_near e1 e2), e2⟩
  obtain ⟨p0, q0⟩ := prod v0 a a' h0 ha ea
  obtain ⟨p1, q1⟩ := prod v1 b b' h1 hb eb
  obtain ⟨p2, q2⟩ := prod v2 c c' h2 hc ec
  have huE : u * E ≤ 1 / 72 * E := mul_le_mul_of_nonneg_right hu hE0
  have huE0 : 0 ≤ u * E := mul_nonneg hu0 hE0
  have huM0 : 0 ≤ u * M := mul_nonneg hu0 hM
  have hMa : 0 ≤ M * a := mul_nonneg hM ha
  have hMb : 0 ≤ M * b := mul_nonneg hM hb
  have hMc : 0 ≤ M * c := mul_nonneg hM hc
  have hMs : M * a + M * b + M * c = M := by rw [← mul_add, ← mul_add, hs, mul_one]
  have huMs : u * (M * a) + u * (M * b) + u * (M * c) = u * M := by
    rw [← mul_add, ← mul_add, hMs]
  have huMa : 0 ≤ u * (M * a) := mul_nonneg hu0 hMa
  have huMb : 0 ≤ u * (M * b) := mul_nonneg hu0 hMb
  have huMc : 0 ≤ u * (M * c) := mul_nonneg hu0 hMc
  have d0 : u * (M * a + 22 * E) = u * (M * a) + 22 * (u * E) := by ring
  have d1 : u * (M * b + 22 * E) = u * (M * b) + 22 * (u * E) := by ring
  have d2 : u * (M * c + 22 * E) = u * (M * c) + 22 * (u * E) := by ring
  rw [d0] at p0; rw [d1] at p1; rw [d2] at p2
  -- first sum
  have s1 : |rnd (v0 * a') + rnd (v1 * b') - (v0 * a + v1 * b)| ≤
      44 * E + (u * (M * a) + u * (M * b)) + 44 * (u * E) := by
    rw [show rnd (v0 * a') + rnd (v1 * b') - (v0 * a + v1 * b) =
      (rnd (v0 * a') - v0 * a) + (rnd (v1 * b') - v1 * b) by ring]
    exact le_trans (abs_add_le _ _) (by linarith)
  have t1 : |v0 * a + v1 * b| ≤ M := le_trans (abs_add_le _ _) (by linarith)
  have r1 := acc_step h s1 (show _ ≤ 3 / 2 * M by
    have := abs_le_of_near s1 t1
    linarith)
  -- second sum
  have s2 : |rnd (rnd (v0 * a') + rnd (v1 * b')) + rnd (v2 * c') - (v0 * a + v1 * b + v2 * c)| ≤
      66 * E + u * M + 66 * (u * E) + u * (3 / 2 * M) := by
    rw [show rnd (rnd (v0 * a') + rnd (v1 * b')) + rnd (v2 * c') - (v0 * a + v1 * b + v2 * c) =
      (rnd (rnd (v0 * a') + rnd (v1 * b')) - (v0 * a + v1 * b)) + (rnd (v2 * c') - v2 * c) by ring]
    exact le_trans (abs_add_le _ _) (by linarith)
  have t2 : |v0 * a + v1 * b + v2 * c| ≤ M :=
    le_trans (abs_add_le _ _) (by
      have := abs_add_le (v0 * a) (v1 * b)
      linarith)
  have d3 : u * (3 / 2 * M) = 3 / 2 * (u * M) := by ring
  have r2 := acc_step h s2 (show _ ≤ 8 / 5 * M by
    have := abs_le_of_near s2 t2
    linarith)
  unfold sumR
  refine le_trans r2 ?_
  have d4 : u * (8 / 5 * M) = 8 / 5 * (u * M) := by ring
  have d5 : 80 * ε * M = 80 * E := by rw [hE]; ring
  rw [d5, d4]
  linarith

end

end Verif.Rounded
