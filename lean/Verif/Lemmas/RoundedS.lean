import Verif.Model.RoundedS
import Verif.Lemmas.Rounded
import Verif.Spec.SInterp
import Mathlib.Tactic.Linarith
import Mathlib.Tactic.FieldSimp
import Mathlib.Tactic.Ring
import Mathlib.Tactic.NormNum

/-!
# Rounding errors in an aligned rectangular cell

Everything is measured in units of the width and the height of the cell, so that only relative errors
occur.
-/

set_option autoImplicit false

namespace Verif.RoundedS
open Verif.Spec Verif.Rounded Verif.SInterp

section
variable {K : Type*} [Field K] [LinearOrder K] [IsStrictOrderedRing K]

/-- `z'` is `z` rounded. -/
def RelErr (u z z' : K) : Prop := |z' - z| ≤ u * |z|

theorem RelErr.step {u z z' y e B : K} (h : RelErr u z z') (hu : 0 ≤ u) (hzy : |z - y| ≤ e) (hB : |y| ≤ B) :
    |z' - y| ≤ e + u * (B + e) := by
  have h1 : |z| ≤ B + e := abs_le_of_near hzy hB
  have h2 : u * |z| ≤ u * (B + e) := mul_le_mul_of_nonneg_left h1 hu
  calc |z' - y| = |(z' - z) + (z - y)| := by congr 1; ring
    _ ≤ |z' - z| + |z - y| := abs_add_le _ _
    _ ≤ _ := by unfold RelErr at h; linarith

theorem acc_rel {rnd : K → K} {u : K} (h : Accurate rnd u) (z : K) : RelErr u z (rnd z) := h z

theorem acc_div {rnd : K → K} {u : K} (h : Accurate rnd u) (z c : K) : RelErr u (z / c) (rnd z / c) := by
  unfold RelErr
  rw [← sub_div, abs_div, abs_div, ← mul_div_assoc]
  exact div_le_div_of_nonneg_right (h z) (abs_nonneg c)

theorem rnd_zero {rnd : K → K} {u : K} (h : Accurate rnd u) : rnd 0 = 0 := by
  have := h 0
  rw [sub_zero, abs_zero, mul_zero] at this
  exact abs_eq_zero.1 (le_antisymm this (abs_nonneg _))

theorem add_near {a b c d e f : K} (h1 : |a - c| ≤ e) (h2 : |b - d| ≤ f) : |a + b - (c + d)| ≤ e + f := by
  calc |a + b - (c + d)| = |(a - c) + (b - d)| := by congr 1; ring
    _ ≤ _ := (abs_add_le _ _).trans (add_le_add h1 h2)

theorem sub_near {a b c d e f : K} (h1 : |a - c| ≤ e) (h2 : |b - d| ≤ f) : |a - b - (c - d)| ≤ e + f := by
  calc |a - b - (c - d)| = |(a - c) - (b - d)| := by congr 1; ring
    _ ≤ _ := (abs_sub _ _).trans (add_le_add h1 h2)

/-- The constants of the setting: `ε = u * κ`. -/
structure Small (u κ ε : K) : Prop where
  u0 : 0 ≤ u
  k1 : 1 ≤ κ
  eq : u * κ = ε
  le : ε ≤ 1 / 1024

theorem Small.ue {u κ ε : K} (s : Small u κ ε) : u ≤ ε := by
  have := mul_le_mul_of_nonneg_left s.k1 s.u0
  rw [mul_one, s.eq] at this
  exact this

theorem Small.e0 {u κ ε : K} (s : Small u κ ε) : 0 ≤ ε := s.u0.trans s.ue

theorem Small.uu {u κ ε : K} (s : Small u κ ε) {x : K} (hx : 0 ≤ x) : u * x ≤ x / 1024 := by
  have := mul_le_mul_of_nonneg_right (s.ue.trans s.le) hx
  linarith

/-- The fourth coefficient of the latitudes is noise. -/
theorem noise_bound {u κ ε Y0 g1 g2 g3 : K} (s : Small u κ ε) (hY : |Y0| ≤ κ) (h1 : RelErr u (-1) g1)
    (h2 : RelErr u (g1 + (Y0 + 1)) g2) (h3 : RelErr u (g2 - Y0) g3) : |g3| ≤ 4 * ε := by
  have e0 := s.e0
  have ue := s.ue
  have a1 : |g1 - -1| ≤ u := by
    have := h1
    unfold RelErr at this
    simpa using this
  have a2 : |g1 + (Y0 + 1) - Y0| ≤ u := by
    have e : g1 + (Y0 + 1) - Y0 = g1 - -1 := by ring
    rw [e]; exact a1
  have a3 := h2.step s.u0 a2 hY
  have a4 : u * (κ + u) = ε + u * u := by rw [mul_add, s.eq]
  have a5 := s.uu s.u0
  have a6 : |g2 - Y0 - 0| ≤ u + u * (κ + u) := by rw [sub_zero]; exact a3
  have a7 := h3.step s.u0 a6 (B := 0) (by simp)
  rw [sub_zero, zero_add] at a7
  have a8 := s.uu (x := u + u * (κ + u)) (by rw [a4]; have := mul_nonneg s.u0 s.u0; linarith [s.u0])
  rw [a4] at a7 a8
  linarith

theorem bb_core {u κ ε X0 X E w h t2 s1 t3 s2 s3 t5 s4 s5 : K} (s : Small u κ ε) (hX0 : |X0| ≤ κ)
    (hX : |X| ≤ κ) (hd : |X - X0| ≤ 1) (hE : |E| ≤ 4 * ε) (hw : |w - 1| ≤ u) (hh : |h - 1| ≤ u)
    (r2 : RelErr u (X0 * E) t2) (r1 : RelErr u (0 - t2) s1) (r3 : RelErr u (w * h) t3) (r4 : RelErr u (s1 + t3) s2)
    (r5 : RelErr u (s2 - 0) s3) (r6 : RelErr u (X * E) t5) (r7 : RelErr u (s3 + t5) s4) (r8 : RelErr u (s4 - 0) s5) :
    |s5 - 1| ≤ 16 * ε := by
  have e0 := s.e0
  have ue := s.ue
  have u0 := s.u0
  have le := s.le
  have ee : ε * ε ≤ ε / 1024 := by
    have := mul_le_mul_of_nonneg_right le e0
    linarith
  have key : ∀ Z : K, |Z| ≤ κ → |Z * E| ≤ 4 * (κ * ε) := by
    intro Z hZ
    have := mul_bound hZ hE
    linarith
  have uke : u * (4 * (κ * ε)) = 4 * (ε * ε) := by rw [← s.eq]; ring
  have prod : ∀ Z t : K, |Z| ≤ κ → RelErr u (Z * E) t → |t - Z * E| ≤ ε / 256 := by
    intro Z t hZ hr
    have h1 := hr.step u0 (y := Z * E) (e := 0) (by simp) (key Z hZ)
    rw [add_zero, zero_add, uke] at h1
    linarith
  have b2 := prod X0 t2 hX0 r2
  have b5 := prod X t5 hX r6
  have k0 := key X0 hX0
  have k5 := key X hX
  have c1 : |(0 - t2) - -(X0 * E)| ≤ ε / 256 := by
    have e : (0 - t2) - -(X0 * E) = -(t2 - X0 * E) := by ring
    rw [e, abs_neg]; exact b2
  have b1 := r1.step u0 c1 (B := 4 * (κ * ε)) (by rw [abs_neg]; exact k0)
  have b1' : |s1 - -(X0 * E)| ≤ ε / 64 := by
    have := s.uu (x := ε / 256) (by linarith)
    rw [mul_add, uke] at b1
    linarith
  have c3 : |w * h - 1 * 1| ≤ u * (1 + u) + 1 * u :=
    mul_near hw hh (by simp) (abs_le_of_near hh (by simp))
  have uu := s.uu u0
  have b3 := r3.step u0 (y := 1) (e := 3 * ε) (by rw [mul_one] at c3; linarith) (B := 1) (by simp)
  have u3 := s.uu (x := 3 * ε) (by linarith)
  have b3' : |t3 - 1| ≤ 9 / 2 * ε := by linarith
  have c4 := add_near b1' b3'
  have n4 : |(-(X0 * E) + 1)| ≤ 4 * (κ * ε) + 1 := by
    refine (abs_add_le _ _).trans ?_
    rw [abs_neg, abs_one]; linarith
  have b4 := r4.step u0 c4 n4
  have u4 := s.uu (x := ε / 64 + 9 / 2 * ε) (by linarith)
  have x4 : u * (4 * (κ * ε) + 1 + (ε / 64 + 9 / 2 * ε)) = 4 * (ε * ε) + u + u * (ε / 64 + 9 / 2 * ε) := by
    rw [← uke]; ring
  have b4' : |s2 - (-(X0 * E) + 1)| ≤ 6 * ε := by
    rw [x4] at b4
    linarith
  have c6 : |s2 - 0 - (-(X0 * E) + 1)| ≤ 6 * ε := by rw [sub_zero]; exact b4'
  have b6 := r5.step u0 c6 n4
  have u6 := s.uu (x := 6 * ε) (by linarith)
  have x6 : u * (4 * (κ * ε) + 1 + 6 * ε) = 4 * (ε * ε) + u + u * (6 * ε) := by rw [← uke]; ring
  have b6' : |s3 - (-(X0 * E) + 1)| ≤ 8 * ε := by
    rw [x6] at b6
    linarith
  have c7 := add_near b6' b5
  have n7 : |(-(X0 * E) + 1) + X * E| ≤ 8 * (κ * ε) + 1 := by
    refine (abs_add_le _ _).trans ?_
    linarith
  have b7 := r7.step u0 c7 n7
  have u7 := s.uu (x := 8 * ε + ε / 256) (by linarith)
  have x7 : u * (8 * (κ * ε) + 1 + (8 * ε + ε / 256)) = 8 * (ε * ε) + u + u * (8 * ε + ε / 256) := by
    have : u * (8 * (κ * ε)) = 8 * (ε * ε) := by rw [← s.eq]; ring
    rw [← this]; ring
  have b7' : |s4 - ((-(X0 * E) + 1) + X * E)| ≤ 10 * ε := by
    rw [x7] at b7
    linarith
  have c8 : |s4 - 0 - ((-(X0 * E) + 1) + X * E)| ≤ 10 * ε := by rw [sub_zero]; exact b7'
  have b8 := r8.step u0 c8 n7
  have u8 := s.uu (x := 10 * ε) (by linarith)
  have x8 : u * (8 * (κ * ε) + 1 + 10 * ε) = 8 * (ε * ε) + u + u * (10 * ε) := by
    have : u * (8 * (κ * ε)) = 8 * (ε * ε) := by rw [← s.eq]; ring
    rw [← this]; ring
  have b8' : |s5 - ((-(X0 * E) + 1) + X * E)| ≤ 12 * ε := by
    rw [x8] at b8
    linarith
  have last : |((-(X0 * E) + 1) + X * E) - 1| ≤ 4 * ε := by
    have e : ((-(X0 * E) + 1) + X * E) - 1 = (X - X0) * E := by ring
    rw [e]
    have := mul_bound hd hE
    linarith
  calc |s5 - 1| = |(s5 - ((-(X0 * E) + 1) + X * E)) + (((-(X0 * E) + 1) + X * E) - 1)| := by
        congr 1; ring
    _ ≤ _ := abs_add_le _ _
    _ ≤ 16 * ε := by linarith

theorem cc_core {u κ ε Y0 Y m w t1 s1 s2 t4 s3 : K} (s : Small u κ ε) (hY0 : |Y0| ≤ κ) (hY : |Y| ≤ κ)
    (hm : Y - Y0 = m) (hm1 : |m| ≤ 1) (hw : |w - 1| ≤ u) (r1 : RelErr u (w * Y0) t1)
    (r2 : RelErr u (t1 - 0) s1) (r3 : RelErr u (s1 + 0) s2) (r4 : RelErr u (Y * w) t4) (r5 : RelErr u (s2 - t4) s3) :
    |s3 - -m| ≤ 8 * ε := by
  have e0 := s.e0
  have ue := s.ue
  have u0 := s.u0
  have prod : ∀ Z t : K, |Z| ≤ κ → RelErr u (w * Z) t → |t - Z| ≤ 33 / 16 * ε := by
    intro Z t hZ hr
    have h1 : |w * Z - Z| ≤ ε := by
      have e : w * Z - Z = (w - 1) * Z := by ring
      rw [e]
      have := mul_bound hw hZ
      rwa [s.eq] at this
    have h2 := hr.step u0 h1 hZ
    have h3 := s.uu e0
    rw [mul_add, s.eq] at h2
    linarith
  have b1 := prod Y0 t1 hY0 r1
  have b4 := prod Y t4 hY (by rw [mul_comm]; exact r4)
  have c2 : |t1 - 0 - Y0| ≤ 33 / 16 * ε := by rw [sub_zero]; exact b1
  have b2 := r2.step u0 c2 hY0
  have u2 := s.uu (x := 33 / 16 * ε) (by linarith)
  have b2' : |s1 + 0 - Y0| ≤ 50 / 16 * ε := by
    rw [add_zero]
    rw [mul_add, s.eq] at b2
    linarith
  have b3 := r3.step u0 b2' hY0
  have u3 := s.uu (x := 50 / 16 * ε) (by linarith)
  have b3' : |s2 - Y0| ≤ 67 / 16 * ε := by
    rw [mul_add, s.eq] at b3
    linarith
  have c5 := sub_near b3' b4
  have e5 : Y0 - Y = -m := by rw [← hm]; ring
  rw [e5] at c5
  have b5 := r5.step u0 c5 (B := 1) (by rw [abs_neg]; exact hm1)
  have u5 := s.uu (x := 67 / 16 * ε + 33 / 16 * ε) (by linarith)
  rw [mul_add, mul_one] at b5
  linarith

/-- A quotient of numbers near `q` and near 1. -/
theorem quot_core {u n d q r a b : K} (hu : 0 ≤ u) (hu1 : u ≤ 1 / 1024) (hn : |n - q| ≤ a)
    (hd : |d - 1| ≤ b) (hb : b ≤ 1 / 32) (hq : |q| ≤ 1) (hr : RelErr u (n / d) r) (ha : a ≤ 1 / 32) :
    d ≠ 0 ∧ |r - q| ≤ 33 / 31 * (a + b) + 2 * u := by
  have ha0 : 0 ≤ a := (abs_nonneg _).trans hn
  have hb0 : 0 ≤ b := (abs_nonneg _).trans hd
  have hd1 : 31 / 32 ≤ d := by
    have := (abs_le.mp hd).1
    linarith
  have hd0 : (0 : K) < d := lt_of_lt_of_le (by norm_num) hd1
  refine ⟨hd0.ne', ?_⟩
  have h1 : |n / d - q| ≤ 32 / 31 * (a + b) := by
    have e : n / d - q = (n - q * d) / d := by field_simp
    rw [e, abs_div, abs_of_pos hd0, div_le_iff₀ hd0]
    have h2 : |n - q * d| ≤ a + b := by
      have e : n - q * d = (n - q) - q * (d - 1) := by ring
      rw [e]
      refine (abs_sub _ _).trans (add_le_add hn ?_)
      have := mul_bound hq hd
      linarith
    have h3 : a + b ≤ 32 / 31 * (a + b) * d := by
      have h4 := mul_le_mul_of_nonneg_left hd1 (show (0 : K) ≤ 32 / 31 * (a + b) by linarith)
      linarith
    linarith
  have h2 := hr.step hu h1 hq
  have h3 : u * (32 / 31 * (a + b)) ≤ 1 / 31 * (a + b) := by
    have := mul_le_mul_of_nonneg_right hu1 (show (0 : K) ≤ 32 / 31 * (a + b) by linarith)
    linarith
  rw [mul_add] at h2
  linarith

/-- Adding the index and taking it off again. -/
theorem offset_core {rnd : K → K} {u i l l' N e : K} (h : Accurate rnd u) (hu1 : u ≤ 1 / 1024)
    (hi : |i| ≤ N) (hl : |l| ≤ 1) (he : |l' - l| ≤ e) (he1 : e ≤ 1 / 16) (hN : u * N ≤ 1 / 1024) :
    |offsetR rnd i l' - l| ≤ 2 * e + 2 * (u * N) + 3 * u := by
  have u0 := acc_nonneg h
  have e0 : 0 ≤ e := (abs_nonneg _).trans he
  have N0 : 0 ≤ u * N := mul_nonneg u0 ((abs_nonneg _).trans hi)
  unfold offsetR
  have h1 : |i + l' - (i + l)| ≤ e := by
    have : i + l' - (i + l) = l' - l := by ring
    rw [this]; exact he
  have h2 := (acc_rel h (i + l')).step u0 h1 (B := N + 1) ((abs_add_le _ _).trans (add_le_add hi hl))
  have h3 : |rnd (i + l') - i - l| ≤ e + u * (N + 1 + e) := by
    have : rnd (i + l') - i - l = rnd (i + l') - (i + l) := by ring
    rw [this]; exact h2
  have h4 := (acc_rel h (rnd (i + l') - i)).step u0 h3 hl
  have ue : u * e ≤ e / 1024 := by
    have := mul_le_mul_of_nonneg_right hu1 e0
    linarith
  have x1 : u * (N + 1 + e) = u * N + u + u * e := by ring
  have x2 : u * (1 + (e + u * (N + 1 + e))) ≤ u + (e + u * (N + 1 + e)) / 1024 := by
    have := mul_le_mul_of_nonneg_right hu1 (show 0 ≤ e + u * (N + 1 + e) by
      rw [x1]; have := mul_nonneg u0 e0; linarith)
    rw [mul_add, mul_one]
    linarith
  rw [x1] at h4 x2
  linarith

/-- The weights of a position that is known up to `D`. -/
theorem weights_core {rnd : K → K} {u l m l' m' D : K} (h : Accurate rnd u) (hl0 : 0 ≤ l) (hl1 : l ≤ 1)
    (hm0 : 0 ≤ m) (hm1 : m ≤ 1) (hl : |l' - l| ≤ D) (hm : |m' - m| ≤ D) (hu : 16 * u ≤ D)
    (hD : D ≤ 1 / 1024) :
    |(weightsR rnd l' m').1 - (1 - l) * (1 - m)| ≤ 5 * D ∧
      |(weightsR rnd l' m').2.1 - (1 - l) * m| ≤ 4 * D ∧
      |(weightsR rnd l' m').2.2.1 - l * m| ≤ 3 * D ∧ |(weightsR rnd l' m').2.2.2 - l * (1 - m)| ≤ 4 * D := by
  have u0 := acc_nonneg h
  have D0 : 0 ≤ D := (abs_nonneg _).trans hl
  have hu1 : u ≤ 1 / 1024 := by linarith
  have small : ∀ x : K, 0 ≤ x → x ≤ 1 → u * x ≤ D / 16 := by
    intro x h0 h1
    have := mul_le_mul_of_nonneg_left h1 u0
    linarith
  have tiny : ∀ x : K, 0 ≤ x → u * x ≤ x / 1024 := by
    intro x h0
    have := mul_le_mul_of_nonneg_right hu1 h0
    linarith
  have lm0 := mul_nonneg hl0 hm0
  have lm1 : l * m ≤ m := by have := mul_le_mul_of_nonneg_right hl1 hm0; linarith
  have lm2 : l * m ≤ l := by have := mul_le_mul_of_nonneg_left hm1 hl0; linarith
  have ab : ∀ x : K, 0 ≤ x → x ≤ 1 → |x| ≤ 1 := fun x h0 h1 => by rw [abs_of_nonneg h0]; exact h1
  have p0 : |l' * m' - l * m| ≤ D * (1 + D) + 1 * D :=
    mul_near hl hm (ab l hl0 hl1) (abs_le_of_near hm (ab m hm0 hm1))
  have DD : D * D ≤ D / 1024 := by have := mul_le_mul_of_nonneg_left hD D0; linarith
  have p0' : |l' * m' - l * m| ≤ 33 / 16 * D := by linarith
  have p1 := (acc_rel h (l' * m')).step u0 p0' (ab (l * m) lm0 (by linarith))
  have t1 := tiny (33 / 16 * D) (by linarith)
  have p : |rnd (l' * m') - l * m| ≤ 35 / 16 * D := by
    rw [mul_add] at p1
    linarith
  have aux : ∀ (x y e : K), |x - y| ≤ e → 0 ≤ y → y ≤ 1 → |rnd x - y| ≤ e + D / 16 + e / 1024 := by
    intro x y e hx h0 h1
    have := (acc_rel h x).step u0 hx (ab y h0 h1)
    have := tiny e ((abs_nonneg _).trans hx)
    rw [mul_add] at *
    linarith
  have q1 : |(1 - l') - (1 - l)| ≤ D := by
    have : (1 - l') - (1 - l) = -(l' - l) := by ring
    rw [this, abs_neg]; exact hl
  have q2 := aux _ _ _ q1 (by linarith) (by linarith)
  have q3 := sub_near q2 hm
  have n3 : |1 - l - m| ≤ 1 := by rw [abs_le]; constructor <;> linarith
  have q4 := (acc_rel h _).step u0 q3 n3
  have t4 := tiny (D + D / 16 + D / 1024 + D) (by linarith)
  have q5 : |rnd (rnd (1 - l') - m') - (1 - l - m)| ≤ 18 / 8 * D := by
    rw [mul_add] at q4
    linarith
  have q6 := add_near q5 p
  have e6 : 1 - l - m + l * m = (1 - l) * (1 - m) := by ring
  rw [e6] at q6
  have q7 := aux _ _ _ q6 (mul_nonneg (by linarith) (by linarith)) (by
    rw [← e6]; linarith)
  have r1 := sub_near hm p
  have e1 : m - l * m = (1 - l) * m := by ring
  rw [e1] at r1
  have r2 := aux _ _ _ r1 (by rw [← e1]; linarith) (by rw [← e1]; linarith)
  have r3 := sub_near hl p
  have e3 : l - l * m = l * (1 - m) := by ring
  rw [e3] at r3
  have r4 := aux _ _ _ r3 (by rw [← e3]; linarith) (by rw [← e3]; linarith)
  unfold weightsR
  refine ⟨?_, ?_, ?_, ?_⟩
  · simp only; linarith
  · simp only; linarith
  · simp only; linarith
  · simp only; linarith

/-- A rounded sum of four numbers, from the left. -/
theorem sum_core {rnd : K → K} {u S a b c d a' b' c' d' e1 e2 e3 e4 : K} (h : Accurate rnd u)
    (hu1 : u ≤ 1 / 1024) (ha : |a' - a| ≤ e1) (hb : |b' - b| ≤ e2) (hc : |c' - c| ≤ e3)
    (hd : |d' - d| ≤ e4) (h2 : |a + b| ≤ S) (h3 : |a + b + c| ≤ S) (h4 : |a + b + c + d| ≤ S) :
    |rnd (rnd (rnd (a' + b') + c') + d') - (a + b + c + d)| ≤
      9 / 8 * (e1 + e2 + e3 + e4) + 4 * (u * S) := by
  have u0 := acc_nonneg h
  have p1 : 0 ≤ e1 := (abs_nonneg _).trans ha
  have p2 : 0 ≤ e2 := (abs_nonneg _).trans hb
  have p3 : 0 ≤ e3 := (abs_nonneg _).trans hc
  have p4 : 0 ≤ e4 := (abs_nonneg _).trans hd
  have S0 : 0 ≤ u * S := mul_nonneg u0 ((abs_nonneg _).trans h2)
  have tiny : ∀ x : K, 0 ≤ x → u * x ≤ x / 1024 := by
    intro x h0
    have := mul_le_mul_of_nonneg_right hu1 h0
    linarith
  have q1 := (acc_rel h _).step u0 (add_near ha hb) h2
  have t1 := tiny (e1 + e2) (by linarith)
  rw [mul_add] at q1
  have q2 := (acc_rel h _).step u0 (add_near q1 hc) h3
  have t2 := tiny (e1 + e2 + (u * S + u * (e1 + e2)) + e3) (by
    have := mul_nonneg u0 (add_nonneg p1 p2); linarith)
  rw [mul_add] at q2
  have q3 := (acc_rel h _).step u0 (add_near q2 hd) h4
  have t3 := tiny (e1 + e2 + (u * S + u * (e1 + e2)) + e3 +
    (u * S + u * (e1 + e2 + (u * S + u * (e1 + e2)) + e3)) + e4) (by
    have := mul_nonneg u0 (add_nonneg p1 p2)
    have := mul_nonneg u0 (show 0 ≤ e1 + e2 + (u * S + u * (e1 + e2)) + e3 by linarith)
    linarith)
  rw [mul_add] at q3
  linarith

end

end Verif.RoundedS
