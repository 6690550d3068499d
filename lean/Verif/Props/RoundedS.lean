import Verif.Lemmas.RoundedS
import Verif.Props.Rounded
import Verif.Props.SInterp
import Mathlib.Data.Real.Sqrt

/-!
# Structured cells in floating point: C186, C187
-/

set_option autoImplicit false

namespace Verif
open Verif.Spec Verif.Rounded Verif.RoundedS Verif.SInterp Verif.SIndex

section
variable {K : Type*} [Field K] [LinearOrder K] [IsStrictOrderedRing K]

/-- Without rounding the position is that of `SInterp`. -/
theorem xToLR_exact (sq : K → K) (x y : K) (a b : Coeffs K) :
    xToLR (fun z => z) sq x y a b = xToL sq x y a b := rfl

/-- Without rounding the value is that of `SInterp`, for data without masked values. -/
theorem C186_exact (sq : K → K) (g : Grid K) (A : List (List K)) (c d : Nat)
    (hA : Rectangular c A) (hlon : Rectangular d g.lon) (hlat : Rectangular d g.lat)
    (hp : g.pads .node = (.none, .none)) (i j : Nat) (px py v : K × K × K × K)
    (hx : IsCorners g.lon i j px) (hy : IsCorners g.lat i j py) (hv : IsCorners A i j v) (p : K × K) :
    (cellValueR (fun z => z) sq ((i : K), (j : K)) px py v p).map some =
      nodeValue sq g (plain A) p ((i : Int), (j : Int)) := by
  have ho := offset_eq sq g d hlon hlat i j px py hx hy p
  have hc := cellOffset_eq sq g p _ _ ho
  unfold cellValueR nodeValue
  rw [hc, xToLR_exact]
  have hco : ∀ w : K × K × K × K, coeffsR (fun z => z) w = coeffs w := fun _ => rfl
  rw [hco, hco]
  have hpad : applyPadding (g.pads .node) ((i : Int), (j : Int)) = .ok ((i : Int), (j : Int)) := by
    rw [hp]; rfl
  rw [hpad]
  cases hxl : xToL sq p.1 p.2 (coeffs px) (coeffs py) with
  | none => rfl
  | some lm =>
    simp only
    rw [byIndex_corners c _ (plain_rect c A hA) i j _ (plain_corners A i j v hv)]
    have ho1 : offsetR (fun z : K => z) (i : K) lm.1 = lm.1 := by unfold offsetR; ring
    have ho2 : offsetR (fun z : K => z) (j : K) lm.2 = lm.2 := by unfold offsetR; ring
    rw [ho1, ho2, if_pos (by
      unfold closeR weightsR
      simp only [decide_eq_true_eq]
      have : (1 - lm.1 - lm.2 + lm.1 * lm.2 + (lm.2 - lm.1 * lm.2) + lm.1 * lm.2 +
        (lm.1 - lm.1 * lm.2) - 1 : K) = 0 := by ring
      rw [this, abs_zero]
      norm_num)]
    simp only [Except.map, maskedDot, filledZero, dot, nodeWeights, sum4R, weightsR]
    simp [add_assoc]

/-! ## C186: error -/

/-- A square root of the machine: not negative, accurate, and exact where the root is a double. -/
def GoodSqrt (sq : ℚ → ℚ) : Prop :=
  (∀ s, 0 ≤ s → Stored rnd64 s → sq (s * s) = s) ∧
    ∀ k, 0 ≤ k → 0 ≤ sq k ∧ |sq k * sq k - k| ≤ k / 2 ^ 50

/-- There are such square roots. -/
theorem goodSqrt_exists : ∃ sq, GoodSqrt sq := by
  have key : ∀ k : ℚ, ∃ q : ℚ, 0 ≤ k → (0 ≤ q ∧ |q * q - k| ≤ k / 2 ^ 50 ∧
      ∀ s, 0 ≤ s → k = s * s → q = s) := by
    intro k
    by_cases hk : 0 ≤ k
    · by_cases hs : ∃ s, 0 ≤ s ∧ k = s * s
      · obtain ⟨s, h0, rfl⟩ := hs
        refine ⟨s, fun _ => ⟨h0, by rw [sub_self, abs_zero]; positivity, ?_⟩⟩
        intro s' h0' h
        exact (mul_self_inj h0 h0').1 h
      · have hk' : 0 < k := lt_of_le_of_ne hk (fun h => hs ⟨0, le_refl _, by rw [← h]; ring⟩)
        have hr : (0 : ℝ) < Real.sqrt k := Real.sqrt_pos.2 (by exact_mod_cast hk')
        obtain ⟨q, h1, h2⟩ := exists_rat_btwn (show Real.sqrt k < Real.sqrt k * (1 + 1 / 2 ^ 60) by
          nlinarith)
        have hq : (0 : ℝ) < q := hr.trans h1
        have hsq : Real.sqrt k * Real.sqrt k = k := Real.mul_self_sqrt (by exact_mod_cast hk)
        have l1 : (k : ℝ) ≤ q * q := by rw [← hsq]; exact mul_self_le_mul_self hr.le h1.le
        have l2 : (q : ℝ) * q ≤ k * (1 + 1 / 2 ^ 60) ^ 2 := by
          have := mul_self_le_mul_self hq.le h2.le
          calc (q : ℝ) * q ≤ _ := this
            _ = Real.sqrt k * Real.sqrt k * (1 + 1 / 2 ^ 60) ^ 2 := by ring
            _ = _ := by rw [hsq]
        have l1' : k ≤ q * q := by exact_mod_cast l1
        have l2' : q * q ≤ k * (1 + 1 / 2 ^ 60) ^ 2 := by
          have : ((q * q : ℚ) : ℝ) ≤ ((k * (1 + 1 / 2 ^ 60) ^ 2 : ℚ) : ℝ) := by
            push_cast
            exact l2
          exact Rat.cast_le.1 this
        refine ⟨q, fun _ => ⟨by exact_mod_cast hq.le, ?_, fun s h0 h => absurd ⟨s, h0, h⟩ hs⟩⟩
        rw [abs_of_nonneg (by linarith)]
        have : (1 + 1 / 2 ^ 60 : ℚ) ^ 2 ≤ 1 + 1 / 2 ^ 50 := by norm_num
        have := mul_le_mul_of_nonneg_left this hk
        linarith
    · exact ⟨0, fun h => absurd h hk⟩
  choose sq hsq using key
  exact ⟨sq, fun s h0 _ => (hsq (s * s) (mul_self_nonneg s)).2.2 s h0 rfl,
    fun k hk => ⟨(hsq k hk).1, (hsq k hk).2.1⟩⟩

/-- The corners of a cell that is the unit square up to rounding. -/
def UnitSquare (px py : ℚ × ℚ × ℚ × ℚ) : Prop :=
  |px.1| ≤ 1 / 2 ^ 50 ∧ |px.2.1| ≤ 1 / 2 ^ 50 ∧ |px.2.2.1 - 1| ≤ 1 / 2 ^ 50 ∧ |px.2.2.2 - 1| ≤ 1 / 2 ^ 50 ∧
  |py.1| ≤ 1 / 2 ^ 50 ∧ |py.2.1 - 1| ≤ 1 / 2 ^ 50 ∧ |py.2.2.1 - 1| ≤ 1 / 2 ^ 50 ∧ |py.2.2.2| ≤ 1 / 2 ^ 50

/-- All four numbers are doubles. -/
def Stored4 (v : ℚ × ℚ × ℚ × ℚ) : Prop :=
  Stored rnd64 v.1 ∧ Stored rnd64 v.2.1 ∧ Stored rnd64 v.2.2.1 ∧ Stored rnd64 v.2.2.2

/-- C186 as listed: in double precision, in a cell that is the unit square up to rounding, the value is
right to within a tenth of the largest node value. -/
def C186_statement : Prop :=
  ∀ sq, GoodSqrt sq → ∀ (px py v : ℚ × ℚ × ℚ × ℚ), UnitSquare px py → Stored4 px → Stored4 py →
    Stored4 v → ∀ (M l m : ℚ), |v.1| ≤ M → |v.2.1| ≤ M → |v.2.2.1| ≤ M → |v.2.2.2| ≤ M →
      InUnit (l, m) → Stored rnd64 (bilinear px l m) → Stored rnd64 (bilinear py l m) →
      ∃ r, cellValueR rnd64 sq (0, 0) px py v (bilinear px l m, bilinear py l m) = .ok r ∧
        |r - bilinear v l m| ≤ M / 10

theorem xToLR_congr (rnd sq sq' : K → K) (x y : K) (a b : Coeffs K)
    (h : sq (discR rnd (aaR rnd a b) (bbR rnd x y a b) (ccR rnd x y a b)) =
      sq' (discR rnd (aaR rnd a b) (bbR rnd x y a b) (ccR rnd x y a b))) :
    xToLR rnd sq x y a b = xToLR rnd sq' x y a b := by
  unfold xToLR
  simp only [h]

/-- The lower left corner of the cell is 2⁻⁵³ to the west of the upper left one. A point an eighth of the
way up gets the value at the bottom, whatever the square root, if only the root of 1 is 1. -/
theorem C186_quantised (sq : ℚ → ℚ) (h1 : sq 1 = 1) :
    cellValueR rnd64 sq (0, 0) (0, 1 / 2 ^ 53, 1, 1) (0, 1, 1, 0) (0, 1, 1, 0) (1 / 2, 1 / 8) = .ok 0 := by
  have hk : discR rnd64 (aaR rnd64 (coeffsR rnd64 (0, 1 / 2 ^ 53, 1, 1)) (coeffsR rnd64 (0, 1, 1, 0)))
      (bbR rnd64 (1 / 2) (1 / 8) (coeffsR rnd64 (0, 1 / 2 ^ 53, 1, 1)) (coeffsR rnd64 (0, 1, 1, 0)))
      (ccR rnd64 (1 / 2) (1 / 8) (coeffsR rnd64 (0, 1 / 2 ^ 53, 1, 1)) (coeffsR rnd64 (0, 1, 1, 0))) = 1 := by
    decide +kernel
  unfold cellValueR
  rw [xToLR_congr rnd64 sq (fun _ => 1) _ _ _ _ (by rw [hk, h1])]
  decide +kernel

theorem C186_refuted : ¬ C186_statement := by
  intro h
  obtain ⟨sq, hsq⟩ := goodSqrt_exists
  have h1 : sq 1 = 1 := by simpa using hsq.1 1 (by norm_num) (by unfold Stored; decide +kernel)
  have hx : bilinear ((0, 1 / 2 ^ 53, 1, 1) : ℚ × ℚ × ℚ × ℚ)
      ((1 / 2 - 1 / 2 ^ 56) / (1 - 1 / 2 ^ 56)) (1 / 8) = 1 / 2 := by unfold bilinear; norm_num
  have hy : bilinear ((0, 1, 1, 0) : ℚ × ℚ × ℚ × ℚ)
      ((1 / 2 - 1 / 2 ^ 56) / (1 - 1 / 2 ^ 56)) (1 / 8) = 1 / 8 := by unfold bilinear; norm_num
  obtain ⟨r, e, hr⟩ := h sq hsq (0, 1 / 2 ^ 53, 1, 1) (0, 1, 1, 0) (0, 1, 1, 0)
    (by unfold UnitSquare; norm_num) (by unfold Stored4 Stored; decide +kernel)
    (by unfold Stored4 Stored; decide +kernel) (by unfold Stored4 Stored; decide +kernel) 1
    ((1 / 2 - 1 / 2 ^ 56) / (1 - 1 / 2 ^ 56)) (1 / 8)
    (by norm_num) (by norm_num) (by norm_num) (by norm_num) (by unfold InUnit; norm_num)
    (by rw [hx]; unfold Stored; decide +kernel) (by rw [hy]; unfold Stored; decide +kernel)
  rw [hx, hy, C186_quantised sq h1] at e
  rw [hy] at hr
  cases e
  norm_num at hr

private theorem aligned_pos {rnd : K → K} {u κ ε x0 x1 y0 y1 l m : K} (sq : K → K) (h : Accurate rnd u)
    (s : Small u κ ε) (hw : x0 ≠ x1) (hh : y0 ≠ y1) (hs : Stored rnd x1)
    (hx0 : |x0| ≤ κ * |x1 - x0|) (hx1 : |x1| ≤ κ * |x1 - x0|)
    (hy0 : |y0| ≤ κ * |y1 - y0|) (hy1 : |y1| ≤ κ * |y1 - y0|)
    (hl0 : 0 ≤ l) (hl1 : l ≤ 1) (hm0 : 0 ≤ m) (hm1 : m ≤ 1) :
    ∃ l' m', xToLR rnd sq (x0 + l * (x1 - x0)) (y0 + m * (y1 - y0)) (coeffsR rnd (x0, x0, x1, x1))
        (coeffsR rnd (y0, y1, y1, y0)) = some (l', m') ∧ |l' - l| ≤ 8 * u ∧ |m' - m| ≤ 28 * ε := by
  have hw' : x1 - x0 ≠ 0 := sub_ne_zero.2 (Ne.symm hw)
  have hh' : y1 - y0 ≠ 0 := sub_ne_zero.2 (Ne.symm hh)
  have r0 : rnd 0 = 0 := rnd_zero h
  have u0 := s.u0
  have e0 := s.e0
  have ue := s.ue
  have le := s.le
  set W := x1 - x0 with hW
  set H := y1 - y0 with hH
  -- in units of the width and the height
  have sc : ∀ {a c : K}, c ≠ 0 → |a| ≤ κ * |c| → |a / c| ≤ κ := by
    intro a c hc ha
    rw [abs_div, div_le_iff₀ (abs_pos.2 hc)]
    exact ha
  have X0 := sc hw' hx0
  have X1 := sc hw' hx1
  have Y0 := sc hh' hy0
  have Y1 := sc hh' hy1
  have mid : ∀ {a b t : K}, |a| ≤ κ → |b| ≤ κ → 0 ≤ t → t ≤ 1 → b = a + 1 → |a + t| ≤ κ := by
    intro a b t ha hb h0 h1 he
    rw [abs_le] at ha hb ⊢
    constructor <;> linarith
  have ex1 : x1 / W = x0 / W + 1 := by field_simp; rw [hW]; ring
  have ey1 : y1 / H = y0 / H + 1 := by field_simp; rw [hH]; ring
  have XP : |x0 / W + l| ≤ κ := mid X0 X1 hl0 hl1 ex1
  have YP : |y0 / H + m| ≤ κ := mid Y0 Y1 hm0 hm1 ey1
  -- the coefficients
  have ca : coeffsR rnd (x0, x0, x1, x1) = ⟨x0, rnd W, 0, 0⟩ := by
    unfold coeffsR
    simp only [sub_self, r0, zero_add]
    rw [show rnd x1 = x1 from hs, sub_self, r0]
  set E := rnd (rnd (rnd (y0 - y1) + y1) - y0) with hE
  have cb : coeffsR rnd (y0, y1, y1, y0) = ⟨y0, 0, rnd H, E⟩ := by
    unfold coeffsR
    simp only [sub_self, r0]
    rfl
  rw [ca, cb]
  have w1 : |rnd W / W - 1| ≤ u := by
    have := acc_div h W W
    unfold RelErr at this
    rw [div_self hw', abs_one, mul_one] at this
    exact this
  have h1 : |rnd H / H - 1| ≤ u := by
    have := acc_div h H H
    unfold RelErr at this
    rw [div_self hh', abs_one, mul_one] at this
    exact this
  have eE : |E / H| ≤ 4 * ε := by
    refine noise_bound (g1 := rnd (y0 - y1) / H) (g2 := rnd (rnd (y0 - y1) + y1) / H) s Y0 ?_ ?_ ?_
    · have := acc_div h (y0 - y1) H
      have e : (y0 - y1) / H = -1 := by rw [div_eq_iff hh', hH]; ring
      rwa [e] at this
    · have := acc_div h (rnd (y0 - y1) + y1) H
      rwa [add_div, ey1] at this
    · have := acc_div h (rnd (rnd (y0 - y1) + y1) - y0) H
      rwa [sub_div] at this
  have aa : aaR rnd (⟨x0, rnd W, 0, 0⟩ : Coeffs K) ⟨y0, 0, rnd H, E⟩ = 0 := by
    unfold aaR
    simp only [zero_mul, r0, sub_self]
  have hWH : W * H ≠ 0 := mul_ne_zero hw' hh'
  set x := x0 + l * W with hx
  set y := y0 + m * H with hy
  have xW : x / W = x0 / W + l := by rw [hx, add_div, mul_div_cancel_right₀ _ hw']
  have yH : y / H = y0 / H + m := by rw [hy, add_div, mul_div_cancel_right₀ _ hh']
  set bb := bbR rnd x y (⟨x0, rnd W, 0, 0⟩ : Coeffs K) ⟨y0, 0, rnd H, E⟩ with hbb
  set cc := ccR rnd x y (⟨x0, rnd W, 0, 0⟩ : Coeffs K) ⟨y0, 0, rnd H, E⟩ with hcc
  have pd : ∀ a b : K, a * b / (W * H) = a / W * (b / H) := fun a b => by field_simp
  have b1 : |bb / (W * H) - 1| ≤ 16 * ε := by
    have q2 := acc_div h (x0 * E) (W * H)
    rw [pd] at q2
    have q1 := acc_div h (0 - rnd (x0 * E)) (W * H)
    rw [sub_div, zero_div] at q1
    have q3 := acc_div h (rnd W * rnd H) (W * H)
    rw [pd] at q3
    have q4 := acc_div h (rnd (0 - rnd (x0 * E)) + rnd (rnd W * rnd H)) (W * H)
    rw [add_div] at q4
    have q5 := acc_div h (rnd (rnd (0 - rnd (x0 * E)) + rnd (rnd W * rnd H)) - 0) (W * H)
    rw [sub_div, zero_div] at q5
    have q6 := acc_div h (x * E) (W * H)
    rw [pd, xW] at q6
    have q7 := acc_div h (rnd (rnd (rnd (0 - rnd (x0 * E)) + rnd (rnd W * rnd H)) - 0) + rnd (x * E)) (W * H)
    rw [add_div] at q7
    have q8 := acc_div h (rnd (rnd (rnd (rnd (0 - rnd (x0 * E)) + rnd (rnd W * rnd H)) - 0) +
      rnd (x * E)) - 0) (W * H)
    rw [sub_div, zero_div] at q8
    have := bb_core s X0 XP (by
      have e : x0 / W + l - x0 / W = l := by ring
      rw [e, abs_of_nonneg hl0]; exact hl1) eE w1 h1 q2 q1 q3 q4 q5 q6 q7 q8
    have e : bb = rnd (rnd (rnd (rnd (rnd (0 - rnd (x0 * E)) + rnd (rnd W * rnd H)) - 0) +
        rnd (x * E)) - 0) := by
      rw [hbb]
      unfold bbR
      simp only [zero_mul, mul_zero, r0]
    rw [e]
    exact this
  have c1 : |cc / (W * H) - -m| ≤ 8 * ε := by
    have q1 := acc_div h (rnd W * y0) (W * H)
    rw [pd] at q1
    have q2 := acc_div h (rnd (rnd W * y0) - 0) (W * H)
    rw [sub_div, zero_div] at q2
    have q3 := acc_div h (rnd (rnd (rnd W * y0) - 0) + 0) (W * H)
    rw [add_div, zero_div] at q3
    have q4 := acc_div h (y * rnd W) (W * H)
    rw [mul_comm W H, mul_div_mul_comm, yH] at q4
    have q5 := acc_div h (rnd (rnd (rnd (rnd W * y0) - 0) + 0) - rnd (y * rnd W)) (W * H)
    rw [sub_div] at q5
    rw [mul_comm H W] at q4
    have := cc_core (m := m) s Y0 YP (by ring) (by rw [abs_of_nonneg hm0]; exact hm1) w1 q1 q2 q3 q4 q5
    have e : cc = rnd (rnd (rnd (rnd (rnd W * y0) - 0) + 0) - rnd (y * rnd W)) := by
      rw [hcc]
      unfold ccR
      simp only [mul_zero, r0]
    rw [e]
    exact this
  have c2 : |-cc / (W * H) - m| ≤ 8 * ε := by
    have e : -cc / (W * H) - m = -(cc / (W * H) - -m) := by ring
    rw [e, abs_neg]; exact c1
  have ediv : -cc / bb = (-cc / (W * H)) / (bb / (W * H)) := by
    rw [div_div_div_cancel_right₀ hWH]
  have hq : RelErr u ((-cc / (W * H)) / (bb / (W * H))) (rnd (-cc / bb)) := by
    rw [← ediv]; exact acc_rel h _
  obtain ⟨d0, mm⟩ := quot_core u0 (ue.trans le) c2 b1 (by linarith) (by
    rw [abs_of_nonneg hm0]; exact hm1) hq (by linarith)
  have bb0 : bb ≠ 0 := by
    intro hz
    rw [hz, zero_div] at d0
    exact d0 rfl
  -- the other coordinate
  have hden : denR rnd (⟨x0, rnd W, 0, 0⟩ : Coeffs K) (rnd (-cc / bb)) = rnd (rnd W) := by
    unfold denR
    simp only [zero_mul, r0, add_zero]
  have hnum : numR rnd x (⟨x0, rnd W, 0, 0⟩ : Coeffs K) (rnd (-cc / bb)) = rnd (rnd (x - x0) - 0) := by
    unfold numR
    simp only [zero_mul, r0]
  have uu := s.uu u0
  have d1 : |rnd (rnd W) / W - 1| ≤ 9 / 4 * u := by
    have := (acc_div h (rnd W) W).step u0 w1 (B := 1) (by simp)
    rw [mul_add, mul_one] at this
    linarith
  have xl : (x - x0) / W = l := by rw [sub_div, xW]; ring
  have al : |l| ≤ 1 := by rw [abs_of_nonneg hl0]; exact hl1
  have n1 : |rnd (rnd (x - x0) - 0) / W - l| ≤ 9 / 4 * u := by
    have r1 := acc_div h (x - x0) W
    rw [xl] at r1
    have r2 := r1.step u0 (y := l) (e := 0) (by simp) al
    have r3 := acc_div h (rnd (x - x0) - 0) W
    rw [sub_div, zero_div] at r3
    have r4 := r3.step u0 (y := l) (e := u) (by rw [sub_zero]; linarith) al
    rw [mul_add, mul_one] at r4
    linarith
  have ediv2 : rnd (rnd (x - x0) - 0) / rnd (rnd W) =
      (rnd (rnd (x - x0) - 0) / W) / (rnd (rnd W) / W) := by rw [div_div_div_cancel_right₀ hw']
  have hq2 : RelErr u ((rnd (rnd (x - x0) - 0) / W) / (rnd (rnd W) / W))
      (rnd (rnd (rnd (x - x0) - 0) / rnd (rnd W))) := by
    rw [← ediv2]; exact acc_rel h _
  obtain ⟨d2, ll⟩ := quot_core u0 (ue.trans le) n1 d1 (by linarith) al hq2 (by linarith)
  have dd0 : rnd (rnd W) ≠ 0 := by
    intro hz
    rw [hz, zero_div] at d2
    exact d2 rfl
  refine ⟨rnd (rnd (rnd (x - x0) - 0) / rnd (rnd W)), rnd (-cc / bb), ?_, ?_, ?_⟩
  · unfold xToLR
    rw [aa, if_pos rfl]
    rw [← hbb, ← hcc]
    unfold quotR
    rw [if_neg bb0]
    simp only
    rw [hden, hnum, if_neg dd0]
    rfl
  · linarith
  · linarith

/-- C186 for cells with sides along the axes, the columns running north (missing: other cells, for
which the claim is false, `C186_refuted`): with every operation rounded, the value differs from the exact
one by at most 1200 u (κ + N) M. Here u is the relative error of the rounding, κ bounds the coordinates
in units of the size of the cell, N bounds the index of the cell and M the data. -/
theorem C186_aligned_partial (rnd sq : K → K) (u κ N M : K) (h : Accurate rnd u) (hκ : 1 ≤ κ)
    (hN : 0 ≤ N) (hsm : u * (κ + N) ≤ 1 / 2 ^ 27) (x0 x1 y0 y1 : K) (hs : Stored rnd x1)
    (hw : x0 ≠ x1) (hh : y0 ≠ y1)
    (hx0 : |x0| ≤ κ * |x1 - x0|) (hx1 : |x1| ≤ κ * |x1 - x0|)
    (hy0 : |y0| ≤ κ * |y1 - y0|) (hy1 : |y1| ≤ κ * |y1 - y0|) (i j : K) (hi : |i| ≤ N) (hj : |j| ≤ N)
    (v : K × K × K × K) (h1 : |v.1| ≤ M) (h2 : |v.2.1| ≤ M) (h3 : |v.2.2.1| ≤ M) (h4 : |v.2.2.2| ≤ M)
    (l m : K) (hu : InUnit (l, m)) :
    ∃ r, cellValueR rnd sq (i, j) (x0, x0, x1, x1) (y0, y1, y1, y0) v
        (x0 + l * (x1 - x0), y0 + m * (y1 - y0)) = .ok r ∧
      |r - bilinear v l m| ≤ 1200 * (u * (κ + N)) * M := by
  obtain ⟨hl0, hl1, hm0, hm1⟩ := hu
  simp only at hl0 hl1 hm0 hm1
  have u0 := acc_nonneg h
  have uN := mul_nonneg u0 hN
  have hsum : u * (κ + N) = u * κ + u * N := by ring
  set δ := u * (κ + N) with hδ
  have uk : u ≤ u * κ := by have := mul_le_mul_of_nonneg_left hκ u0; linarith
  have δ27 : δ ≤ 1 / 134217728 := by norm_num at hsm; exact hsm
  have s : Small u κ (u * κ) := ⟨u0, hκ, rfl, by linarith⟩
  obtain ⟨l', m', e, el, em⟩ := aligned_pos sq h s hw hh hs hx0 hx1 hy0 hy1 hl0 hl1 hm0 hm1
  have ab : ∀ x : K, 0 ≤ x → x ≤ 1 → |x| ≤ 1 := fun x a b => by rw [abs_of_nonneg a]; exact b
  have o1 := offset_core h (by linarith) hi (ab l hl0 hl1) el (by linarith) (by linarith)
  have o2 := offset_core h (by linarith) hj (ab m hm0 hm1) em (by linarith) (by linarith)
  have D1 : |offsetR rnd i l' - l| ≤ 60 * δ := by linarith
  have D2 : |offsetR rnd j m' - m| ≤ 60 * δ := by linarith
  obtain ⟨w1, w2, w3, w4⟩ := weights_core h hl0 hl1 hm0 hm1 D1 D2 (by linarith) (by linarith)
  set w := weightsR rnd (offsetR rnd i l') (offsetR rnd j m') with hw'
  have t1 : (0 : K) ≤ (1 - l) * (1 - m) := mul_nonneg (by linarith) (by linarith)
  have t2 : (0 : K) ≤ (1 - l) * m := mul_nonneg (by linarith) hm0
  have t3 : (0 : K) ≤ l * m := mul_nonneg hl0 hm0
  have t4 : (0 : K) ≤ l * (1 - m) := mul_nonneg hl0 (by linarith)
  have one : (1 - l) * (1 - m) + (1 - l) * m + l * m + l * (1 - m) = 1 := by ring
  have close : closeR rnd w = true := by
    unfold closeR
    rw [decide_eq_true_eq]
    have := sum_core h (S := 1) (by linarith) w1 w2 w3 w4 (ab _ (by linarith) (by linarith))
      (ab _ (by linarith) (by linarith)) (ab _ (by linarith) (by linarith))
    rw [one, mul_one] at this
    norm_num
    linarith
  refine ⟨sum4R rnd v w, ?_, ?_⟩
  · unfold cellValueR
    simp only
    rw [e]
    simp only
    rw [← hw', if_pos close]
  · have M0 : 0 ≤ M := (abs_nonneg _).trans h1
    have uM : u * M ≤ δ * M := mul_le_mul_of_nonneg_right (by linarith) M0
    have δM : 0 ≤ δ * M := mul_nonneg (by linarith) M0
    have hu1 : u ≤ 1 / 1024 := by linarith
    have term : ∀ (a w' t E : K), |a| ≤ M → |w' - t| ≤ E * δ → 0 ≤ t → t ≤ 1 → E ≤ 300 → 0 ≤ E →
        |rnd (a * w') - a * t| ≤ (E + 2) * (δ * M) := by
      intro a w' t E ha hw ht0 ht1 hE hE0
      have b1 : |a * w' - a * t| ≤ E * (δ * M) := by
        have : a * w' - a * t = a * (w' - t) := by ring
        rw [this]
        have := mul_bound ha hw
        linarith
      have b2 : |a * t| ≤ M := by
        have := mul_bound ha (ab t ht0 ht1)
        linarith
      have b3 := (acc_rel h (a * w')).step u0 b1 b2
      have b4 : u * (E * (δ * M)) ≤ δ * M := by
        have c1 : u * E ≤ 1 := by
          have := mul_le_mul hu1 hE hE0 (by norm_num : (0 : K) ≤ 1 / 1024)
          linarith
        have := mul_le_mul_of_nonneg_right c1 δM
        linarith
      rw [mul_add] at b3
      linarith
    have q1 := term v.1 w.1 _ 300 h1 (by linarith) t1 (by linarith) (by norm_num) (by norm_num)
    have q2 := term v.2.1 w.2.1 _ 240 h2 (by linarith) t2 (by linarith) (by norm_num) (by norm_num)
    have q3 := term v.2.2.1 w.2.2.1 _ 180 h3 (by linarith) t3 (by linarith) (by norm_num) (by norm_num)
    have q4 := term v.2.2.2 w.2.2.2 _ 240 h4 (by linarith) t4 (by linarith) (by norm_num) (by norm_num)
    have ub : ∀ (a t : K), |a| ≤ M → 0 ≤ t → |a * t| ≤ M * t := by
      intro a t ha ht
      rw [abs_mul, abs_of_nonneg ht]
      exact mul_le_mul_of_nonneg_right ha ht
    have g1 := ub v.1 _ h1 t1
    have g2 := ub v.2.1 _ h2 t2
    have g3 := ub v.2.2.1 _ h3 t3
    have g4 := ub v.2.2.2 _ h4 t4
    have gM : M * ((1 - l) * (1 - m)) + M * ((1 - l) * m) + M * (l * m) + M * (l * (1 - m)) = M := by
      ring
    have p1 := mul_nonneg M0 t1
    have p2 := mul_nonneg M0 t2
    have p3 := mul_nonneg M0 t3
    have p4 := mul_nonneg M0 t4
    have n2 := abs_add_le (v.1 * ((1 - l) * (1 - m))) (v.2.1 * ((1 - l) * m))
    have n3 := abs_add_le (v.1 * ((1 - l) * (1 - m)) + v.2.1 * ((1 - l) * m)) (v.2.2.1 * (l * m))
    have n4 := abs_add_le (v.1 * ((1 - l) * (1 - m)) + v.2.1 * ((1 - l) * m) + v.2.2.1 * (l * m))
      (v.2.2.2 * (l * (1 - m)))
    have fin := sum_core h (S := M) hu1 q1 q2 q3 q4 (by linarith) (by linarith) (by linarith)
    have eb : v.1 * ((1 - l) * (1 - m)) + v.2.1 * ((1 - l) * m) + v.2.2.1 * (l * m) +
        v.2.2.2 * (l * (1 - m)) = bilinear v l m := by unfold bilinear; ring
    rw [eb] at fin
    unfold sum4R
    linarith

end

/-- C186 in double precision, for cells with sides along the axes. -/
theorem C186_aligned_doubles_partial (sq : ℚ → ℚ) (κ N M : ℚ) (hκ : 1 ≤ κ) (hN : 0 ≤ N)
    (hsm : κ + N ≤ 2 ^ 26) (x0 x1 y0 y1 : ℚ) (hs : Stored rnd64 x1) (hw : x0 ≠ x1) (hh : y0 ≠ y1)
    (hx0 : |x0| ≤ κ * |x1 - x0|) (hx1 : |x1| ≤ κ * |x1 - x0|)
    (hy0 : |y0| ≤ κ * |y1 - y0|) (hy1 : |y1| ≤ κ * |y1 - y0|) (i j : ℚ) (hi : |i| ≤ N) (hj : |j| ≤ N)
    (v : ℚ × ℚ × ℚ × ℚ) (h1 : |v.1| ≤ M) (h2 : |v.2.1| ≤ M) (h3 : |v.2.2.1| ≤ M) (h4 : |v.2.2.2| ≤ M)
    (l m : ℚ) (hu : InUnit (l, m)) :
    ∃ r, cellValueR rnd64 sq (i, j) (x0, x0, x1, x1) (y0, y1, y1, y0) v
        (x0 + l * (x1 - x0), y0 + m * (y1 - y0)) = .ok r ∧
      |r - bilinear v l m| ≤ (κ + N) * M / 2 ^ 42 := by
  obtain ⟨r, e, hr⟩ := C186_aligned_partial rnd64 sq ((2 : ℚ) ^ (-53 : ℤ)) κ N M accurate64 hκ hN (by
    have e : ((2 : ℚ) ^ (-53 : ℤ)) = 1 / 2 ^ 53 := by norm_num
    rw [e]
    have := mul_le_mul_of_nonneg_left hsm (show (0 : ℚ) ≤ 1 / 2 ^ 53 by norm_num)
    refine this.trans (by norm_num)) x0 x1 y0 y1 hs hw hh hx0 hx1 hy0 hy1 i j hi hj v h1 h2 h3 h4 l m hu
  refine ⟨r, e, hr.trans ?_⟩
  have e : ((2 : ℚ) ^ (-53 : ℤ)) = 1 / 2 ^ 53 := by norm_num
  rw [e]
  have M0 : 0 ≤ M := (abs_nonneg _).trans h1
  have := mul_nonneg (show 0 ≤ κ + N by linarith) M0
  have e2 : 1200 * (1 / 2 ^ 53 * (κ + N)) * M = 1200 / 2 ^ 53 * ((κ + N) * M) := by ring
  have e3 : (κ + N) * M / 2 ^ 42 = 1 / 2 ^ 42 * ((κ + N) * M) := by ring
  rw [e2, e3]
  exact mul_le_mul_of_nonneg_right (by norm_num) this

-- A cell of a tenth of a degree at 124 degrees west and 48 degrees north, in row 500 and column 700.
example (sq : ℚ → ℚ) : ∃ r, cellValueR rnd64 sq (500, 700) (-124, -124, rnd64 (-1239 / 10), rnd64 (-1239 / 10))
    (48, rnd64 (481 / 10), rnd64 (481 / 10), 48) (3, 5, 4, -2)
    (-124 + 1 / 3 * (rnd64 (-1239 / 10) - -124), 48 + 1 / 7 * (rnd64 (481 / 10) - 48)) = .ok r ∧
    |r - bilinear (3, 5, 4, -2) (1 / 3) (1 / 7)| ≤ (1250 + 750) * 5 / 2 ^ 42 :=
  C186_aligned_doubles_partial sq 1250 750 5 (by norm_num) (by norm_num) (by norm_num) _ _ _ _
    (by unfold Stored; decide +kernel) (by decide +kernel) (by decide +kernel) (by decide +kernel)
    (by decide +kernel) (by decide +kernel) (by decide +kernel) _ _ (by norm_num) (by norm_num) _
    (by norm_num) (by norm_num) (by norm_num) (by norm_num) _ _ (by unfold InUnit; norm_num)

/-! ## C187: at the corners, and between the node values -/

/-- C187 as listed: in double precision, at the corners of a cell with sides along the axes, the values
of the nodes come out, and everywhere in it values between the smallest and the largest of them. -/
def C187_statement : Prop :=
  ∀ sq, GoodSqrt sq → ∀ (x0 x1 y0 y1 : ℚ) (v : ℚ × ℚ × ℚ × ℚ), x0 < x1 → y0 < y1 →
    Stored rnd64 x0 → Stored rnd64 x1 → Stored rnd64 y0 → Stored rnd64 y1 → Stored4 v →
    (∀ l m : ℚ, (l = 0 ∨ l = 1) → (m = 0 ∨ m = 1) →
      cellValueR rnd64 sq (0, 0) (x0, x0, x1, x1) (y0, y1, y1, y0) v
        (x0 + l * (x1 - x0), y0 + m * (y1 - y0)) = .ok (bilinear v l m)) ∧
    (∀ l m lo hi r : ℚ, InUnit (l, m) → (∀ a ∈ [v.1, v.2.1, v.2.2.1, v.2.2.2], lo ≤ a ∧ a ≤ hi) →
      cellValueR rnd64 sq (0, 0) (x0, x0, x1, x1) (y0, y1, y1, y0) v
        (x0 + l * (x1 - x0), y0 + m * (y1 - y0)) = .ok r → lo ≤ r ∧ r ≤ hi)

/-- With the coefficients of a parallelogram the square root is not used. -/
theorem xToLR_linear {K : Type*} [Field K] [LinearOrder K] (rnd sq sq' : K → K) (x y : K) (a b : Coeffs K)
    (h : aaR rnd a b = 0) : xToLR rnd sq x y a b = xToLR rnd sq' x y a b := by
  unfold xToLR
  simp only [h, if_true]

/-- Longitudes 0 and 0.7, latitudes 0.2 and 0.3, values 0 below and 1 above: at the upper left corner
the value is 1 + 2⁻⁵¹. -/
theorem C187_over (sq : ℚ → ℚ) : cellValueR rnd64 sq (0, 0) (0, 0, rnd64 (7 / 10), rnd64 (7 / 10))
    (rnd64 (1 / 5), rnd64 (3 / 10), rnd64 (3 / 10), rnd64 (1 / 5)) (0, 1, 1, 0) (0, rnd64 (3 / 10)) =
      .ok (1 + 1 / 2 ^ 51) := by
  unfold cellValueR
  rw [xToLR_linear rnd64 sq (fun _ => 0) _ _ _ _ (by decide +kernel)]
  decide +kernel

theorem C187_refuted : ¬ C187_statement := by
  intro h
  obtain ⟨sq, hsq⟩ := goodSqrt_exists
  have := (h sq hsq 0 (rnd64 (7 / 10)) (rnd64 (1 / 5)) (rnd64 (3 / 10)) (0, 1, 1, 0) (by decide +kernel)
    (by decide +kernel) (by unfold Stored; decide +kernel) (by unfold Stored; decide +kernel)
    (by unfold Stored; decide +kernel) (by unfold Stored; decide +kernel)
    (by unfold Stored4 Stored; decide +kernel)).1 0 1 (Or.inl rfl) (Or.inr rfl)
  have e1 : (0 : ℚ) + 0 * (rnd64 (7 / 10) - 0) = 0 := by ring
  have e2 : rnd64 (1 / 5) + 1 * (rnd64 (3 / 10) - rnd64 (1 / 5)) = rnd64 (3 / 10) := by ring
  rw [e1, e2, C187_over] at this
  unfold bilinear at this
  norm_num at this

section
variable {K : Type*} [Field K] [LinearOrder K] [IsStrictOrderedRing K]

private theorem corner_pos {rnd : K → K} {u κ ε x0 x1 y0 y1 l : K} (sq : K → K) (h : Accurate rnd u)
    (s : Small u κ ε) (hi : ∀ z, rnd (rnd z) = rnd z) (hone : rnd 1 = 1) (hw : x0 ≠ x1) (hh : y0 ≠ y1)
    (hs : Stored rnd x1) (hx0 : |x0| ≤ κ * |x1 - x0|) (hx1 : |x1| ≤ κ * |x1 - x0|)
    (hy0 : |y0| ≤ κ * |y1 - y0|) (hy1 : |y1| ≤ κ * |y1 - y0|) (hl : l = 0 ∨ l = 1) :
    xToLR rnd sq (x0 + l * (x1 - x0)) y0 (coeffsR rnd (x0, x0, x1, x1))
        (coeffsR rnd (y0, y1, y1, y0)) = some (l, 0) := by
  have hl0 : 0 ≤ l := by rcases hl with rfl | rfl <;> norm_num
  have hl1 : l ≤ 1 := by rcases hl with rfl | rfl <;> norm_num
  obtain ⟨l', m', e, -, -⟩ := aligned_pos sq h s hw hh hs hx0 hx1 hy0 hy1 hl0 hl1 (le_refl 0) zero_le_one
  rw [zero_mul, add_zero] at e
  rw [e]
  have r0 : rnd 0 = 0 := rnd_zero h
  have ca : coeffsR rnd (x0, x0, x1, x1) = ⟨x0, rnd (x1 - x0), 0, 0⟩ := by
    unfold coeffsR
    simp only [sub_self, r0, zero_add]
    rw [show rnd x1 = x1 from hs, sub_self, r0]
  obtain ⟨E, cb⟩ : ∃ E, coeffsR rnd (y0, y1, y1, y0) = ⟨y0, 0, rnd (y1 - y0), E⟩ := by
    unfold coeffsR
    simp only [sub_self, r0]
    exact ⟨_, rfl⟩
  rw [ca, cb] at e
  have aa : aaR rnd (⟨x0, rnd (x1 - x0), 0, 0⟩ : Coeffs K) ⟨y0, 0, rnd (y1 - y0), E⟩ = 0 := by
    unfold aaR
    simp only [zero_mul, r0, sub_self]
  have cc : ccR rnd (x0 + l * (x1 - x0)) y0 (⟨x0, rnd (x1 - x0), 0, 0⟩ : Coeffs K)
      ⟨y0, 0, rnd (y1 - y0), E⟩ = 0 := by
    unfold ccR
    simp only [mul_zero, r0, sub_zero, add_zero, hi]
    rw [mul_comm y0, sub_self, r0]
  unfold xToLR at e
  rw [aa, if_pos rfl, cc] at e
  unfold quotR at e
  simp only [neg_zero, zero_div, r0] at e
  split at e
  · cases e
  next m e' =>
  split at e'
  · cases e'
  cases e'
  have nu : numR rnd (x0 + l * (x1 - x0)) (⟨x0, rnd (x1 - x0), 0, 0⟩ : Coeffs K) 0 =
      rnd (l * (x1 - x0)) := by
    unfold numR
    simp only [mul_zero, r0, sub_zero, hi]
    congr 1
    ring
  have de : denR rnd (⟨x0, rnd (x1 - x0), 0, 0⟩ : Coeffs K) 0 = rnd (x1 - x0) := by
    unfold denR
    simp only [mul_zero, r0, add_zero, hi]
  rw [nu, de] at e
  split at e
  · cases e
  next hd =>
  simp only [Option.map_some, Option.some.injEq, Prod.mk.injEq] at e
  obtain ⟨e1, e2⟩ := e
  rw [← e1, ← e2]
  rcases hl with rfl | rfl
  · rw [zero_mul, r0, zero_div, r0]
  · rw [one_mul, div_self hd, hone]

/-- C187 at the two corners on the side from which the latitudes are measured (missing: the other two
corners and points in between, for which the claim is false, `C187_refuted`): the values of the nodes
come out, for every rounding under which rounded numbers and the indices are stored exactly. -/
theorem C187_first_row_partial (rnd sq : K → K) (u κ : K) (h : Accurate rnd u) (hκ : 1 ≤ κ)
    (hsm : u * κ ≤ 1 / 1024) (hi : ∀ z, Stored rnd (rnd z)) (hone : Stored rnd 1)
    (x0 x1 y0 y1 : K) (hs : Stored rnd x1) (hw : x0 ≠ x1) (hh : y0 ≠ y1)
    (hx0 : |x0| ≤ κ * |x1 - x0|) (hx1 : |x1| ≤ κ * |x1 - x0|)
    (hy0 : |y0| ≤ κ * |y1 - y0|) (hy1 : |y1| ≤ κ * |y1 - y0|)
    (i j : K) (hsi : Stored rnd i) (hsi' : Stored rnd (i + 1)) (hsj : Stored rnd j)
    (v : K × K × K × K) (h1 : Stored rnd v.1) (h4 : Stored rnd v.2.2.2) :
    cellValueR rnd sq (i, j) (x0, x0, x1, x1) (y0, y1, y1, y0) v (x0, y0) = .ok v.1 ∧
      cellValueR rnd sq (i, j) (x0, x0, x1, x1) (y0, y1, y1, y0) v (x1, y0) = .ok v.2.2.2 := by
  have s : Small u κ (u * κ) := ⟨acc_nonneg h, hκ, rfl, hsm⟩
  have r0 : rnd 0 = 0 := rnd_zero h
  have r1 : rnd 1 = 1 := hone
  have p0 := corner_pos (l := 0) sq h s hi hone hw hh hs hx0 hx1 hy0 hy1 (Or.inl rfl)
  have p1 := corner_pos (l := 1) sq h s hi hone hw hh hs hx0 hx1 hy0 hy1 (Or.inr rfl)
  have e0 : x0 + 0 * (x1 - x0) = x0 := by ring
  have e1 : x0 + 1 * (x1 - x0) = x1 := by ring
  rw [e0] at p0
  rw [e1] at p1
  have oz : ∀ {k : K}, Stored rnd k → offsetR rnd k 0 = 0 := by
    intro k hk
    unfold offsetR
    rw [add_zero, show rnd k = k from hk, sub_self, r0]
  have o1 : offsetR rnd i 1 = 1 := by
    unfold offsetR
    rw [show rnd (i + 1) = i + 1 from hsi', add_sub_cancel_left, r1]
  have v1 : rnd v.1 = v.1 := h1
  have v4 : rnd v.2.2.2 = v.2.2.2 := h4
  constructor
  · unfold cellValueR
    simp only
    rw [p0]
    simp only [oz hsi, oz hsj]
    have hw0 : weightsR rnd 0 0 = (1, 0, 0, 0) := by
      unfold weightsR
      simp [r0, r1]
    rw [hw0, if_pos (by unfold closeR; simp [r1]; norm_num)]
    unfold sum4R
    simp [r0, v1]
  · unfold cellValueR
    simp only
    rw [p1]
    simp only [o1, oz hsj]
    have hw0 : weightsR rnd 1 0 = (0, 0, 0, 1) := by
      unfold weightsR
      simp [r0, r1]
    rw [hw0, if_pos (by unfold closeR; simp [r0, r1]; norm_num)]
    unfold sum4R
    simp [r0, v4]

end

-- The cell in which the upper left corner fails.
example (sq : ℚ → ℚ) : cellValueR rnd64 sq (500, 700) (0, 0, rnd64 (7 / 10), rnd64 (7 / 10))
    (rnd64 (1 / 5), rnd64 (3 / 10), rnd64 (3 / 10), rnd64 (1 / 5)) (0, 1, 1, 7) (rnd64 (7 / 10), rnd64 (1 / 5)) =
      .ok 7 :=
  (C187_first_row_partial rnd64 sq ((2 : ℚ) ^ (-53 : ℤ)) 4 accurate64 (by norm_num) (by norm_num)
    (fun z => rnd64_idem z) (by unfold Stored; decide +kernel) 0 (rnd64 (7 / 10)) (rnd64 (1 / 5))
    (rnd64 (3 / 10)) (by unfold Stored; decide +kernel) (by decide +kernel) (by decide +kernel)
    (by decide +kernel) (by decide +kernel) (by decide +kernel) (by decide +kernel) 500 700
    (by unfold Stored; decide +kernel) (by unfold Stored; decide +kernel) (by unfold Stored; decide +kernel)
    (0, 1, 1, 7) (by unfold Stored; decide +kernel) (by unfold Stored; decide +kernel)).2

end Verif
