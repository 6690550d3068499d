import Verif.Spec.Binary64
import Verif.Spec.Order
import Verif.Spec.Depth
import Mathlib.Algebra.Order.Field.Power
import Mathlib.Algebra.Order.Floor.Ring
import Mathlib.Algebra.Order.AbsoluteValue.Basic
import Mathlib.Data.Nat.Log
import Mathlib.Tactic.Linarith
import Mathlib.Tactic.Ring
import Mathlib.Tactic.FieldSimp
import Mathlib.Tactic.Positivity
import Mathlib.Tactic.NormNum

/-!
# Double-precision rounding: error, monotonicity, values kept
-/

set_option autoImplicit false

namespace Verif.Spec

theorem ilog2_spec (q : ℚ) (hq : 0 < q) : (2 : ℚ) ^ ilog2 q ≤ q ∧ q < (2 : ℚ) ^ (ilog2 q + 1) := by
  have hn : q.num.natAbs ≠ 0 := by
    have := Rat.num_pos.mpr hq
    omega
  have hd : q.den ≠ 0 := q.den_nz
  have n1 : 2 ^ Nat.log2 q.num.natAbs ≤ q.num.natAbs := Nat.log2_self_le hn
  have n2 : q.num.natAbs < 2 ^ (Nat.log2 q.num.natAbs + 1) := Nat.lt_log2_self
  have d1 : 2 ^ Nat.log2 q.den ≤ q.den := Nat.log2_self_le hd
  have d2 : q.den < 2 ^ (Nat.log2 q.den + 1) := Nat.lt_log2_self
  set a := Nat.log2 q.num.natAbs
  set b := Nat.log2 q.den
  have hqe : q = (q.num.natAbs : ℚ) / (q.den : ℚ) := by
    have h1 : ((q.num.natAbs : ℤ) : ℚ) = (q.num : ℚ) := by
      rw [Int.natAbs_of_nonneg (le_of_lt (Rat.num_pos.mpr hq))]
    rw [← Int.cast_natCast, h1, Rat.num_div_den]
  have n1' : (2 : ℚ) ^ a ≤ (q.num.natAbs : ℚ) := by exact_mod_cast n1
  have n2' : (q.num.natAbs : ℚ) < (2 : ℚ) ^ (a + 1) := by exact_mod_cast n2
  have d1' : (2 : ℚ) ^ b ≤ (q.den : ℚ) := by exact_mod_cast d1
  have d2' : (q.den : ℚ) < (2 : ℚ) ^ (b + 1) := by exact_mod_cast d2
  have hdp : (0 : ℚ) < q.den := by exact_mod_cast Nat.pos_of_ne_zero hd
  have hup : q < (2 : ℚ) ^ ((a : ℤ) - b + 1) := by
    rw [hqe, div_lt_iff₀ hdp]
    calc (q.num.natAbs : ℚ) < (2 : ℚ) ^ (a + 1) := n2'
      _ = (2 : ℚ) ^ ((a : ℤ) - b + 1) * (2 : ℚ) ^ b := by
        rw [← zpow_natCast (2 : ℚ) b, ← zpow_add₀ (by norm_num), ← zpow_natCast]
        congr 1; push_cast; ring
      _ ≤ _ := mul_le_mul_of_nonneg_left d1' (by positivity)
  have hlo : (2 : ℚ) ^ ((a : ℤ) - b - 1) ≤ q := by
    rw [hqe, le_div_iff₀ hdp]
    calc (2 : ℚ) ^ ((a : ℤ) - b - 1) * (q.den : ℚ)
        ≤ (2 : ℚ) ^ ((a : ℤ) - b - 1) * (2 : ℚ) ^ (b + 1) :=
          mul_le_mul_of_nonneg_left (le_of_lt d2') (by positivity)
      _ = (2 : ℚ) ^ a := by
        rw [← zpow_natCast (2 : ℚ) (b + 1), ← zpow_add₀ (by norm_num), ← zpow_natCast]
        congr 1; push_cast; ring
      _ ≤ _ := n1'
  unfold ilog2
  simp only
  split
  · exact ⟨by assumption, hup⟩
  · next h => exact ⟨hlo, by rw [sub_add_cancel]; exact not_le.mp h⟩

theorem roundEven_err (q : ℚ) : |(roundEven q : ℚ) - q| ≤ 1 / 2 := by
  unfold roundEven
  simp only
  have h1 := Int.floor_le q
  have h2 := Int.lt_floor_add_one q
  split
  · rw [abs_le]; constructor <;> linarith
  · split
    · push_cast; rw [abs_le]; constructor <;> linarith
    · split
      · rw [abs_le]; constructor <;> linarith
      · push_cast; rw [abs_le]; constructor <;> linarith

theorem roundEven_floor (q : ℚ) : ⌊q⌋ ≤ roundEven q ∧ roundEven q ≤ ⌊q⌋ + 1 := by
  unfold roundEven
  simp only
  split
  · omega
  · split
    · omega
    · split <;> omega

theorem roundEven_mono {x y : ℚ} (h : x ≤ y) : roundEven x ≤ roundEven y := by
  have hf := Int.floor_le_floor h
  rcases lt_or_eq_of_le hf with hlt | heq
  · have := (roundEven_floor x).2
    have := (roundEven_floor y).1
    omega
  · unfold roundEven
    simp only [heq]
    split
    · split
      · omega
      · split
        · omega
        · split <;> omega
    · next h1 =>
      have h1' : ¬ y - (⌊y⌋ : ℚ) < 1 / 2 := by linarith
      rw [if_neg h1']
      split
      · next h2 =>
        rw [if_pos (by linarith)]
      · split
        · split <;> omega
        · split <;> omega

theorem roundEven_int (n : Int) : roundEven (n : ℚ) = n := by
  unfold roundEven
  simp

/-- Rounding a positive number. -/
theorem rnd64_pos {q : ℚ} (hq : 0 < q) :
    rnd64 q = (roundEven (q / (2 : ℚ) ^ (ilog2 q - 52)) : ℚ) * (2 : ℚ) ^ (ilog2 q - 52) := by
  unfold rnd64
  rw [if_neg (ne_of_gt hq)]
  simp only [abs_of_pos hq]
  rw [if_neg (not_lt.mpr (le_of_lt hq))]

theorem rnd64_neg (q : ℚ) : rnd64 (-q) = -rnd64 q := by
  rcases lt_trichotomy q 0 with h | rfl | h
  · have h1 : ¬ -q = 0 := by simpa using ne_of_lt h
    unfold rnd64
    rw [if_neg h1, if_neg (ne_of_lt h)]
    simp only [abs_neg]
    rw [if_neg (by linarith), if_pos h, neg_neg]
  · simp [rnd64]
  · have h1 : ¬ -q = 0 := by simpa using ne_of_gt h
    unfold rnd64
    rw [if_neg h1, if_neg (ne_of_gt h)]
    simp only [abs_neg]
    rw [if_pos (by linarith), if_neg (by linarith)]

theorem rnd64_zero : rnd64 0 = 0 := by simp [rnd64]

private theorem err_pos {q : ℚ} (hq : 0 < q) : |rnd64 q - q| ≤ (2 : ℚ) ^ (-53 : ℤ) * q := by
  obtain ⟨h1, _⟩ := ilog2_spec q hq
  rw [rnd64_pos hq]
  have hu : (0 : ℚ) < (2 : ℚ) ^ (ilog2 q - 52) := by positivity
  have he : (roundEven (q / (2 : ℚ) ^ (ilog2 q - 52)) : ℚ) * (2 : ℚ) ^ (ilog2 q - 52) - q =
      ((roundEven (q / (2 : ℚ) ^ (ilog2 q - 52)) : ℚ) - q / (2 : ℚ) ^ (ilog2 q - 52)) *
        (2 : ℚ) ^ (ilog2 q - 52) := by
    field_simp
  rw [he, abs_mul, abs_of_pos hu]
  calc _ ≤ 1 / 2 * (2 : ℚ) ^ (ilog2 q - 52) :=
        mul_le_mul_of_nonneg_right (roundEven_err _) (le_of_lt hu)
    _ = (2 : ℚ) ^ (-53 : ℤ) * (2 : ℚ) ^ ilog2 q := by
        rw [show (1 / 2 : ℚ) = (2 : ℚ) ^ (-1 : ℤ) by norm_num, ← zpow_add₀ (by norm_num),
          ← zpow_add₀ (by norm_num)]
        congr 1; ring
    _ ≤ _ := mul_le_mul_of_nonneg_left h1 (by positivity)

/-- The relative error of rounding is at most 2⁻⁵³. -/
theorem rnd64_err (q : ℚ) : |rnd64 q - q| ≤ (2 : ℚ) ^ (-53 : ℤ) * |q| := by
  rcases lt_trichotomy q 0 with h | rfl | h
  · have := err_pos (q := -q) (by linarith)
    rw [rnd64_neg] at this
    rw [abs_of_neg h]
    rwa [show -rnd64 q - -q = -(rnd64 q - q) by ring, abs_neg] at this
  · simp [rnd64]
  · rw [abs_of_pos h]; exact err_pos h

private theorem range_pos {q : ℚ} (hq : 0 < q) :
    (2 : ℚ) ^ ilog2 q ≤ rnd64 q ∧ rnd64 q ≤ (2 : ℚ) ^ (ilog2 q + 1) := by
  obtain ⟨h1, h2⟩ := ilog2_spec q hq
  rw [rnd64_pos hq]
  have hu : (0 : ℚ) < (2 : ℚ) ^ (ilog2 q - 52) := by positivity
  have e1 : (2 : ℚ) ^ ilog2 q = (((2 : ℤ) ^ 52 : ℤ) : ℚ) * (2 : ℚ) ^ (ilog2 q - 52) := by
    rw [show (((2 : ℤ) ^ 52 : ℤ) : ℚ) = (2 : ℚ) ^ (52 : ℤ) by norm_num,
      ← zpow_add₀ (by norm_num)]
    congr 1; ring
  have e2 : (2 : ℚ) ^ (ilog2 q + 1) = (((2 : ℤ) ^ 53 : ℤ) : ℚ) * (2 : ℚ) ^ (ilog2 q - 52) := by
    rw [show (((2 : ℤ) ^ 53 : ℤ) : ℚ) = (2 : ℚ) ^ (53 : ℤ) by norm_num,
      ← zpow_add₀ (by norm_num)]
    congr 1; ring
  constructor
  · rw [e1]
    refine mul_le_mul_of_nonneg_right ?_ (le_of_lt hu)
    have := roundEven_mono (x := (((2 : ℤ) ^ 52 : ℤ) : ℚ)) (y := q / (2 : ℚ) ^ (ilog2 q - 52))
      (by rw [le_div_iff₀ hu, ← e1]; exact h1)
    rw [roundEven_int] at this
    exact_mod_cast this
  · rw [e2]
    refine mul_le_mul_of_nonneg_right ?_ (le_of_lt hu)
    have := roundEven_mono (x := q / (2 : ℚ) ^ (ilog2 q - 52)) (y := (((2 : ℤ) ^ 53 : ℤ) : ℚ))
      (by rw [div_le_iff₀ hu, ← e2]; exact le_of_lt h2)
    rw [roundEven_int] at this
    exact_mod_cast this

theorem rnd64_pos_of_pos {q : ℚ} (hq : 0 < q) : 0 < rnd64 q :=
  lt_of_lt_of_le (by positivity) (range_pos hq).1

private theorem mono_pos {x y : ℚ} (hx : 0 < x) (h : x ≤ y) : rnd64 x ≤ rnd64 y := by
  have hy : 0 < y := lt_of_lt_of_le hx h
  obtain ⟨x1, x2⟩ := ilog2_spec x hx
  obtain ⟨y1, y2⟩ := ilog2_spec y hy
  have hle : ilog2 x ≤ ilog2 y := by
    have : (2 : ℚ) ^ ilog2 x < (2 : ℚ) ^ (ilog2 y + 1) := lt_of_le_of_lt x1 (lt_of_le_of_lt h y2)
    have := (zpow_lt_zpow_iff_right₀ (by norm_num : (1 : ℚ) < 2)).mp this
    omega
  rcases lt_or_eq_of_le hle with hlt | heq
  · calc rnd64 x ≤ (2 : ℚ) ^ (ilog2 x + 1) := (range_pos hx).2
      _ ≤ (2 : ℚ) ^ ilog2 y := zpow_le_zpow_right₀ (by norm_num) (by omega)
      _ ≤ rnd64 y := (range_pos hy).1
  · rw [rnd64_pos hx, rnd64_pos hy, heq]
    have hu : (0 : ℚ) < (2 : ℚ) ^ (ilog2 y - 52) := by positivity
    refine mul_le_mul_of_nonneg_right ?_ (le_of_lt hu)
    exact_mod_cast roundEven_mono (div_le_div_of_nonneg_right h (le_of_lt hu))

theorem rnd64_mono {x y : ℚ} (h : x ≤ y) : rnd64 x ≤ rnd64 y := by
  rcases lt_trichotomy x 0 with hx | rfl | hx
  · have nx : rnd64 x < 0 := by
      have := rnd64_pos_of_pos (q := -x) (by linarith)
      rw [rnd64_neg] at this
      linarith
    rcases lt_trichotomy y 0 with hy | rfl | hy
    · have := mono_pos (x := -y) (y := -x) (by linarith) (by linarith)
      rw [rnd64_neg, rnd64_neg] at this
      linarith
    · rw [rnd64_zero]; exact le_of_lt nx
    · exact le_of_lt (lt_trans nx (rnd64_pos_of_pos hy))
  · rcases lt_or_eq_of_le h with hy | rfl
    · rw [rnd64_zero]; exact le_of_lt (rnd64_pos_of_pos hy)
    · exact le_refl _
  · exact mono_pos hx h

/-- A whole number of at most 53 bits is a double. -/
theorem rnd64_int (n : Int) (h : |n| ≤ 2 ^ 53) : rnd64 (n : ℚ) = n := by
  have pos : ∀ n : Int, 0 < n → n ≤ 2 ^ 53 → rnd64 (n : ℚ) = n := by
    intro n h0 h1
    have hq : (0 : ℚ) < n := by exact_mod_cast h0
    obtain ⟨a1, a2⟩ := ilog2_spec (n : ℚ) hq
    have hle : ilog2 (n : ℚ) ≤ 53 := by
      have : (2 : ℚ) ^ ilog2 (n : ℚ) ≤ (2 : ℚ) ^ (53 : ℤ) := by
        refine le_trans a1 ?_
        have : (n : ℚ) ≤ ((2 ^ 53 : ℤ) : ℚ) := by exact_mod_cast h1
        refine le_trans this (le_of_eq ?_)
        norm_num
      exact (zpow_le_zpow_iff_right₀ (by norm_num : (1 : ℚ) < 2)).mp this
    rw [rnd64_pos hq]
    have hu : (0 : ℚ) < (2 : ℚ) ^ (ilog2 (n : ℚ) - 52) := by positivity
    obtain ⟨k, hk⟩ : ∃ k : Int, (n : ℚ) / (2 : ℚ) ^ (ilog2 (n : ℚ) - 52) = k := by
      rcases Int.lt_or_eq_of_le hle with h53 | h53
      · obtain ⟨m, hm⟩ := Int.eq_ofNat_of_zero_le (show 0 ≤ 52 - ilog2 (n : ℚ) by omega)
        refine ⟨n * 2 ^ m, ?_⟩
        rw [show ilog2 (n : ℚ) - 52 = -(m : ℤ) by omega, zpow_neg, div_inv_eq_mul, zpow_natCast]
        push_cast; ring
      · have : (n : ℚ) = (2 : ℚ) ^ (53 : ℤ) := by
          refine le_antisymm ?_ (by rw [h53] at a1; exact a1)
          have : (n : ℚ) ≤ ((2 ^ 53 : ℤ) : ℚ) := by exact_mod_cast h1
          refine le_trans this (le_of_eq ?_)
          norm_num
        refine ⟨2 ^ 52, ?_⟩
        rw [h53, this]
        norm_num
    rw [hk, roundEven_int, ← hk]
    field_simp
  rcases lt_trichotomy n 0 with hn | rfl | hn
  · have := pos (-n) (by omega) (by rw [abs_of_neg hn] at h; exact h)
    push_cast at this
    rw [rnd64_neg] at this
    linarith
  · simp [rnd64]
  · exact pos n hn (by rw [abs_of_pos hn] at h; exact h)

private theorem ilog2_scale {q : ℚ} (z : ℤ) (hq : 0 < q) : ilog2 (q * (2 : ℚ) ^ z) = ilog2 q + z := by
  have hz : (0 : ℚ) < (2 : ℚ) ^ z := by positivity
  obtain ⟨a1, a2⟩ := ilog2_spec q hq
  obtain ⟨b1, b2⟩ := ilog2_spec (q * (2 : ℚ) ^ z) (mul_pos hq hz)
  have c1 : (2 : ℚ) ^ (ilog2 q + z) ≤ q * (2 : ℚ) ^ z := by
    rw [zpow_add₀ (by norm_num)]
    exact mul_le_mul_of_nonneg_right a1 hz.le
  have c2 : q * (2 : ℚ) ^ z < (2 : ℚ) ^ (ilog2 q + z + 1) := by
    rw [show ilog2 q + z + 1 = (ilog2 q + 1) + z by ring, zpow_add₀ (by norm_num)]
    exact mul_lt_mul_of_pos_right a2 hz
  have d1 := (zpow_lt_zpow_iff_right₀ (by norm_num : (1 : ℚ) < 2)).mp (lt_of_le_of_lt b1 c2)
  have d2 := (zpow_lt_zpow_iff_right₀ (by norm_num : (1 : ℚ) < 2)).mp (lt_of_le_of_lt c1 b2)
  omega

/-- Rounding does not see powers of two (the exponent is unbounded). -/
theorem rnd64_scale (q : ℚ) (z : ℤ) : rnd64 (q * (2 : ℚ) ^ z) = rnd64 q * (2 : ℚ) ^ z := by
  have hz : (0 : ℚ) < (2 : ℚ) ^ z := by positivity
  have pos : ∀ q : ℚ, 0 < q → rnd64 (q * (2 : ℚ) ^ z) = rnd64 q * (2 : ℚ) ^ z := by
    intro q hq
    rw [rnd64_pos hq, rnd64_pos (mul_pos hq hz), ilog2_scale z hq,
      show ilog2 q + z - 52 = (ilog2 q - 52) + z by ring, zpow_add₀ (by norm_num),
      mul_div_mul_right _ _ (ne_of_gt hz), mul_assoc]
  rcases lt_trichotomy q 0 with h | rfl | h
  · have := pos (-q) (by linarith)
    rw [neg_mul, rnd64_neg, rnd64_neg] at this
    linarith
  · simp [rnd64_zero]
  · exact pos q h

/-- A rounded number is a double: rounding it again changes nothing. -/
theorem rnd64_idem (q : ℚ) : rnd64 (rnd64 q) = rnd64 q := by
  have pos : ∀ q : ℚ, 0 < q → rnd64 (rnd64 q) = rnd64 q := by
    intro q hq
    have hu : (0 : ℚ) < (2 : ℚ) ^ (ilog2 q - 52) := by positivity
    obtain ⟨r1, r2⟩ := range_pos hq
    have e2 : (2 : ℚ) ^ (ilog2 q + 1) = (((2 : ℤ) ^ 53 : ℤ) : ℚ) * (2 : ℚ) ^ (ilog2 q - 52) := by
      rw [show (((2 : ℤ) ^ 53 : ℤ) : ℚ) = (2 : ℚ) ^ (53 : ℤ) by norm_num,
        ← zpow_add₀ (by norm_num)]
      congr 1; ring
    have r0 := rnd64_pos_of_pos hq
    rw [rnd64_pos hq] at r0 r2 ⊢
    rw [e2] at r2
    have k2 := le_of_mul_le_mul_right r2 hu
    have k1 := pos_of_mul_pos_left r0 hu.le
    rw [rnd64_scale, rnd64_int]
    have k1' : 0 < roundEven (q / (2 : ℚ) ^ (ilog2 q - 52)) := by exact_mod_cast k1
    rw [abs_of_pos k1']
    exact_mod_cast k2
  rcases lt_trichotomy q 0 with h | rfl | h
  · have := pos (-q) (by linarith)
    rw [rnd64_neg, rnd64_neg] at this
    linarith
  · simp [rnd64_zero]
  · exact pos q h

/-- Double-precision rounding is a rounding in the sense of the theorems. -/
theorem rounding64 : Rounding rnd64 :=
  ⟨fun _ _ h => rnd64_mono h, rnd64_zero, by simpa using rnd64_int 1 (by norm_num)⟩

theorem keepsNonzero64 : KeepsNonzero rnd64 := by
  intro x hx
  rcases lt_or_gt_of_ne hx with h | h
  · have := rnd64_pos_of_pos (q := -x) (by linarith)
    rw [rnd64_neg] at this
    intro h0; rw [h0] at this; simp at this
  · exact ne_of_gt (rnd64_pos_of_pos h)

end Verif.Spec
