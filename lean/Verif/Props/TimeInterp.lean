import Verif.Model.TimeInterp
import Verif.Props.Time
import Mathlib.Tactic.Linarith
import Mathlib.Tactic.FieldSimp
import Mathlib.Tactic.Ring
import Mathlib.Tactic.LinearCombination

/-!
# C10: time interpolation of a variable
-/

set_option autoImplicit false

namespace Verif
open Verif.TimeM Verif.TimeInterp Verif.Spec

variable {K : Type*} [Field K] [LinearOrder K] [IsStrictOrderedRing K]

/-- C10. Strictly between two neighbouring data times the result is the linear interpolation of
the two slices, whether or not extrapolation is on. -/
theorem C10_between_is_linear (times : List Int) (hs : StrictIncr times) (vals : List K)
    (i : Nat) (a b t : Int) (va vb : K) (e : Bool)
    (ha : times[i]? = some a) (hb : times[i + 1]? = some b) (hat : a < t) (htb : t < b)
    (hva : vals[i]? = some va) (hvb : vals[i + 1]? = some vb) :
    ∃ r, atTime times vals t e = .ok r ∧
      (r - va) * ((b : K) - (a : K)) = (vb - va) * ((t : K) - (a : K)) ∧
      min va vb ≤ r ∧ r ≤ max va vb := by
  have hlen : i + 1 < times.length := (List.getElem?_eq_some_iff.mp hb).1
  have hne : times ≠ [] := by intro h; simp [h] at hlen
  obtain ⟨lo, h0⟩ : ∃ lo, times.head? = some lo := by
    cases times with
    | nil => exact absurd rfl hne
    | cons x _ => exact ⟨x, rfl⟩
  obtain ⟨hi, h1⟩ : ∃ hi, times.getLast? = some hi :=
    ⟨_, List.getLast?_eq_some_getLast hne⟩
  have h0' : times[0]? = some lo := by rw [← List.head?_eq_getElem?]; exact h0
  have h1' : times[times.length - 1]? = some hi := by
    rw [← List.getLast?_eq_getElem?]; exact h1
  have hloa : lo ≤ a := by
    rcases Nat.eq_zero_or_pos i with rfl | hpos
    · rw [ha] at h0'; cases h0'; exact le_refl _
    · exact le_of_lt (Np.pairwise_get?_lt hs hpos h0' ha)
  have hbhi : b ≤ hi := by
    rcases Nat.lt_or_eq_of_le (show i + 1 ≤ times.length - 1 by omega) with h | h
    · exact le_of_lt (Np.pairwise_get?_lt hs h hb h1')
    · rw [← h, hb] at h1'; cases h1'; exact le_refl _
  have hidx : indexOf times t false = .ok (i + 1) := by
    refine (C02_index_brackets times hs (by omega) lo hi t h0 h1 ⟨by omega, by omega⟩ false _).mpr
      ⟨hlen, ?_, ?_⟩
    · intro j x hj hx
      rcases Nat.lt_or_eq_of_le (show j ≤ i by omega) with h | rfl
      · exact lt_trans (Np.pairwise_get?_lt hs h hx ha) hat
      · rw [ha] at hx; cases hx; exact hat
    · intro j x hj hx
      rcases Nat.lt_or_eq_of_le hj with h | rfl
      · exact le_of_lt (lt_trans htb (Np.pairwise_get?_lt hs h hb hx))
      · rw [hb] at hx; cases hx; exact le_of_lt htb
  have halpha := C04_alpha_interval (fun x : K => x) Rounding.id (by norm_num) times hs i a b t e
    ha hb hat (le_of_lt htb)
  obtain ⟨α, hα⟩ : ∃ α, interpAlpha (fun x : K => x) times t e = .ok α := ⟨_, halpha⟩
  have hrec := C04_alpha_reconstructs_time times hs i a b t e α ha hb hat (le_of_lt htb) hα
  obtain ⟨hα0, hα1⟩ := C04_alpha_in_unit_interval (fun x : K => x) Rounding.id (by norm_num) times
    hs hne t e α hα
  refine ⟨va + (vb - va) * α, ?_, ?_, ?_, ?_⟩
  · unfold atTime timeInterp
    rw [minTime_of_head h0, maxTime_of_last h1]
    have n1 : ¬ (t = lo ∨ (e = true ∧ t < lo)) := by
      rintro (h | ⟨_, h⟩) <;> omega
    have n2 : ¬ (t = hi ∨ (e = true ∧ hi < t)) := by
      rintro (h | ⟨_, h⟩) <;> omega
    have g0 : Np.pyGet vals (((i + 1 : Nat) : Int) - 1) = .ok va := by
      rw [show (((i + 1 : Nat) : Int) - 1) = (i : Int) by push_cast; ring]
      exact Np.pyGet_nonneg hva
    have g1 : Np.pyGet vals ((i + 1 : Nat) : Int) = .ok vb := Np.pyGet_nonneg hvb
    simp only [if_neg n1, if_neg n2, hidx, sliceValue, List.nil_append, g0, g1, hα]
  · have : α * ((b : K) - a) = t - a := by linear_combination hrec
    linear_combination (vb - va) * this
  · rcases le_total va vb with h | h
    · rw [min_eq_left h]; nlinarith
    · rw [min_eq_right h]; nlinarith
  · rcases le_total va vb with h | h
    · rw [max_eq_right h]; nlinarith
    · rw [max_eq_left h]; nlinarith

/-- C10. At a data time the result is that time's slice, whether or not extrapolation is on. -/
theorem C10_at_data_time (times : List Int) (hs : StrictIncr times) (vals : List K)
    (hlen : vals.length = times.length) (i : Nat) (t : Int) (v : K) (e : Bool)
    (ht : times[i]? = some t) (hv : vals[i]? = some v) : atTime times vals t e = .ok v := by
  have hil : i < times.length := (List.getElem?_eq_some_iff.mp ht).1
  have hne : times ≠ [] := by intro h; simp [h] at hil
  obtain ⟨lo, h0⟩ : ∃ lo, times.head? = some lo := by
    cases times with
    | nil => exact absurd rfl hne
    | cons x _ => exact ⟨x, rfl⟩
  obtain ⟨hi, h1⟩ : ∃ hi, times.getLast? = some hi :=
    ⟨_, List.getLast?_eq_some_getLast hne⟩
  have h0' : times[0]? = some lo := by rw [← List.head?_eq_getElem?]; exact h0
  have h1' : times[times.length - 1]? = some hi := by
    rw [← List.getLast?_eq_getElem?]; exact h1
  unfold atTime timeInterp
  rw [minTime_of_head h0, maxTime_of_last h1]
  simp only
  rcases Nat.eq_zero_or_pos i with rfl | hpos
  · rw [ht] at h0'; cases h0'
    simp only [true_or, if_true]
    exact Np.pyGet_nonneg (i := 0) hv
  · have hlt : lo < t := Np.pairwise_get?_lt hs hpos h0' ht
    rw [if_neg (by rintro (h | ⟨_, h⟩) <;> omega)]
    rcases Nat.lt_or_eq_of_le (show i ≤ times.length - 1 by omega) with h | h
    · have hlt2 : t < hi := Np.pairwise_get?_lt hs h ht h1'
      rw [if_neg (by rintro (h | ⟨_, h⟩) <;> omega)]
      obtain ⟨k, rfl⟩ : ∃ k, i = k + 1 := ⟨i - 1, by omega⟩
      have hk : times[k]? = some times[k] := List.getElem?_eq_getElem (by omega)
      have hkt : times[k] < t := Np.pairwise_get?_lt hs (by omega) hk ht
      have hidx : indexOf times t false = .ok (k + 1) := by
        refine (C02_index_brackets times hs (by omega) lo hi t h0 h1 ⟨by omega, by omega⟩ false
          _).mpr ⟨hil, ?_, ?_⟩
        · intro j x hj hx
          exact Np.pairwise_get?_lt hs hj hx ht
        · intro j x hj hx
          rcases Nat.lt_or_eq_of_le hj with h | rfl
          · exact le_of_lt (Np.pairwise_get?_lt hs h ht hx)
          · rw [ht] at hx; cases hx; exact le_refl _
      obtain ⟨α, hα⟩ : ∃ α, interpAlpha (fun x : K => x) times t e = .ok α :=
        ⟨_, C04_alpha_interval (fun x : K => x) Rounding.id (by norm_num) times hs k _ t t e
          hk ht hkt (le_refl _)⟩
      have hrec := C04_alpha_reconstructs_time times hs k _ t t e α hk ht hkt (le_refl _) hα
      have hα1 : α = 1 := by
        have hd : ((t : K) - (times[k] : K)) ≠ 0 := by
          have : ((times[k] : Int) : K) < (t : K) := by exact_mod_cast hkt
          exact ne_of_gt (by linarith)
        have : (α - 1) * ((t : K) - (times[k] : K)) = 0 := by linear_combination hrec
        rcases mul_eq_zero.mp this with h | h
        · linarith
        · exact absurd h hd
      subst hα1
      have hvk : vals[k]? = some vals[k] := List.getElem?_eq_getElem (by omega)
      have g0 : Np.pyGet vals (((k + 1 : Nat) : Int) - 1) = .ok vals[k] := by
        rw [show (((k + 1 : Nat) : Int) - 1) = (k : Int) by push_cast; ring]
        exact Np.pyGet_nonneg hvk
      have g1 : Np.pyGet vals ((k + 1 : Nat) : Int) = .ok v := Np.pyGet_nonneg hv
      simp only [hidx, sliceValue, List.nil_append, g0, g1, hα]
      congr 1
      ring
    · have hthi : t = hi := by rw [← h, ht] at h1'; cases h1'; rfl
      subst hthi
      simp only [true_or, if_true]
      apply Np.pyGet_neg_one
      rw [List.getLast?_eq_getElem?, hlen, ← h]
      exact hv

/-- C10. With extrapolation, before the series the first slice is returned and after it the
last. -/
theorem C10_extrapolated (times : List Int) (vals : List K) (lo hi t : Int)
    (h0 : times.head? = some lo) (h1 : times.getLast? = some hi) (hlohi : lo ≤ hi)
    (v0 v1 : K) (hv0 : vals.head? = some v0) (hv1 : vals.getLast? = some v1) :
    (t < lo → atTime times vals t true = .ok v0) ∧
    (hi < t → atTime times vals t true = .ok v1) := by
  unfold atTime timeInterp
  rw [minTime_of_head h0, maxTime_of_last h1]
  constructor
  · intro h
    simp only [h, and_self, or_true, if_true, sliceValue]
    exact Np.pyGet_nonneg (i := 0) (by rw [← List.head?_eq_getElem?]; exact hv0)
  · intro h
    simp only
    rw [if_neg (by rintro (h | ⟨_, h⟩) <;> omega), if_pos (Or.inr ⟨trivial, h⟩)]
    exact Np.pyGet_neg_one hv1

/-- C10. Without extrapolation a time outside a series of several times is refused. -/
theorem C10_outside_refused (times : List Int) (vals : List K) (lo hi t : Int)
    (h0 : times.head? = some lo) (h1 : times.getLast? = some hi) (hn : times.length ≠ 1)
    (ht : t < lo ∨ hi < t) (hlohi : lo ≤ hi) :
    atTime times vals t false = .error .outOfTimeRange := by
  unfold atTime timeInterp
  rw [minTime_of_head h0, maxTime_of_last h1]
  have hidx : indexOf times t false = .error .outOfTimeRange :=
    ((C03_indexOf_raises_iff times lo hi t h0 h1 false).1).mpr ⟨rfl, hn, ht⟩
  simp only
  rw [if_neg (by rintro (h | ⟨h, _⟩) <;> [omega; cases h]),
    if_neg (by rintro (h | ⟨h, _⟩) <;> [omega; cases h]), hidx]

/-- C10. A variable with one time and one slice is constant in time, at every query time and
without asking for extrapolation. -/
theorem C10_single_time_constant (t0 t : Int) (v : K) (e : Bool) :
    atTime [t0] [v] t e = .ok v := by
  unfold atTime timeInterp
  rw [minTime_of_head (by rfl), maxTime_of_last (by rfl)]
  simp only
  have g0 : Np.pyGet [v] 0 = .ok v := by simp [Np.pyGet]
  have g1 : Np.pyGet [v] (-1) = .ok v := by simp [Np.pyGet]
  split_ifs
  · exact g0
  · exact g1
  · have hα : interpAlpha (fun x : K => x) [t0] t e = .ok 0 := by
      simp [interpAlpha, indexOf, alphaFrom]
    simp only [C02_index_single, sliceValue, List.nil_append, hα]
    norm_num [g0, g1]

/-- The accepted lengths: setting data always enforces one slice per time, setting a time does so
except for a single time. -/
theorem C10_one_slice_per_time (nt nd : Nat) :
    (dataSettable nt nd = .ok () ↔ nd = nt) ∧ (timeSettable nt nd = .ok () ↔ nt = nd ∨ nt ≤ 1) := by
  constructor
  · unfold dataSettable; split_ifs <;> simp_all
  · unfold timeSettable
    split_ifs with h
    · simp only [reduceCtorEq, false_iff]; omega
    · simp only [true_iff]; omega

/-- With one time and several data slices (allowed, see above) the value is not constant: the
first slice at the time itself, the last slice elsewhere. -/
theorem C10_single_time_many_slices_refuted :
    ∃ (t0 t : Int) (vals : List ℚ), timeSettable 1 vals.length = .ok () ∧
      atTime [t0] vals t0 false ≠ atTime [t0] vals t false :=
  ⟨0, 5, [1, 2], by decide, by decide +kernel⟩

/-! ### Non-vacuity -/

example : StrictIncr [0, 10, 20] ∧ atTime [0, 10, 20] [(1 : ℚ), 2, 5] 15 false = .ok (7 / 2) ∧
    atTime [0, 10, 20] [(1 : ℚ), 2, 5] 10 false = .ok 2 ∧
    atTime [0, 10, 20] [(1 : ℚ), 2, 5] 25 true = .ok 5 ∧
    atTime [0, 10, 20] [(1 : ℚ), 2, 5] (-5) true = .ok 1 ∧
    atTime [0, 10, 20] [(1 : ℚ), 2, 5] 25 false = .error .outOfTimeRange := by
  refine ⟨by unfold StrictIncr; decide, ?_, ?_, ?_, ?_, ?_⟩ <;> decide +kernel

/-! ## C62: data stored depth first -/

/-- C62 as listed: for data with dimensions (depth, time, ...) the value of a level at a time is the
time interpolation of that level's own series. -/
def C62_statement : Prop :=
  ∀ (times : List Int) (rows : List (List ℚ)) (d : Nat) (row : List ℚ) (t : Int),
    StrictIncr times → times ≠ [] → (∀ r ∈ rows, r.length = times.length) → rows[d]? = some row →
    timeInterp times (sliceValue2 rows) [(d : Int)] t false = atTime times row t false

/-- C62 is false: at the first (and the last) time the level is forgotten. -/
theorem C62_refuted : ¬ C62_statement := by
  intro h
  have := h [0, 10] [[1, 2], [3, 4]] 1 [3, 4] 0 (by unfold StrictIncr; decide) (by decide)
    (by decide) rfl
  revert this
  decide +kernel

/-- C62 holds strictly between the first and the last time. Missing: the first and last time and
extrapolation, where it is false. -/
theorem C62_inner_times_partial (times : List Int) (rows : List (List K)) (d : Nat) (row : List K)
    (lo hi t : Int) (e : Bool) (h0 : times.head? = some lo) (h1 : times.getLast? = some hi)
    (ht : lo < t ∧ t < hi) (hrow : rows[d]? = some row) :
    timeInterp times (sliceValue2 rows) [(d : Int)] t e = atTime times row t e := by
  unfold atTime timeInterp
  rw [minTime_of_head h0, maxTime_of_last h1]
  simp only
  rw [if_neg (by rintro (h | ⟨_, h⟩) <;> omega), if_neg (by rintro (h | ⟨_, h⟩) <;> omega),
    if_neg (by rintro (h | ⟨_, h⟩) <;> omega), if_neg (by rintro (h | ⟨_, h⟩) <;> omega)]
  have g : Np.pyGet rows (d : Int) = .ok row := Np.pyGet_nonneg hrow
  simp only [sliceValue2, sliceValue, List.cons_append, List.nil_append, g]

example : timeInterp [0, 10, 20] (sliceValue2 [[(1 : ℚ), 2, 5], [3, 4, 8]]) [1] 15 false = .ok 6 := by
  decide +kernel

end Verif
