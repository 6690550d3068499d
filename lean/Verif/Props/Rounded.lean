import Verif.Model.Rounded
import Verif.Spec.Rounded
import Verif.Lemmas.Rounded
import Verif.Lemmas.Binary64
import Verif.Lemmas.LevelDepth
import Verif.Lemmas.DepthInterp
import Verif.Props.TimeInterp
import Verif.Props.UGeom

/-!
# C153-C159: interpolation in floating-point arithmetic

Every operation is rounded. The theorems hold for any rounding with the stated properties;
`accurate64`, `odd64`, `rounding64` and `keepsNonzero64` show that double precision has them (with
`u = 2⁻⁵³`, overflow and underflow apart).
-/

set_option autoImplicit false

namespace Verif
open Verif.TimeM Verif.TimeInterp Verif.DepthM Verif.Rounded Verif.Spec

/-! ## Double precision has the properties assumed of rounding -/

theorem accurate64 : Accurate rnd64 ((2 : ℚ) ^ (-53 : ℤ)) := rnd64_err

theorem odd64 : OddRounding rnd64 := rnd64_neg

section
variable {K : Type*} [Field K] [LinearOrder K] [IsStrictOrderedRing K]

theorem keeps_of_accurate {rnd : K → K} {u : K} (h : Accurate rnd u) (hu : u ≤ 1 / 16) :
    KeepsNonzero rnd := by
  intro x hx h0
  have := h x
  rw [h0, zero_sub, abs_neg] at this
  have hp : 0 < |x| := abs_pos.mpr hx
  have := mul_le_mul_of_nonneg_right hu hp.le
  linarith

theorem pos_of_accurate {rnd : K → K} {u : K} (h : Accurate rnd u) (hu : u ≤ 1 / 16)
    (hr : Rounding rnd) : 0 < rnd (1 / 1000000) := by
  have h1 : (0 : K) ≤ rnd (1 / 1000000) := by
    rw [← hr.zero]; exact hr.mono _ _ (by norm_num)
  exact lt_of_le_of_ne h1 (Ne.symm (keeps_of_accurate h hu _ (by norm_num)))

/-- With exact operations the model is that of C10. -/
theorem atTimeR_exact (times : List Int) (vals : List K) (t : Int) (e : Bool) :
    atTimeR (fun x => x) times vals t e = atTime times vals t e := rfl

/-- After one data time and no later than the next, short of the last time of the series, the value
is the rounded mix of the two slices. -/
theorem atTimeR_between {rnd : K → K} (hr : Rounding rnd) (hpos : 0 < rnd (1 / 1000000))
    (times : List Int) (hs : StrictIncr times) (vals : List K) (i : Nat) (a b t : Int) (va vb : K)
    (e : Bool) (ha : times[i]? = some a) (hb : times[i + 1]? = some b) (hat : a < t) (htb : t ≤ b)
    (hlast : times.getLast? ≠ some t) (hva : vals[i]? = some va) (hvb : vals[i + 1]? = some vb) :
    atTimeR rnd times vals t e = .ok (mixR rnd va vb
      (rnd (rnd (((t - a : Int) : K) / 1000000) / rnd (((b - a : Int) : K) / 1000000)))) := by
  have hlen : i + 1 < times.length := (List.getElem?_eq_some_iff.mp hb).1
  have hne : times ≠ [] := by intro h; simp [h] at hlen
  obtain ⟨lo, h0⟩ : ∃ lo, times.head? = some lo := by
    cases times with
    | nil => exact absurd rfl hne
    | cons x _ => exact ⟨x, rfl⟩
  obtain ⟨hi, h1⟩ : ∃ hi, times.getLast? = some hi := ⟨_, List.getLast?_eq_some_getLast hne⟩
  have h0' : times[0]? = some lo := by rw [← List.head?_eq_getElem?]; exact h0
  have h1' : times[times.length - 1]? = some hi := by
    rw [← List.getLast?_eq_getElem?]; exact h1
  have hloa : lo ≤ a := by
    rcases Nat.eq_zero_or_pos i with rfl | hpos
    · rw [ha] at h0'; cases h0'; exact le_refl _
    · exact le_of_lt (Np.pairwise_get?_lt hs hpos h0' ha)
  have hbhi : b ≤ hi := by
    rcases Nat.lt_or_eq_of_le (show i + 1 ≤ times.length - 1 by omega) with h | h
    · exact le_of_lt (Np.pairwise_get?_lt hs h hb h1')
    · rw [← h, hb] at h1'; cases h1'; exact le_refl _
  have hthi : t ≠ hi := by rintro rfl; exact hlast h1
  have hidx : indexOf times t false = .ok (i + 1) := by
    refine (C02_index_brackets times hs (by omega) lo hi t h0 h1 ⟨by omega, by omega⟩ false _).mpr
      ⟨hlen, ?_, ?_⟩
    · intro j x hj hx
      rcases Nat.lt_or_eq_of_le (show j ≤ i by omega) with h | rfl
      · exact lt_trans (Np.pairwise_get?_lt hs h hx ha) hat
      · rw [ha] at hx; cases hx; exact hat
    · intro j x hj hx
      rcases Nat.lt_or_eq_of_le hj with h | rfl
      · exact le_trans htb (le_of_lt (Np.pairwise_get?_lt hs h hb hx))
      · rw [hb] at hx; cases hx; exact htb
  have hα := C04_alpha_interval rnd hr hpos times hs i a b t e ha hb hat htb
  unfold atTimeR timeInterpR
  rw [minTime_of_head h0, maxTime_of_last h1]
  have n1 : ¬ (t = lo ∨ (e = true ∧ t < lo)) := by
    rintro (h | ⟨_, h⟩) <;> omega
  have n2 : ¬ (t = hi ∨ (e = true ∧ hi < t)) := by
    rintro (h | ⟨_, h⟩) <;> omega
  have g0 : Np.pyGet vals (((i + 1 : Nat) : Int) - 1) = .ok va := by
    rw [show (((i + 1 : Nat) : Int) - 1) = (i : Int) by push_cast; ring]
    exact Np.pyGet_nonneg hva
  have g1 : Np.pyGet vals ((i + 1 : Nat) : Int) = .ok vb := Np.pyGet_nonneg hvb
  simp only [if_neg n1, if_neg n2, hidx, sliceValue, List.nil_append, g0, g1, hα]

/-! ## C153: at a data time -/

/-- C153 as listed. -/
def C153_statement : Prop :=
  ∀ (times : List Int) (vals : List ℚ), StrictIncr times → vals.length = times.length →
    (∀ v ∈ vals, Stored rnd64 v) → ∀ (i : Nat) (t : Int) (v : ℚ) (e : Bool),
      times[i]? = some t → vals[i]? = some v → atTimeR rnd64 times vals t e = .ok v

/-- False: with 10²⁰ in the slice before, the slice value 1 is lost and 0 comes out. -/
theorem C153_lost : atTimeR rnd64 [0, 1000000, 2000000] [10 ^ 20, 1, 1] 1000000 false = .ok 0 := by
  decide +kernel

theorem C153_refuted : ¬ C153_statement := by
  intro h
  have := h [0, 1000000, 2000000] [10 ^ 20, 1, 1] (by unfold StrictIncr; decide) rfl
    (by unfold Stored; decide +kernel) 1 1000000 1 false rfl rfl
  rw [C153_lost] at this
  exact absurd this (by decide +kernel)

/-- At the first and at the last time of the series the slice itself is returned, whatever the
rounding. -/
theorem C153_ends (rnd : K → K) (times : List Int) (vals : List K)
    (hlen : vals.length = times.length) (t : Int) (v : K) (e : Bool) :
    (times.head? = some t → vals.head? = some v → atTimeR rnd times vals t e = .ok v) ∧
    (times.getLast? = some t → vals.getLast? = some v → StrictIncr times →
      atTimeR rnd times vals t e = .ok v) := by
  constructor
  · intro h0 hv
    unfold atTimeR timeInterpR
    rw [minTime_of_head h0]
    simp only [true_or, if_true, sliceValue]
    exact Np.pyGet_nonneg (i := 0) (by rw [← List.head?_eq_getElem?]; exact hv)
  · intro h1 hv hs
    have hne : times ≠ [] := by intro h; simp [h] at h1
    obtain ⟨lo, h0⟩ : ∃ lo, times.head? = some lo := by
      cases times with
      | nil => exact absurd rfl hne
      | cons x _ => exact ⟨x, rfl⟩
    have hle := head_le_last hs h0 h1
    unfold atTimeR timeInterpR
    rw [minTime_of_head h0, maxTime_of_last h1]
    simp only
    by_cases h : t = lo ∨ (e = true ∧ t < lo)
    · rw [if_pos h]
      have htl : t = lo := by rcases h with h | ⟨_, h⟩ <;> omega
      subst htl
      have hone : times.length = 1 := by
        by_contra hc
        have hl : 0 < times.length := List.length_pos_iff.mpr hne
        have h0' : times[0]? = some t := by rw [← List.head?_eq_getElem?]; exact h0
        have h1' : times[times.length - 1]? = some t := by
          rw [← List.getLast?_eq_getElem?]; exact h1
        exact lt_irrefl _ (Np.pairwise_get?_lt hs (by omega) h0' h1')
      refine Np.pyGet_nonneg (i := 0) ?_
      rw [List.getLast?_eq_getElem?, hlen, hone] at hv
      exact hv
    · rw [if_neg h, if_pos (Or.inl trivial)]
      exact Np.pyGet_neg_one hv

/-- Elsewhere the slice is returned when its difference from the slice before it needs no
rounding. Missing: other differences, for which the claim is false (`C153_refuted`). -/
theorem C153_exact_difference_partial (rnd : K → K) (hr : Rounding rnd)
    (hpos : 0 < rnd (1 / 1000000)) (times : List Int) (hs : StrictIncr times) (vals : List K)
    (hlen : vals.length = times.length) (i : Nat) (t : Int) (v v' : K) (e : Bool)
    (ht : times[i + 1]? = some t) (hv' : vals[i]? = some v') (hv : vals[i + 1]? = some v)
    (hst : Stored rnd v) (hd : Stored rnd (v - v')) : atTimeR rnd times vals t e = .ok v := by
  have hil : i + 1 < times.length := (List.getElem?_eq_some_iff.mp ht).1
  by_cases hl : times.getLast? = some t
  · refine (C153_ends rnd times vals hlen t v e).2 hl ?_ hs
    have : times.length - 1 = i + 1 := by
      by_contra hc
      rw [List.getLast?_eq_getElem?] at hl
      exact lt_irrefl _ (Np.pairwise_get?_lt hs (show i + 1 < times.length - 1 by omega) ht hl)
    rw [List.getLast?_eq_getElem?, hlen, this]
    exact hv
  · have ha : times[i]? = some times[i] := List.getElem?_eq_getElem (by omega)
    have hat : times[i] < t := Np.pairwise_get?_lt hs (by omega) ha ht
    rw [atTimeR_between hr hpos times hs vals i _ t t v' v e ha ht hat (le_refl _) hl hv' hv]
    have hden : 0 < rnd (((t - times[i] : Int) : K) / 1000000) := by
      refine lt_of_lt_of_le hpos (hr.mono _ _ ?_)
      have : (1 : K) ≤ ((t - times[i] : Int) : K) := by exact_mod_cast (by omega : 1 ≤ t - times[i])
      linarith
    rw [div_self (ne_of_gt hden), hr.one]
    unfold mixR Stored at *
    rw [hd, mul_one, hd, show v' + (v - v') = v by ring, hst]

/-- In double precision: series of whole numbers up to 2⁵² in size. -/
theorem C153_whole_numbers_partial (times : List Int) (hs : StrictIncr times) (vals : List Int)
    (hb : ∀ v ∈ vals, |v| ≤ 2 ^ 52) (hlen : vals.length = times.length) (i : Nat) (t v : Int)
    (e : Bool) (ht : times[i]? = some t) (hv : vals[i]? = some v) :
    atTimeR rnd64 times (vals.map fun n : Int => (n : ℚ)) t e = .ok (v : ℚ) := by
  have hlen' : (vals.map fun n : Int => (n : ℚ)).length = times.length := by simpa using hlen
  cases i with
  | zero =>
    refine (C153_ends rnd64 times _ hlen' t _ e).1 (by rw [List.head?_eq_getElem?]; exact ht) ?_
    rw [List.head?_eq_getElem?, List.getElem?_map, hv]
    rfl
  | succ i =>
    have hil : i + 1 < vals.length := (List.getElem?_eq_some_iff.mp hv).1
    have h' : vals[i]? = some vals[i] := List.getElem?_eq_getElem (by omega)
    have b1 := hb v (List.mem_of_getElem? hv)
    have b2 := hb vals[i] (List.getElem_mem _)
    rw [abs_le] at b1 b2
    refine C153_exact_difference_partial rnd64 rounding64 (rnd64_pos_of_pos (by norm_num)) times hs _
      hlen' i t (v : ℚ) (vals[i] : ℚ) e ht ?_ ?_ (rnd64_int v (by rw [abs_le]; omega)) ?_
    · rw [List.getElem?_map, h']; rfl
    · rw [List.getElem?_map, hv]; rfl
    · have := rnd64_int (v - vals[i]) (by rw [abs_le]; omega)
      push_cast at this
      exact this

example : atTimeR rnd64 [0, 1000000, 2000000] [7, -3, 12] 1000000 false = .ok (-3) ∧
    (∀ v ∈ [(7 : Int), -3, 12], |v| ≤ 2 ^ 52) := by
  constructor
  · decide +kernel
  · decide

/-! ## C154: distance from the exact value in time -/

/-- C154. The rounded result differs from the exact linear interpolation by at most sixteen roundings
of the larger slice value. -/
theorem C154_time_error (rnd : K → K) (u : K) (h : Accurate rnd u) (hu : u ≤ 1 / 16)
    (hr : Rounding rnd) (times : List Int) (hs : StrictIncr times) (vals : List K) (M : K)
    (hlen : vals.length = times.length) (hM : ∀ v ∈ vals, |v| ≤ M) (i : Nat) (a b t : Int)
    (va vb : K) (e : Bool) (ha : times[i]? = some a) (hb : times[i + 1]? = some b) (hat : a ≤ t)
    (htb : t ≤ b) (hva : vals[i]? = some va) (hvb : vals[i + 1]? = some vb) (r : K)
    (hline : OnLine (a : K) (b : K) va vb (t : K) r) :
    ∃ x, atTimeR rnd times vals t e = .ok x ∧ |x - r| ≤ 16 * u * M := by
  have hu0 := acc_nonneg h
  have m0 := hM va (List.mem_of_getElem? hva)
  have m1 := hM vb (List.mem_of_getElem? hvb)
  have hM0 : 0 ≤ M := le_trans (abs_nonneg _) m0
  have hab : a < b := Np.pairwise_get?_lt hs (by omega) ha hb
  have habK : (a : K) < (b : K) := by exact_mod_cast hab
  have hbase : 0 ≤ 16 * u * M := by positivity
  -- the weight of the rounded mix
  have key : a < t → times.getLast? ≠ some t →
      ∃ x, atTimeR rnd times vals t e = .ok x ∧ |x - r| ≤ 16 * u * M := by
    intro hlt hl
    refine ⟨_, atTimeR_between hr (pos_of_accurate h hu hr) times hs vals i a b t va vb e ha hb hlt htb
      hl hva hvb, ?_⟩
    have hd : (((b - a : Int) : K) / 1000000) ≠ 0 := by
      push_cast
      exact div_ne_zero (ne_of_gt (sub_pos.mpr habK)) (by norm_num)
    have hq : ((t - a : Int) : K) / 1000000 / (((b - a : Int) : K) / 1000000) =
        ((t : K) - a) / ((b : K) - a) := by
      have : (b : K) - a ≠ 0 := ne_of_gt (sub_pos.mpr habK)
      push_cast
      field_simp
    have htK : (a : K) ≤ t := by exact_mod_cast hat
    have htbK : (t : K) ≤ b := by exact_mod_cast htb
    have q0 : 0 ≤ ((t : K) - a) / ((b : K) - a) := div_nonneg (by linarith) (by linarith)
    have q1 : ((t : K) - a) / ((b : K) - a) ≤ 1 := by
      rw [div_le_one (sub_pos.mpr habK)]; linarith
    have hα := (quot_err h hu hd (by rw [hq]; exact q0) (by rw [hq]; exact q1)).2
    rw [hq] at hα
    have hm := mix_err h hu m0 m1 q0 q1 hα
    have hrr : r = va + (vb - va) * (((t : K) - a) / ((b : K) - a)) := by
      have hne : (b : K) - a ≠ 0 := ne_of_gt (sub_pos.mpr habK)
      unfold OnLine at hline
      field_simp
      linear_combination hline
    rw [hrr]
    exact hm
  have at_a : t = a → r = va := by
    rintro rfl
    unfold OnLine at hline
    rw [sub_self, mul_zero] at hline
    rcases mul_eq_zero.mp hline with h | h
    · linarith
    · linarith
  have at_b : t = b → r = vb := by
    rintro rfl
    unfold OnLine at hline
    have : (r - vb) * ((t : K) - a) = 0 := by linear_combination hline
    rcases mul_eq_zero.mp this with h | h
    · linarith
    · linarith
  by_cases hl : times.getLast? = some t
  · have hbt : t = b := by
      by_contra hc
      have h1' : times[times.length - 1]? = some t := by
        rw [← List.getLast?_eq_getElem?]; exact hl
      have hlen1 : i + 1 < times.length := (List.getElem?_eq_some_iff.mp hb).1
      rcases Nat.lt_or_eq_of_le (show i + 1 ≤ times.length - 1 by omega) with h | h
      · have := Np.pairwise_get?_lt hs h hb h1'; omega
      · rw [← h, hb] at h1'; cases h1'; exact hc rfl
    have hidx : times.length - 1 = i + 1 := by
      by_contra hc
      have hlen1 : i + 1 < times.length := (List.getElem?_eq_some_iff.mp hb).1
      rw [List.getLast?_eq_getElem?, hbt] at hl
      exact lt_irrefl _ (Np.pairwise_get?_lt hs (show i + 1 < times.length - 1 by omega) hb hl)
    refine ⟨vb, (C153_ends rnd times vals hlen t vb e).2 hl
      (by rw [List.getLast?_eq_getElem?, hlen, hidx]; exact hvb) hs, ?_⟩
    rw [at_b hbt, sub_self, abs_zero]; exact hbase
  · rcases lt_or_eq_of_le hat with hlt | heq
    · exact key hlt hl
    · cases i with
      | zero =>
        refine ⟨va, (C153_ends rnd times vals hlen t va e).1
          (by rw [List.head?_eq_getElem?, ← heq]; exact ha) (by rw [List.head?_eq_getElem?]; exact hva),
          ?_⟩
        rw [at_a heq.symm, sub_self, abs_zero]; exact hbase
      | succ k =>
        -- the end of the interval before
        have hk1 : k + 1 < times.length := (List.getElem?_eq_some_iff.mp ha).1
        have hk : times[k]? = some times[k] := List.getElem?_eq_getElem (by omega)
        have hvk : vals[k]? = some vals[k] := List.getElem?_eq_getElem (by omega)
        have hkt : times[k] < t := by
          rw [← heq]; exact Np.pairwise_get?_lt hs (by omega) hk ha
        have ha' : times[k + 1]? = some t := by rw [← heq]; exact ha
        refine ⟨_, atTimeR_between hr (pos_of_accurate h hu hr) times hs vals k _ t t vals[k] va e hk
          ha' hkt (le_refl _) hl hvk hva, ?_⟩
        have hkK : ((times[k] : Int) : K) < (t : K) := by exact_mod_cast hkt
        have hd : (((t - times[k] : Int) : K) / 1000000) ≠ 0 := by
          push_cast
          exact div_ne_zero (ne_of_gt (sub_pos.mpr hkK)) (by norm_num)
        have hα := (quot_err h hu hd (by rw [div_self hd]; norm_num)
          (by rw [div_self hd])).2
        rw [div_self hd] at hα
        have hm := mix_err h hu (hM vals[k] (List.getElem_mem _)) m0 zero_le_one (le_refl 1) hα
        rw [show vals[k] + (va - vals[k]) * 1 = va by ring] at hm
        rw [at_a heq.symm]
        exact hm

/-- Double precision. -/
theorem C154_time_error_doubles (times : List Int) (hs : StrictIncr times) (vals : List ℚ) (M : ℚ)
    (hlen : vals.length = times.length) (hM : ∀ v ∈ vals, |v| ≤ M) (i : Nat) (a b t : Int)
    (va vb : ℚ) (e : Bool) (ha : times[i]? = some a) (hb : times[i + 1]? = some b) (hat : a ≤ t)
    (htb : t ≤ b) (hva : vals[i]? = some va) (hvb : vals[i + 1]? = some vb) (r : ℚ)
    (hline : OnLine (a : ℚ) (b : ℚ) va vb (t : ℚ) r) :
    ∃ x, atTimeR rnd64 times vals t e = .ok x ∧ |x - r| ≤ M / 2 ^ 49 := by
  obtain ⟨x, h1, h2⟩ := C154_time_error rnd64 _ accurate64 (by norm_num) rounding64 times hs vals M hlen
    hM i a b t va vb e ha hb hat htb hva hvb r hline
  exact ⟨x, h1, le_trans h2 (le_of_eq (by norm_num; ring))⟩

/-- The result really is not the exact one: a third of the way from 0 to 1. -/
example : OnLine (0 : ℚ) 3000000 0 1 1000000 (1 / 3) ∧
    atTimeR rnd64 [0, 3000000, 6000000] [0, 1, 0] 1000000 false =
      .ok (6004799503160661 / 18014398509481984) := by
  constructor
  · unfold OnLine; norm_num
  · decide +kernel

/-! ## C155: between two slices -/

/-- C155 as listed: between two data times the value is between those of the slices. -/
def C155_statement : Prop :=
  ∀ (times : List Int) (vals : List ℚ), StrictIncr times → vals.length = times.length →
    (∀ v ∈ vals, Stored rnd64 v) → ∀ (i : Nat) (a b t : Int) (va vb : ℚ) (e : Bool),
      times[i]? = some a → times[i + 1]? = some b → a ≤ t → t ≤ b →
      vals[i]? = some va → vals[i + 1]? = some vb →
      ∃ x, atTimeR rnd64 times vals t e = .ok x ∧ min va vb ≤ x ∧ x ≤ max va vb

/-- False: with −1 before it, the value 2⁻⁵³ + 2⁻⁶⁰ comes out as 2⁻⁵², larger than both slices. -/
theorem C155_refuted : ¬ C155_statement := by
  intro h
  obtain ⟨x, h1, _, h3⟩ := h [0, 1000000, 2000000] [-1, 129 / 2 ^ 60, 0]
    (by unfold StrictIncr; decide) rfl (by unfold Stored; decide +kernel) 0 0 1000000 1000000 (-1)
    (129 / 2 ^ 60) false rfl rfl (by norm_num) (by norm_num) rfl rfl
  have : atTimeR rnd64 [0, 1000000, 2000000] [-1, 129 / 2 ^ 60, 0] 1000000 false =
      .ok (1 / 2 ^ 52) := by decide +kernel
  rw [this] at h1
  cases h1
  rw [max_eq_right (by norm_num)] at h3
  norm_num at h3

/-- What holds: going from one data time to the next the value moves in one direction only, towards
the later slice, and never goes back past the earlier slice. Missing: staying short of the later
slice, which is false (`C155_refuted`). -/
theorem C155_monotone_partial (rnd : K → K) (hr : Rounding rnd) (hpos : 0 < rnd (1 / 1000000))
    (times : List Int) (hs : StrictIncr times) (vals : List K) (i : Nat) (a b t t' : Int) (va vb : K)
    (e : Bool) (ha : times[i]? = some a) (hb : times[i + 1]? = some b) (hat : a < t) (htt : t ≤ t')
    (htb : t' ≤ b) (hl : times.getLast? ≠ some t') (hva : vals[i]? = some va)
    (hvb : vals[i + 1]? = some vb) (hst : Stored rnd va) :
    ∃ x x', atTimeR rnd times vals t e = .ok x ∧ atTimeR rnd times vals t' e = .ok x' ∧
      (va ≤ vb → va ≤ x ∧ x ≤ x') ∧ (vb ≤ va → x' ≤ x ∧ x ≤ va) := by
  have hlt : times.getLast? ≠ some t := by
    intro h
    rcases lt_or_eq_of_le htt with h1 | h1
    · have h1' : times[times.length - 1]? = some t := by
        rw [← List.getLast?_eq_getElem?]; exact h
      have hlen1 : i + 1 < times.length := (List.getElem?_eq_some_iff.mp hb).1
      rcases Nat.lt_or_eq_of_le (show i + 1 ≤ times.length - 1 by omega) with h2 | h2
      · have := Np.pairwise_get?_lt hs h2 hb h1'; omega
      · rw [← h2, hb] at h1'; cases h1'; omega
    · exact hl (h1 ▸ h)
  refine ⟨_, _, atTimeR_between hr hpos times hs vals i a b t va vb e ha hb hat (by omega) hlt hva hvb,
    atTimeR_between hr hpos times hs vals i a b t' va vb e ha hb (by omega) htb hl hva hvb, ?_⟩
  have hden : 0 < rnd (((b - a : Int) : K) / 1000000) := by
    refine lt_of_lt_of_le hpos (hr.mono _ _ ?_)
    have : (1 : K) ≤ ((b - a : Int) : K) := by exact_mod_cast (by omega : 1 ≤ b - a)
    linarith
  set d := rnd (((b - a : Int) : K) / 1000000)
  have hα0 : 0 ≤ rnd (rnd (((t - a : Int) : K) / 1000000) / d) := by
    rw [← hr.zero]
    refine hr.mono _ _ (div_nonneg ?_ hden.le)
    rw [← hr.zero]
    refine hr.mono _ _ (div_nonneg ?_ (by norm_num))
    exact_mod_cast (by omega : 0 ≤ t - a)
  have hαα : rnd (rnd (((t - a : Int) : K) / 1000000) / d) ≤
      rnd (rnd (((t' - a : Int) : K) / 1000000) / d) := by
    refine hr.mono _ _ (div_le_div_of_nonneg_right (hr.mono _ _ (div_le_div_of_nonneg_right ?_
      (by norm_num))) hden.le)
    exact_mod_cast (by omega : t - a ≤ t' - a)
  set α := rnd (rnd (((t - a : Int) : K) / 1000000) / d)
  set α' := rnd (rnd (((t' - a : Int) : K) / 1000000) / d)
  unfold mixR Stored at *
  constructor
  · intro hle
    have hd0 : 0 ≤ rnd (vb - va) := by rw [← hr.zero]; exact hr.mono _ _ (by linarith)
    constructor
    · have h1 : 0 ≤ rnd (rnd (vb - va) * α) := by
        rw [← hr.zero]; exact hr.mono _ _ (mul_nonneg hd0 hα0)
      calc va = rnd va := hst.symm
        _ ≤ _ := hr.mono _ _ (by linarith)
    · have := hr.mono _ _ (mul_le_mul_of_nonneg_left hαα hd0)
      exact hr.mono _ _ (by linarith)
  · intro hle
    have hd0 : rnd (vb - va) ≤ 0 := by rw [← hr.zero]; exact hr.mono _ _ (by linarith)
    constructor
    · have := hr.mono _ _ (mul_le_mul_of_nonpos_left hαα hd0)
      exact hr.mono _ _ (by linarith)
    · have h1 : rnd (rnd (vb - va) * α) ≤ 0 := by
        rw [← hr.zero]; exact hr.mono _ _ (mul_nonpos_of_nonpos_of_nonneg hd0 hα0)
      calc _ ≤ rnd va := hr.mono _ _ (by linarith)
        _ = va := hst

example : ∃ x x', atTimeR rnd64 [0, 3000000, 6000000] [0, 1, 0] 1000000 false = .ok x ∧
    atTimeR rnd64 [0, 3000000, 6000000] [0, 1, 0] 2000000 false = .ok x' ∧ 0 < x ∧ x < x' :=
  ⟨6004799503160661 / 18014398509481984, 6004799503160661 / 9007199254740992, by decide +kernel,
    by decide +kernel, by norm_num, by norm_num⟩

/-! ## C156: between two levels -/

/-- With exact operations the loop is that of `DepthInterp`. -/
theorem levelLoopR_exact (m : Nat) (ents : List (Entry K)) (cols : List (List K)) (ks : List Int)
    (st : Option (List Nat) × List (Cell K)) :
    levelLoopR (fun x => x) m ents cols ks st = levelLoop m ents cols ks st := by
  have hb : ∀ k, blendAtR (fun x => x) ents cols k = blendAt ents cols k := fun _ => rfl
  induction ks generalizing st with
  | nil => rfl
  | cons k ks ih =>
    obtain ⟨lay, out⟩ := st
    simp only [levelLoopR, levelLoop, hb, ih]
    rfl

/-- With exact operations the model is that of C18. -/
theorem depthInterpR_exact (m n : Nat) (ents : List (Entry K)) (cols : List (List K)) :
    depthInterpR (fun x => x) m n ents cols = depthInterp m n ents cols := by
  unfold depthInterpR depthInterp
  simp only [levelLoopR_exact]
  rfl

/-- The loop over indices other than the last level fills each group with its blended values. -/
private theorem levelLoopR_good {rnd : K → K} {m : Nat} {ents : List (Entry K)} {cols : List (List K)}
    {g : Nat → Option K} (ks : List Int) (lay : Option (List Nat)) (out : List (Cell K))
    (hlen : out.length = ents.length) (hnd : ks.Nodup)
    (hk : ∀ k ∈ ks, k ≠ (m : Int) - 1 ∧ ∀ j, At ents j k → blendAtR rnd ents cols k j = .ok (j, g j)) :
    ∃ lay' out', levelLoopR rnd m ents cols ks (lay, out) = .ok (lay', out') ∧
      out'.length = out.length ∧
      (∀ j k, k ∈ ks → At ents j k → out'[j]? = some { value := g j, masked := false }) ∧
      (∀ j, j < out.length → (∀ k ∈ ks, ¬ At ents j k) → out'[j]? = out[j]?) := by
  induction ks generalizing lay out with
  | nil => exact ⟨lay, out, rfl, rfl, by simp, fun _ _ _ => rfl⟩
  | cons k ks ih =>
    obtain ⟨hne, hb⟩ := hk k (by simp)
    have hok : mapE (blendAtR rnd ents cols k) (groupOf ents k)
        = .ok ((groupOf ents k).map fun i => (i, g i)) :=
      mapE_ok fun j hj => hb j (mem_groupOf.mp hj)
    have hnd' := List.nodup_cons.mp hnd
    obtain ⟨lay', out', h1, h2, h3, h4⟩ := ih (some (groupOf ents k))
      (putAll out ((groupOf ents k).map fun i => (i, g i))) (by rw [putAll_length, hlen]) hnd'.2
      (fun k' hk' => hk k' (by simp [hk']))
    refine ⟨lay', out', ?_, by rw [h2, putAll_length], ?_, ?_⟩
    · simp only [levelLoopR, if_neg hne, hok]
      exact h1
    · intro j k' hk' hat
      rcases List.mem_cons.mp hk' with rfl | hk'
      · have hj : j < out.length := by
          obtain ⟨e, he, _⟩ := hat
          rw [hlen]; exact (List.getElem?_eq_some_iff.mp he).1
        rw [h4 j (by rw [putAll_length]; exact hj) (fun k'' hk'' hat' => by
          have := hat.unique hat'
          subst this
          exact hnd'.1 hk'')]
        exact (putAll_get out g _ j hj).1 (mem_groupOf.mpr hat)
      · exact h3 j k' hk' hat
    · intro j hj hn
      rw [h4 j (by rw [putAll_length]; exact hj) (fun k' hk' => hn k' (by simp [hk']))]
      exact (putAll_get out g _ j hj).2 (fun hm => hn k (by simp) (mem_groupOf.mp hm))

/-- The levels are listed downwards or upwards. `bFirst` is the boundary condition that holds beyond the
level listed first, `bLast` the one beyond the level listed last. -/
def Listed (levels : List K) (sbc bbc bFirst bLast : BC) : Prop :=
  (StrictIncr levels ∧ bFirst = sbc ∧ bLast = bbc) ∨ (StrictDecr levels ∧ bFirst = bbc ∧ bLast = sbc)

/-- The levels listed one after the other, at depths going down or going up, that a depth is
between: at or past the level `j`, not yet at the next. -/
def BetweenLevels (levels : List K) (d : K) (j : Nat) (l0 l1 : K) : Prop :=
  levels[j]? = some l0 ∧ levels[j + 1]? = some l1 ∧
    ((StrictIncr levels ∧ l0 ≤ d ∧ d < l1) ∨ (StrictDecr levels ∧ l1 < d ∧ d ≤ l0))

/-- The depth is on the outer side of the level listed first. -/
def BeforeFirst (levels : List K) (d : K) : Prop :=
  ∃ f, levels.head? = some f ∧ ((StrictIncr levels ∧ d < f) ∨ (StrictDecr levels ∧ f < d))

/-- The depth is at or on the outer side of the level listed last. -/
def PastLast (levels : List K) (d : K) : Prop :=
  ∃ l, levels.getLast? = some l ∧ ((StrictIncr levels ∧ l ≤ d) ∨ (StrictDecr levels ∧ d ≤ l))

/-- What the depth object says about one point. -/
private def EntryFor (rnd : K → K) (levels : List K) (bFirst bLast : BC) (d : K) (e : Entry K) : Prop :=
  (BeforeFirst levels d ∧ e.masked = decide (bFirst = .mask) ∧ e.alpha = some 1 ∧ e.idx = -1) ∨
  (PastLast levels d ∧ e.masked = decide (bLast = .mask) ∧ e.idx = (levels.length : Int) - 1) ∨
  (e.masked = false ∧ ∃ (j : Nat) (a b : K), e.idx = (j : Int) ∧ BetweenLevels levels d j a b ∧
    e.alpha = ratio rnd d a b)

private theorem entries_for {rnd : K → K} (hk : KeepsNonzero rnd) {levels : List K} {sbc bbc bFirst bLast : BC}
    (hl : Listed levels sbc bbc bFirst bLast) (hn : 2 ≤ levels.length) (ds : List K) :
    ∃ ents, levelAlphas rnd levels (some levels.length) sbc bbc ds = .ok ents ∧
      List.Forall₂ (EntryFor rnd levels bFirst bLast) ds ents := by
  have f0 : levels[0]? = some levels[0] := List.getElem?_eq_getElem (by omega)
  obtain ⟨last, f1⟩ : ∃ x, levels[levels.length - 1]? = some x :=
    ⟨_, List.getElem?_eq_getElem (by omega)⟩
  have g0 : levels.head? = some levels[0] := by rw [List.head?_eq_getElem?]; exact f0
  have g1 : levels.getLast? = some last := by rw [List.getLast?_eq_getElem?]; exact f1
  have hsh : some levels.length ≠ some 1 := by
    intro h; rw [Option.some.injEq] at h; omega
  rcases hl with ⟨hs, rfl, rfl⟩ | ⟨hs, rfl, rfl⟩
  · obtain ⟨out, ho, hf⟩ := levelAlphas_asc hk hs hn f0 f1 (some levels.length) hsh bFirst bLast ds
    refine ⟨out, ho, hf.imp ?_⟩
    rintro d e ⟨h1, h2, h3⟩
    rcases lt_or_ge d levels[0] with h | h
    · exact .inl ⟨⟨_, g0, .inl ⟨hs, h⟩⟩, h1 h⟩
    · rcases lt_or_ge d last with h' | h'
      · obtain ⟨hm, j, a, b, e1, e2, e3, e4, e5, e6⟩ := h3 h h'
        exact .inr (.inr ⟨hm, j, a, b, e1, ⟨e2, e3, .inl ⟨hs, e4, e5⟩⟩, e6⟩)
      · exact .inr (.inl ⟨⟨_, g1, .inl ⟨hs, h'⟩⟩, (h2 h').1, (h2 h').2.2⟩)
  · obtain ⟨out, ho, hf⟩ := levelAlphas_desc hk hs hn f0 f1 (some levels.length) hsh bLast bFirst ds
    refine ⟨out, ho, hf.imp ?_⟩
    rintro d e ⟨h1, h2, h3⟩
    rcases lt_or_ge levels[0] d with h | h
    · exact .inl ⟨⟨_, g0, .inr ⟨hs, h⟩⟩, h2 h⟩
    · rcases lt_or_ge last d with h' | h'
      · obtain ⟨hm, j, a, b, e1, e2, e3, e4, e5, e6⟩ := h3 h' h
        exact .inr (.inr ⟨hm, j, a, b, e1, ⟨e2, e3, .inr ⟨hs, e4, e5⟩⟩, e6⟩)
      · exact .inr (.inl ⟨⟨_, g1, .inr ⟨hs, h'⟩⟩, (h1 h').1, (h1 h').2.2⟩)

/-- The place between two levels is unique. -/
private theorem between_unique {levels : List K} {d a b a' b' : K} {j j' : Nat}
    (h : BetweenLevels levels d j a b) (h' : BetweenLevels levels d j' a' b') : j = j' := by
  obtain ⟨g0, g1, hc⟩ := h
  obtain ⟨g0', g1', hc'⟩ := h'
  have two : StrictIncr levels → StrictDecr levels → False := by
    intro hi hd
    exact lt_asymm (Np.pairwise_get?_lt hi (Nat.lt_succ_self j) g0 g1)
      (Np.pairwise_get?_lt hd (Nat.lt_succ_self j) g0 g1)
  rcases hc with ⟨hs, p, q⟩ | ⟨hs, p, q⟩ <;> rcases hc' with ⟨hs', p', q'⟩ | ⟨hs', p', q'⟩
  · rcases Nat.lt_trichotomy j j' with h | h | h
    · have : b ≤ a' := by
        rcases Nat.lt_or_eq_of_le (show j + 1 ≤ j' by omega) with h' | h'
        · exact le_of_lt (Np.pairwise_get?_lt hs h' g1 g0')
        · rw [h', g0'] at g1; cases g1; exact le_refl _
      exact absurd (lt_of_lt_of_le q this) (not_lt.mpr p')
    · exact h
    · have : b' ≤ a := by
        rcases Nat.lt_or_eq_of_le (show j' + 1 ≤ j by omega) with h' | h'
        · exact le_of_lt (Np.pairwise_get?_lt hs h' g1' g0)
        · rw [h', g0] at g1'; cases g1'; exact le_refl _
      exact absurd (lt_of_lt_of_le q' this) (not_lt.mpr p)
  · exact (two hs hs').elim
  · exact (two hs' hs).elim
  · rcases Nat.lt_trichotomy j j' with h | h | h
    · have : a' ≤ b := by
        rcases Nat.lt_or_eq_of_le (show j + 1 ≤ j' by omega) with h' | h'
        · exact le_of_lt (Np.pairwise_get?_lt hs h' g1 g0')
        · rw [h', g0'] at g1; cases g1; exact le_refl _
      exact absurd (lt_of_le_of_lt this p) (not_lt.mpr q')
    · exact h
    · have : a ≤ b' := by
        rcases Nat.lt_or_eq_of_le (show j' + 1 ≤ j by omega) with h' | h'
        · exact le_of_lt (Np.pairwise_get?_lt hs h' g1' g0)
        · rw [h', g0] at g1'; cases g1'; exact le_refl _
      exact absurd (lt_of_le_of_lt this p') (not_lt.mpr q)

/-- A depth between two levels is not outside. -/
private theorem between_inside {levels : List K} {d a b : K} {j : Nat} (h : BetweenLevels levels d j a b) :
    ¬ BeforeFirst levels d ∧ ¬ PastLast levels d := by
  obtain ⟨g0, g1, hc⟩ := h
  have hj : j + 1 < levels.length := (List.getElem?_eq_some_iff.mp g1).1
  have two : StrictIncr levels → StrictDecr levels → False := by
    intro hi hd
    exact lt_asymm (Np.pairwise_get?_lt hi (Nat.lt_succ_self j) g0 g1)
      (Np.pairwise_get?_lt hd (Nat.lt_succ_self j) g0 g1)
  constructor
  · rintro ⟨f, hf, h⟩
    rw [List.head?_eq_getElem?] at hf
    rcases h with ⟨hs, h⟩ | ⟨hs, h⟩ <;> rcases hc with ⟨hs', p, q⟩ | ⟨hs', p, q⟩
    · rcases Nat.eq_zero_or_pos j with rfl | hp
      · rw [g0] at hf; cases hf; exact absurd h (not_lt.mpr p)
      · exact absurd (lt_trans h (Np.pairwise_get?_lt hs hp hf g0)) (not_lt.mpr p)
    · exact two hs hs'
    · exact two hs' hs
    · rcases Nat.eq_zero_or_pos j with rfl | hp
      · rw [g0] at hf; cases hf; exact absurd h (not_lt.mpr q)
      · exact absurd (lt_trans (Np.pairwise_get?_lt hs hp hf g0) h) (not_lt.mpr q)
  · rintro ⟨f, hf, h⟩
    rw [List.getLast?_eq_getElem?] at hf
    rcases h with ⟨hs, h⟩ | ⟨hs, h⟩ <;> rcases hc with ⟨hs', p, q⟩ | ⟨hs', p, q⟩
    · rcases Nat.lt_or_eq_of_le (show j + 1 ≤ levels.length - 1 by omega) with h' | h'
      · exact absurd (lt_trans q (Np.pairwise_get?_lt hs h' g1 hf)) (not_lt.mpr h)
      · rw [← h', g1] at hf; cases hf; exact absurd q (not_lt.mpr h)
    · exact two hs hs'
    · exact two hs' hs
    · rcases Nat.lt_or_eq_of_le (show j + 1 ≤ levels.length - 1 by omega) with h' | h'
      · exact absurd (lt_trans (Np.pairwise_get?_lt hs h' g1 hf) p) (not_lt.mpr h)
      · rw [← h', g1] at hf; cases hf; exact absurd p (not_lt.mpr h)

/-- A question about depths and one value per level at each point, without points past the level listed
last other than masked ones (see C18 for those). -/
structure DepthQuery (levels : List K) (sbc bbc bFirst bLast : BC) (cols : List (List K)) (ds : List K) :
    Prop where
  listed : Listed levels sbc bbc bFirst bLast
  two : 2 ≤ levels.length
  each : cols.length = ds.length
  full : ∀ c ∈ cols, c.length = levels.length
  last : bLast = .mask ∨ ∀ d ∈ ds, ¬ PastLast levels d

private theorem before_past {levels : List K} {d : K} (hn : 2 ≤ levels.length) (h : BeforeFirst levels d) :
    ¬ PastLast levels d := by
  rintro ⟨l, hl, h'⟩
  obtain ⟨f, hf, h⟩ := h
  rw [List.head?_eq_getElem?] at hf
  rw [List.getLast?_eq_getElem?] at hl
  rcases h with ⟨hs, h⟩ | ⟨hs, h⟩ <;> rcases h' with ⟨hs', h'⟩ | ⟨hs', h'⟩
  · exact absurd (lt_trans h (Np.pairwise_get?_lt hs (by omega) hf hl)) (not_lt.mpr h')
  · exact lt_asymm (Np.pairwise_get?_lt hs (by omega) hf hl) (Np.pairwise_get?_lt hs' (by omega) hf hl)
  · exact lt_asymm (Np.pairwise_get?_lt hs' (by omega) hf hl) (Np.pairwise_get?_lt hs (by omega) hf hl)
  · exact absurd (lt_trans (Np.pairwise_get?_lt hs (by omega) hf hl) h) (not_lt.mpr h')

/-- The cell of each point. -/
private theorem levelValuesR_spec {rnd : K → K} (hk : KeepsNonzero rnd) {levels : List K}
    {sbc bbc bFirst bLast : BC} {cols : List (List K)} {ds : List K}
    (q : DepthQuery levels sbc bbc bFirst bLast cols ds) :
    ∃ out, levelValuesR rnd levels cols sbc bbc ds = .ok out ∧ out.length = ds.length ∧
      ∀ (i : Nat) (d : K) (col : List K), ds[i]? = some d → cols[i]? = some col →
        (∀ j l0 l1 v0 v1, BetweenLevels levels d j l0 l1 → col[j]? = some v0 → col[j + 1]? = some v1 →
          out[i]? = some ⟨some (mixR rnd v0 v1 (rnd (rnd (d - l0) / rnd (l1 - l0)))), false⟩) ∧
        (∀ vf vl, BeforeFirst levels d → bFirst ≠ .mask → col.head? = some vf → col.getLast? = some vl →
          out[i]? = some ⟨some (mixR rnd vl vf 1), false⟩) ∧
        ((BeforeFirst levels d ∧ bFirst = .mask) ∨ (PastLast levels d ∧ bLast = .mask) →
          out[i]? = some ⟨none, true⟩) := by
  obtain ⟨hl, hn, hlen, hfull, hlast⟩ := q
  obtain ⟨ents, he, hf⟩ := entries_for hk hl hn ds
  have hel : ents.length = ds.length := hf.length_eq.symm
  have hent : ∀ (i : Nat) (d : K), ds[i]? = some d → ∃ e, ents[i]? = some e ∧ EntryFor rnd levels bFirst bLast d e := by
    intro i d hd
    have hi : i < ds.length := (List.getElem?_eq_some_iff.mp hd).1
    have h2 : ents[i]? = some (ents[i]'(by omega)) := List.getElem?_eq_getElem (by omega)
    refine ⟨_, h2, ?_⟩
    have := (List.forall₂_iff_get.mp hf).2 i hi (by omega)
    have hd' : ds[i] = d := (List.getElem?_eq_some_iff.mp hd).2
    simp only [List.get_eq_getElem, hd'] at this
    exact this
  have hent' : ∀ (i : Nat) (e : Entry K), ents[i]? = some e → ∃ d, ds[i]? = some d := by
    intro i e h
    have : i < ents.length := (List.getElem?_eq_some_iff.mp h).1
    exact ⟨_, List.getElem?_eq_getElem (by omega)⟩
  -- what is stored
  let g : Nat → Option K := fun j => match ents[j]? with
    | some e => match blendAtR rnd ents cols e.idx j with
      | .ok p => p.2
      | .error _ => none
    | none => none
  have hok : ∀ i k, At ents i k → k ≠ (levels.length : Int) - 1 ∧
      blendAtR rnd ents cols k i = .ok (i, g i) := by
    rintro i k ⟨e, hei, hem, rfl⟩
    obtain ⟨d, hd⟩ := hent' i e hei
    obtain ⟨e', he', hE⟩ := hent i d hd
    rw [hei] at he'; cases he'
    have hi : i < cols.length := by
      have := (List.getElem?_eq_some_iff.mp hd).1; omega
    have hc : cols[i]? = some (cols[i]'hi) := List.getElem?_eq_getElem hi
    have hcl := hfull _ (List.getElem_mem hi)
    generalize cols[i]'hi = col at hc hcl
    have hne : col ≠ [] := by rintro rfl; simp at hcl; omega
    rcases hE with ⟨_, hm, hal, hix⟩ | ⟨hp, hm, hix⟩ | ⟨_, j, a, b, hix, hb, hal⟩
    · refine ⟨by omega, ?_⟩
      have p0 : Np.pyGet col (-1 + 1) = .ok (col.head hne) := by
        have : col[0]? = some (col.head hne) := by
          rw [← List.head?_eq_getElem?]; exact List.head?_eq_some_head hne
        exact_mod_cast Np.pyGet_nonneg (i := 0) this
      have p1 : Np.pyGet col (-1) = .ok (col.getLast hne) :=
        Np.pyGet_neg_one (List.getLast?_eq_some_getLast hne)
      have e1 : blendAtR rnd ents cols (-1) i =
          .ok (i, some (mixR rnd (col.getLast hne) (col.head hne) 1)) := by
        simp only [blendAtR, valAt, hc, p0, p1, hei, hal, Option.map_some]
      simp only [g, hei, hix, e1]
    · exfalso
      rcases hlast with h | h
      · rw [h] at hm; simp only [decide_true] at hm; rw [hm] at hem; cases hem
      · exact h d (List.mem_of_getElem? hd) hp
    · have hj : j + 1 < levels.length := (List.getElem?_eq_some_iff.mp hb.2.1).1
      refine ⟨by omega, ?_⟩
      have c0 : col[j]? = some (col[j]'(by omega)) := List.getElem?_eq_getElem (by omega)
      have c1 : col[j + 1]? = some (col[j + 1]'(by omega)) := List.getElem?_eq_getElem (by omega)
      have e1 : blendAtR rnd ents cols (j : Int) i = .ok (i, e.alpha.map fun α =>
          mixR rnd (col[j]'(by omega)) (col[j + 1]'(by omega)) α) := by
        have p1 : Np.pyGet col ((j : Int) + 1) = .ok (col[j + 1]'(by omega)) := by
          exact_mod_cast Np.pyGet_nonneg c1
        simp only [blendAtR, valAt, hc, p1, Np.pyGet_nonneg c0, hei]
      simp only [g, hei, hix, e1]
  have key : ∃ out, depthInterpR rnd levels.length (levels.length - 1) ents cols = .ok out ∧
      out.length = ents.length ∧ (∀ (i : Nat) (e : Entry K), ents[i]? = some e → e.masked = false →
        out[i]? = some ⟨g i, false⟩) ∧
      (∀ (i : Nat) (e : Entry K), ents[i]? = some e → e.masked = true → out[i]? = some ⟨none, true⟩) := by
    unfold depthInterpR
    by_cases hall : ents.all Entry.masked = true
    · refine ⟨_, if_pos hall, by simp, ?_, ?_⟩
      · intro i e h hm
        have := List.all_eq_true.mp hall e (List.mem_of_getElem? h)
        rw [hm] at this; cases this
      · intro i e h hm
        rw [List.getElem?_map, h]
        simp [hm]
    · simp only [hall, if_false, Bool.false_eq_true]
      rw [if_neg (by omega)]
      obtain ⟨lay', out, h1, h2, h3, h4⟩ := levelLoopR_good (rnd := rnd) (m := levels.length) (ents := ents)
        (cols := cols) (g := g) (uniqIdx ents) none
        (ents.map fun e => { value := none, masked := e.masked }) (by simp)
        ((Np.unique_pairwise _).imp ne_of_lt) (by
          intro k hk
          obtain ⟨j, hat⟩ := mem_uniqIdx.mp hk
          exact ⟨(hok j k hat).1, fun j' hat' => (hok j' k hat').2⟩)
      rw [h1]
      refine ⟨out, rfl, by rw [h2]; simp, ?_, ?_⟩
      · intro i e h hm
        have hat : At ents i e.idx := ⟨e, h, hm, rfl⟩
        exact h3 i _ (mem_uniqIdx.mpr ⟨i, hat⟩) hat
      · intro i e h hm
        rw [h4 i (by simpa using (List.getElem?_eq_some_iff.mp h).1), List.getElem?_map, h]
        · simp [hm]
        · rintro k _ ⟨e', he', hm', _⟩
          rw [h] at he'; cases he'
          rw [hm] at hm'; cases hm'
  obtain ⟨out, ho, hol, hu, hm⟩ := key
  refine ⟨out, ?_, by omega, ?_⟩
  · unfold levelValuesR
    rw [he]
    exact ho
  · intro i d col hd hc
    obtain ⟨e, hei, hE⟩ := hent i d hd
    have hcl := hfull col (List.mem_of_getElem? hc)
    refine ⟨?_, ?_, ?_⟩
    · intro j l0 l1 v0 v1 hb h0 h1
      rcases hE with ⟨h, _⟩ | ⟨h, _⟩ | ⟨hem, j', a, b, hix, hb', hal⟩
      · exact absurd h (between_inside hb).1
      · exact absurd h (between_inside hb).2
      · have hjj := between_unique hb hb'
        subst hjj
        have ha : l0 = a := Option.some.inj (hb.1.symm.trans hb'.1)
        have hbb : l1 = b := Option.some.inj (hb.2.1.symm.trans hb'.2.1)
        subst ha
        subst hbb
        have hne : l0 ≠ l1 := by
          rcases hb.2.2 with ⟨_, p, q⟩ | ⟨_, p, q⟩
          · exact ne_of_lt (lt_of_le_of_lt p q)
          · exact ne_of_gt (lt_of_lt_of_le p q)
        rw [hu i e hei hem]
        have p1 : Np.pyGet col ((j : Int) + 1) = .ok v1 := by exact_mod_cast Np.pyGet_nonneg h1
        have e1 : blendAtR rnd ents cols (j : Int) i =
            .ok (i, some (mixR rnd v0 v1 (rnd (rnd (d - l0) / rnd (l1 - l0))))) := by
          simp only [blendAtR, valAt, hc, p1, Np.pyGet_nonneg h0, hei, hal, ratio_eq hne hk,
            Option.map_some]
        simp only [g, hei, hix, e1]
    · intro vf vl hb hmask h0 h1
      rcases hE with ⟨_, hem, hal, hix⟩ | ⟨h, _⟩ | ⟨_, j', a, b, _, hb', _⟩
      · rw [hu i e hei (by rw [hem]; simpa using hmask)]
        have p0 : Np.pyGet col (-1 + 1) = .ok vf := by
          rw [List.head?_eq_getElem?] at h0
          exact_mod_cast Np.pyGet_nonneg (i := 0) h0
        have e1 : blendAtR rnd ents cols (-1) i = .ok (i, some (mixR rnd vl vf 1)) := by
          simp only [blendAtR, valAt, hc, p0, Np.pyGet_neg_one h1, hei, hal, Option.map_some]
        simp only [g, hei, hix, e1]
      · exact absurd h (before_past hn hb)
      · exact absurd hb (between_inside hb').1
    · intro h
      refine hm i e hei ?_
      rcases hE with ⟨hb, hem, _⟩ | ⟨hp, hem, _⟩ | ⟨_, j', a, b, _, hb', _⟩
      · rcases h with ⟨_, h⟩ | ⟨h, _⟩
        · rw [hem, h]; rfl
        · exact absurd h (before_past hn hb)
      · rcases h with ⟨h, _⟩ | ⟨_, h⟩
        · exact absurd hp (before_past hn h)
        · rw [hem, h]; rfl
      · rcases h with ⟨h, _⟩ | ⟨h, _⟩
        · exact absurd h (between_inside hb').1
        · exact absurd h (between_inside hb').2

/-- C156. At the depth of a level other than the one listed last the value is the level's own, to
the last digit, whatever other points are asked for. -/
theorem C156_at_level (rnd : K → K) (hr : Rounding rnd) (hk : KeepsNonzero rnd) (levels : List K)
    (sbc bbc bFirst bLast : BC) (cols : List (List K)) (ds : List K)
    (q : DepthQuery levels sbc bbc bFirst bLast cols ds) :
    ∃ out, levelValuesR rnd levels cols sbc bbc ds = .ok out ∧
      ∀ (i : Nat) (d : K) (col : List K) (j : Nat) (l1 v0 : K), ds[i]? = some d → cols[i]? = some col →
        BetweenLevels levels d j d l1 → col[j]? = some v0 → Stored rnd v0 →
        out[i]? = some ⟨some v0, false⟩ := by
  obtain ⟨out, ho, _, h⟩ := levelValuesR_spec hk q
  refine ⟨out, ho, ?_⟩
  intro i d col j l1 v0 hd hc hb h0 hst
  have hj : j + 1 < levels.length := (List.getElem?_eq_some_iff.mp hb.2.1).1
  have hcl := q.full col (List.mem_of_getElem? hc)
  rw [(h i d col hd hc).1 j d l1 v0 (col[j + 1]'(by omega)) hb h0 (List.getElem?_eq_getElem (by omega))]
  unfold mixR Stored at *
  rw [sub_self, hr.zero, zero_div, hr.zero, mul_zero, hr.zero, add_zero, hst]

/-- C156. Between two levels the rounded result differs from the exact linear interpolation by at
most sixteen roundings of the larger of the two values, whatever other points are asked for. -/
theorem C156_depth_error (rnd : K → K) (u : K) (ha : Accurate rnd u) (hu : u ≤ 1 / 16)
    (levels : List K) (sbc bbc bFirst bLast : BC) (cols : List (List K)) (ds : List K)
    (q : DepthQuery levels sbc bbc bFirst bLast cols ds) :
    ∃ out, levelValuesR rnd levels cols sbc bbc ds = .ok out ∧
      ∀ (i : Nat) (d : K) (col : List K) (j : Nat) (l0 l1 v0 v1 M r : K), ds[i]? = some d →
        cols[i]? = some col → BetweenLevels levels d j l0 l1 → col[j]? = some v0 →
        col[j + 1]? = some v1 → |v0| ≤ M → |v1| ≤ M → OnLine l0 l1 v0 v1 d r →
        ∃ x, out[i]? = some ⟨some x, false⟩ ∧ |x - r| ≤ 16 * u * M := by
  obtain ⟨out, ho, _, hspec⟩ := levelValuesR_spec (keeps_of_accurate ha hu) q
  refine ⟨out, ho, ?_⟩
  intro i d col j l0 l1 v0 v1 M r hd hcol hb h0 h1 m0 m1 hline
  refine ⟨_, (hspec i d col hd hcol).1 j l0 l1 v0 v1 hb h0 h1, ?_⟩
  obtain ⟨_, _, hc⟩ := hb
  have hne : l1 - l0 ≠ 0 := by
    rcases hc with ⟨_, ha, hb⟩ | ⟨_, ha, hb⟩
    · exact ne_of_gt (by linarith)
    · exact ne_of_lt (by linarith)
  have q : 0 ≤ (d - l0) / (l1 - l0) ∧ (d - l0) / (l1 - l0) ≤ 1 := by
    rcases hc with ⟨_, ha, hb⟩ | ⟨_, ha, hb⟩
    · exact ⟨div_nonneg (by linarith) (by linarith),
        by rw [div_le_one (by linarith)]; linarith⟩
    · exact ⟨div_nonneg_of_nonpos (by linarith) (by linarith),
        by rw [div_le_one_of_neg (by linarith)]; linarith⟩
  have hα := (quot_err ha hu hne q.1 q.2).2
  have hm := mix_err ha hu m0 m1 q.1 q.2 hα
  have hrr : r = v0 + (v1 - v0) * ((d - l0) / (l1 - l0)) := by
    unfold OnLine at hline
    field_simp
    linear_combination hline
  rw [hrr]
  exact hm

/-- C156. Points outside are masked where the boundary condition says so, also among others. -/
theorem C156_masked (rnd : K → K) (hk : KeepsNonzero rnd) (levels : List K)
    (sbc bbc bFirst bLast : BC) (cols : List (List K)) (ds : List K)
    (q : DepthQuery levels sbc bbc bFirst bLast cols ds) :
    ∃ out, levelValuesR rnd levels cols sbc bbc ds = .ok out ∧ out.length = ds.length ∧
      ∀ (i : Nat) (d : K), ds[i]? = some d →
        (BeforeFirst levels d ∧ bFirst = .mask) ∨ (PastLast levels d ∧ bLast = .mask) →
        out[i]? = some ⟨none, true⟩ := by
  obtain ⟨out, ho, hl, h⟩ := levelValuesR_spec hk q
  refine ⟨out, ho, hl, ?_⟩
  intro i d hd hb
  have hi := (List.getElem?_eq_some_iff.mp hd).1
  exact (h i d (cols[i]'(by rw [q.each]; exact hi)) hd (List.getElem?_eq_getElem _)).2.2 hb

/-! ## C184: beyond the level listed first -/

/-- C184 in full: a point extrapolated beyond the level listed first has the value of that level. -/
def C184_statement : Prop :=
  ∀ (levels : List ℚ) (sbc bbc bFirst bLast : BC) (cols : List (List ℚ)) (ds : List ℚ),
    DepthQuery levels sbc bbc bFirst bLast cols ds → bFirst ≠ .mask →
    (∀ c ∈ cols, ∀ v ∈ c, Stored rnd64 v) →
    ∃ out, levelValuesR rnd64 levels cols sbc bbc ds = .ok out ∧
      ∀ (i : Nat) (d : ℚ) (col : List ℚ) (v : ℚ), ds[i]? = some d → cols[i]? = some col →
        BeforeFirst levels d → col.head? = some v → out[i]? = some ⟨some v, false⟩

/-- **C184 is false.** The code blends the value of the level listed *last* with that of the first, with
weight 1: the last level's value leaves its rounding error. At 3 m above the first of the levels 10 m and
20 m, where the values are 1/10 (as a double) and 3, the result is another number than 1/10. -/
theorem C184_refuted : ¬ C184_statement := by
  intro h
  obtain ⟨out, ho, hr⟩ := h [10, 20] .extrapolate .mask .extrapolate .mask
    [[3602879701896397 / 36028797018963968, 3]] [7]
    ⟨.inl ⟨by unfold StrictIncr; decide +kernel, rfl, rfl⟩, by decide, rfl, by decide, .inl rfl⟩ (by decide)
    (by unfold Stored; decide +kernel)
  have hx : levelValuesR rnd64 [10, 20] [[3602879701896397 / 36028797018963968, 3]] .extrapolate .mask [7] =
      .ok [⟨some (450359962737050 / 4503599627370496), false⟩] := by decide +kernel
  rw [hx] at ho
  cases ho
  have := hr 0 7 _ _ rfl rfl ⟨10, rfl, .inl ⟨by unfold StrictIncr; decide +kernel, by norm_num⟩⟩ rfl
  exact absurd this (by decide +kernel)

/-- C184: it differs from that value by at most sixteen roundings of the larger of the values of the
first and of the *last* level. -/
theorem C184_partial (rnd : K → K) (u : K) (ha : Accurate rnd u) (hu : u ≤ 1 / 16)
    (levels : List K) (sbc bbc bFirst bLast : BC) (cols : List (List K)) (ds : List K)
    (q : DepthQuery levels sbc bbc bFirst bLast cols ds) (hb : bFirst ≠ .mask) :
    ∃ out, levelValuesR rnd levels cols sbc bbc ds = .ok out ∧
      ∀ (i : Nat) (d : K) (col : List K) (v w M : K), ds[i]? = some d → cols[i]? = some col →
        BeforeFirst levels d → col.head? = some v → col.getLast? = some w → |v| ≤ M → |w| ≤ M →
        ∃ x, out[i]? = some ⟨some x, false⟩ ∧ |x - v| ≤ 16 * u * M := by
  obtain ⟨out, ho, _, h⟩ := levelValuesR_spec (keeps_of_accurate ha hu) q
  refine ⟨out, ho, ?_⟩
  intro i d col v w M hd hc hbf h0 h1 m0 m1
  refine ⟨_, (h i d col hd hc).2.1 v w hbf hb h0 h1, ?_⟩
  have hu0 := acc_nonneg ha
  have := mix_err ha hu m1 m0 (zero_le_one) (le_refl (1 : K)) (α' := 1) (by rw [sub_self, abs_zero]; linarith)
  rw [show w + (v - w) * 1 = v by ring] at this
  exact this

/-- C184 with exact operations: the value is that of the level listed first. -/
theorem C184_exact (levels : List K) (sbc bbc bFirst bLast : BC) (cols : List (List K)) (ds : List K)
    (q : DepthQuery levels sbc bbc bFirst bLast cols ds) (hb : bFirst ≠ .mask) :
    ∃ out, levelValuesR (fun x => x) levels cols sbc bbc ds = .ok out ∧
      ∀ (i : Nat) (d : K) (col : List K) (v : K), ds[i]? = some d → cols[i]? = some col →
        BeforeFirst levels d → col.head? = some v → out[i]? = some ⟨some v, false⟩ := by
  obtain ⟨out, ho, _, h⟩ := levelValuesR_spec (rnd := fun x => x) (fun x hx => hx) q
  refine ⟨out, ho, ?_⟩
  intro i d col v hd hc hbf h0
  have hne : col ≠ [] := by rintro rfl; simp at h0
  rw [(h i d col hd hc).2.1 v (col.getLast hne) hbf hb h0 (List.getLast?_eq_some_getLast hne)]
  simp [mixR]

/-- The hypotheses hold for three levels in either order and points between, above and below them. -/
example : DepthQuery [(0 : ℚ), 10, 40] .extrapolate .mask .extrapolate .mask [[1, 2, 3], [1, 2, 3], [5, 6, 7]]
      [20, -5, 50] ∧
    DepthQuery [(40 : ℚ), 10, 0] .mask .mask .mask .mask [[3, 2, 1], [3, 2, 1]] [10, 0] ∧
    BetweenLevels [(0 : ℚ), 10, 40] 20 1 10 40 ∧ BetweenLevels [(40 : ℚ), 10, 0] 10 1 10 0 ∧
    BeforeFirst [(0 : ℚ), 10, 40] (-5) ∧ PastLast [(0 : ℚ), 10, 40] 50 ∧
    levelValuesR rnd64 [0, 10, 40] [[1, 2, 3], [1, 2, 3], [5, 6, 7]] .extrapolate .mask [20, -5, 50] =
      .ok [⟨some (5254199565265579 / 2251799813685248), false⟩, ⟨some 1, false⟩, ⟨none, true⟩] ∧
    levelValuesR rnd64 [40, 10, 0] [[3, 2, 1], [3, 2, 1]] .mask .mask [10, 0] =
      .ok [⟨some 2, false⟩, ⟨none, true⟩] := by
  have hi : StrictIncr [(0 : ℚ), 10, 40] := by unfold StrictIncr; decide +kernel
  have hd : StrictDecr [(40 : ℚ), 10, 0] := by unfold StrictDecr; decide +kernel
  refine ⟨⟨.inl ⟨hi, rfl, rfl⟩, by decide, rfl, by decide, .inl rfl⟩,
    ⟨.inr ⟨hd, rfl, rfl⟩, by decide, rfl, by decide, .inl rfl⟩,
    ⟨rfl, rfl, Or.inl ⟨hi, by norm_num, by norm_num⟩⟩, ⟨rfl, rfl, Or.inr ⟨hd, by norm_num, by norm_num⟩⟩,
    ⟨0, rfl, .inl ⟨hi, by norm_num⟩⟩, ⟨40, rfl, .inl ⟨hi, by norm_num⟩⟩, by decide +kernel,
    by decide +kernel⟩

/-! ## C157: in a triangle -/

/-- With exact operations the value in a triangle is that of `UGeom`. -/
theorem triangleR_exact {m : UGeom.Mesh K} {data : List (Option K)} {ind : Int} {p q r : K × K}
    {u v w : K} (h : OnFace m data ind p q r u v w) (hi : ind ≠ -1) (hp : ProperTriangle p q r)
    (pt : K × K) :
    UGeom.interpNode m data ind pt = .ok (triangleR (fun x => x) p q r u v w pt) := by
  obtain ⟨a, b, c, hw, e⟩ := interpNode_on h hi hp pt
  have hd := UGeom.denom_ne hp
  obtain ⟨rfl, rfl, rfl⟩ := (UGeom.weighted_iff hd pt a b c).mp hw
  rw [e]
  have hd' : denomR (fun x => x) p q r = UGeom.denom p q r := rfl
  unfold triangleR
  simp only [divR, hd', hd, if_false]
  rfl

/-- C157. In a triangle whose coordinates extend no more than `S` and whose area is at least
`S² / 2κ`, the rounded result is within `80 u κ` times the largest vertex value of the exact linear
interpolation. -/
theorem C157_triangle_error (rnd : K → K) (u : K) (h : Accurate rnd u) (hu : u ≤ 1 / 16)
    (p q r : K × K) (S κ M : K) (hp : ProperTriangle p q r)
    (ex : |p.1 - q.1| ≤ S ∧ |q.1 - r.1| ≤ S ∧ |r.1 - p.1| ≤ S)
    (ey : |p.2 - q.2| ≤ S ∧ |q.2 - r.2| ≤ S ∧ |r.2 - p.2| ≤ S)
    (hκ : S * S ≤ κ * |(q.1 - p.1) * (r.2 - p.2) - (r.1 - p.1) * (q.2 - p.2)|)
    (huκ : u * κ ≤ 1 / 144) (v0 v1 v2 : K) (h0 : |v0| ≤ M) (h1 : |v1| ≤ M) (h2 : |v2| ≤ M)
    (pt : K × K) (a b c : K) (ha : 0 ≤ a) (hb : 0 ≤ b) (hc : 0 ≤ c) (hw : Weighted p q r pt a b c) :
    ∃ x, triangleR rnd p q r v0 v1 v2 pt = some x ∧
      |x - (a * v0 + b * v1 + c * v2)| ≤ 80 * (u * κ) * M := by
  have hd := UGeom.denom_ne hp
  have hw' := (UGeom.weighted_iff hd pt a b c).mp hw
  obtain ⟨w1, w2, w3⟩ := hw
  have hS : 0 ≤ S := le_trans (abs_nonneg _) ex.1
  have hden : (q.1 - p.1) * (r.2 - p.2) - (r.1 - p.1) * (q.2 - p.2) = UGeom.denom p q r := by
    unfold UGeom.denom; ring
  rw [hden] at hκ
  have hdp : 0 < |UGeom.denom p q r| := abs_pos.mpr hd
  -- a point of the triangle is no further from a vertex than the triangle extends
  have conv : ∀ x y z s w : K, |x - y| ≤ S → |y - z| ≤ S → |z - x| ≤ S → w = a * x + b * y + c * z →
      s = x ∨ s = z → |w - s| ≤ S := by
    intro x y z s w e1 e2 e3 ew hs
    rw [abs_le] at e1 e2 e3 ⊢
    have k1 : ∀ t : K, (∀ o : K, o = x ∨ o = y ∨ o = z → o - t ≤ S) → w - t ≤ S := by
      intro t ht
      have ex' := mul_le_mul_of_nonneg_left (ht x (Or.inl rfl)) ha
      have ey' := mul_le_mul_of_nonneg_left (ht y (Or.inr (Or.inl rfl))) hb
      have ez' := mul_le_mul_of_nonneg_left (ht z (Or.inr (Or.inr rfl))) hc
      have : w - t = a * (x - t) + b * (y - t) + c * (z - t) := by
        rw [ew]; linear_combination (-t) * (-w1)
      have hS1 : a * S + b * S + c * S = S := by rw [← add_mul, ← add_mul, w1, one_mul]
      linarith
    have k2 : ∀ t : K, (∀ o : K, o = x ∨ o = y ∨ o = z → -S ≤ o - t) → -S ≤ w - t := by
      intro t ht
      have ex' := mul_le_mul_of_nonneg_left (ht x (Or.inl rfl)) ha
      have ey' := mul_le_mul_of_nonneg_left (ht y (Or.inr (Or.inl rfl))) hb
      have ez' := mul_le_mul_of_nonneg_left (ht z (Or.inr (Or.inr rfl))) hc
      have : w - t = a * (x - t) + b * (y - t) + c * (z - t) := by
        rw [ew]; linear_combination (-t) * (-w1)
      have hS1 : a * S + b * S + c * S = S := by rw [← add_mul, ← add_mul, w1, one_mul]
      linarith
    constructor
    · refine k2 s ?_
      rintro o (rfl | rfl | rfl) <;> rcases hs with rfl | rfl <;> linarith
    · refine k1 s ?_
      rintro o (rfl | rfl | rfl) <;> rcases hs with rfl | rfl <;> linarith
  have cx1 := conv p.1 q.1 r.1 p.1 pt.1 ex.1 ex.2.1 ex.2.2 w2 (Or.inl rfl)
  have cx3 := conv p.1 q.1 r.1 r.1 pt.1 ex.1 ex.2.1 ex.2.2 w2 (Or.inr rfl)
  have cy1 := conv p.2 q.2 r.2 p.2 pt.2 ey.1 ey.2.1 ey.2.2 w3 (Or.inl rfl)
  have cy3 := conv p.2 q.2 r.2 r.2 pt.2 ey.1 ey.2.1 ey.2.2 w3 (Or.inr rfl)
  have exqp : |q.1 - p.1| ≤ S := by rw [abs_sub_comm]; exact ex.1
  have exrq : |r.1 - q.1| ≤ S := by rw [abs_sub_comm]; exact ex.2.1
  have eyqp : |q.2 - p.2| ≤ S := by rw [abs_sub_comm]; exact ey.1
  have eyrq : |r.2 - q.2| ≤ S := by rw [abs_sub_comm]; exact ey.2.1
  have ed : |denomR rnd p q r - UGeom.denom p q r| ≤ 9 * (u * (S * S)) :=
    cross_err h hu ey.2.2 exqp ex.2.2 eyqp
  have e1 : |num1R rnd q r pt - UGeom.num1 p q r pt| ≤ 9 * (u * (S * S)) :=
    cross_err h hu cy3 exrq cx3 eyrq
  have e2 : |num2R rnd p r pt - UGeom.num2 p q r pt| ≤ 9 * (u * (S * S)) :=
    cross_err h hu cx1 ey.2.2 cy1 ex.2.2
  have e3 : |num3R rnd p q pt - UGeom.num3 p q r pt| ≤ 9 * (u * (S * S)) :=
    cross_err h hu cy1 exqp cx1 eyqp
  have hκ2 : 1 / 2 ≤ κ := by
    have g : |UGeom.denom p q r| ≤ 2 * (S * S) := by
      unfold UGeom.denom
      have g1 := mul_bound ey.2.2 exqp
      have g2 := mul_bound ex.2.2 eyqp
      exact le_trans (abs_sub _ _) (by linarith)
    have : 1 * |UGeom.denom p q r| ≤ (2 * κ) * |UGeom.denom p q r| := by
      have := mul_le_mul_of_nonneg_left hκ (zero_le_two (α := K))
      linarith
    have := le_of_mul_le_mul_right this hdp
    linarith
  have le1 : ∀ x y z : K, 0 ≤ y → 0 ≤ z → x + y + z = 1 → x ≤ 1 := by intros; linarith
  have a1 : a ≤ 1 := le1 a b c hb hc w1
  have b1 : b ≤ 1 := by linarith
  have c1 : c ≤ 1 := by linarith
  obtain ⟨n0, f1⟩ := weight_err h e1 ed hd hκ hκ2 huκ (by rw [← hw'.1]; exact ha)
    (by rw [← hw'.1]; exact a1)
  obtain ⟨_, f2⟩ := weight_err h e2 ed hd hκ hκ2 huκ (by rw [← hw'.2.1]; exact hb)
    (by rw [← hw'.2.1]; exact b1)
  obtain ⟨_, f3⟩ := weight_err h e3 ed hd hκ hκ2 huκ (by rw [← hw'.2.2]; exact hc)
    (by rw [← hw'.2.2]; exact c1)
  rw [← hw'.1] at f1
  rw [← hw'.2.1] at f2
  rw [← hw'.2.2] at f3
  have hu2 : u ≤ 2 * (u * κ) := by
    have := mul_le_mul_of_nonneg_left hκ2 (acc_nonneg h)
    linarith
  have fin := sum_err h hu2 huκ h0 h1 h2 ha hb hc w1 f1 f2 f3
  have hv : triangleR rnd p q r v0 v1 v2 pt = some (sumR rnd v0 v1 v2
      (rnd (num1R rnd q r pt / denomR rnd p q r)) (rnd (num2R rnd p r pt / denomR rnd p q r))
      (rnd (num3R rnd p q pt / denomR rnd p q r))) := by
    unfold triangleR
    simp only [divR, n0, if_false]
  rw [show v0 * a + v1 * b + v2 * c = a * v0 + b * v1 + c * v2 by ring] at fin
  exact ⟨_, hv, fin⟩

/-- Double precision: a triangle no more than thirty times longer than it is wide (`κ = 32`). -/
example : ProperTriangle ((0, 0) : ℚ × ℚ) (32, 0) (0, 1) ∧
    (32 : ℚ) * 32 ≤ 32 * |(32 - 0) * (1 - 0) - (0 - 0) * (0 - 0)| ∧
    (2 : ℚ) ^ (-53 : ℤ) * 32 ≤ 1 / 144 ∧
    Weighted ((0, 0) : ℚ × ℚ) (32, 0) (0, 1) (32 / 3, 1 / 3) (1 / 3) (1 / 3) (1 / 3) ∧
    triangleR rnd64 ((0, 0) : ℚ × ℚ) (32, 0) (0, 1) 1 2 6 (10, 1 / 4) ≠ none := by
  refine ⟨?_, by norm_num, by norm_num, ?_, by decide +kernel⟩
  · unfold ProperTriangle TurnsLeft; left; norm_num
  · unfold Weighted; norm_num

/-- The shape matters: in a proper but very thin triangle no value is computed at all (the
denominator is rounded to zero). -/
theorem C157_thin_triangle :
    ∃ p q r : ℚ × ℚ, ProperTriangle p q r ∧
      (∀ x ∈ [p.1, p.2, q.1, q.2, r.1, r.2], Stored rnd64 x) ∧
      ∀ (v0 v1 v2 : ℚ) (pt : ℚ × ℚ), triangleR rnd64 p q r v0 v1 v2 pt = none := by
  refine ⟨(0, 0), (1 + 1 / 2 ^ 52, 1), (1 + 1 / 2 ^ 51, 1 + 1 / 2 ^ 52), ?_, ?_, ?_⟩
  · unfold ProperTriangle TurnsLeft; left; norm_num
  · unfold Stored; decide +kernel
  · intro v0 v1 v2 pt
    have : denomR rnd64 ((0, 0) : ℚ × ℚ) (1 + 1 / 2 ^ 52, 1) (1 + 1 / 2 ^ 51, 1 + 1 / 2 ^ 52) = 0 := by
      decide +kernel
    unfold triangleR
    simp only [this, divR, if_true]

/-! ## C158: at the nodes, and where all values are equal -/

/-- C158 as listed: at a node the value is the node's. -/
def C158_statement : Prop :=
  ∀ (p q r : ℚ × ℚ) (u v w : ℚ), ProperTriangle p q r →
    (∀ x ∈ [p.1, p.2, q.1, q.2, r.1, r.2, u, v, w], Stored rnd64 x) →
    denomR rnd64 p q r ≠ 0 →
    triangleR rnd64 p q r u v w p = some u ∧ triangleR rnd64 p q r u v w q = some v ∧
      triangleR rnd64 p q r u v w r = some w

/-- False at the node listed first: a node at latitude −0.1 gets two units in the last place less
than its value. -/
theorem C158_refuted : ¬ C158_statement := by
  intro h
  have := (h (0, rnd64 (-1 / 10)) (0, 0) (1, -1) 1 0 0
    (by unfold ProperTriangle TurnsRight TurnsLeft; decide +kernel) (by unfold Stored; decide +kernel)
    (by decide +kernel)).1
  have e : triangleR rnd64 ((0, rnd64 (-1 / 10)) : ℚ × ℚ) (0, 0) (1, -1) 1 0 0
      (0, rnd64 (-1 / 10)) = some (1 - 1 / 2 ^ 52) := by decide +kernel
  rw [e] at this
  exact absurd this (by decide +kernel)

theorem sumR_pick (rnd : K → K) (hr : Rounding rnd) (u v w : K) (hu : Stored rnd u)
    (hv : Stored rnd v) (hw : Stored rnd w) :
    sumR rnd u v w 1 0 0 = u ∧ sumR rnd u v w 0 1 0 = v ∧ sumR rnd u v w 0 0 1 = w := by
  unfold sumR Stored at *
  refine ⟨?_, ?_, ?_⟩ <;> simp [hr.zero, hu, hv, hw]

/-- At the nodes listed second and third the value is the node's, to the last digit, in every
triangle whose denominator is not rounded to zero. Missing: the node listed first, where it is false
(`C158_refuted`). -/
theorem C158_nodes_partial (rnd : K → K) (hr : Rounding rnd) (ho : OddRounding rnd)
    (p q r : K × K) (u v w : K) (hd : denomR rnd p q r ≠ 0) (hu : Stored rnd u) (hv : Stored rnd v)
    (hw : Stored rnd w) :
    triangleR rnd p q r u v w q = some v ∧ triangleR rnd p q r u v w r = some w := by
  obtain ⟨_, k2, k3⟩ := sumR_pick rnd hr u v w hu hv hw
  have hone : rnd (denomR rnd p q r / denomR rnd p q r) = 1 := by rw [div_self hd, hr.one]
  have hzero : rnd (0 / denomR rnd p q r) = 0 := by rw [zero_div, hr.zero]
  constructor
  · have n1 : num1R rnd q r q = 0 := by
      unfold num1R crossR
      rw [show q.2 - r.2 = -(r.2 - q.2) by ring, show q.1 - r.1 = -(r.1 - q.1) by ring, ho, ho,
        show -rnd (r.1 - q.1) * rnd (r.2 - q.2) = -rnd (r.2 - q.2) * rnd (r.1 - q.1) by ring,
        sub_self, hr.zero]
    have n2 : num2R rnd p r q = denomR rnd p q r := by
      unfold num2R denomR crossR
      rw [mul_comm (rnd (q.1 - p.1)), mul_comm (rnd (q.2 - p.2))]
    have n3 : num3R rnd p q q = 0 := by
      unfold num3R crossR
      rw [mul_comm (rnd (q.1 - p.1)), sub_self, hr.zero]
    unfold triangleR
    simp only [divR, hd, if_false, n1, n2, n3, hone, hzero, k2]
  · have n1 : num1R rnd q r r = 0 := by
      unfold num1R crossR
      simp [hr.zero]
    have n2 : num2R rnd p r r = 0 := by
      unfold num2R crossR
      rw [mul_comm (rnd (r.1 - p.1)), sub_self, hr.zero]
    have n3 : num3R rnd p q r = denomR rnd p q r := rfl
    unfold triangleR
    simp only [divR, hd, if_false, n1, n2, n3, hone, hzero, k3]

example : denomR rnd64 ((0, rnd64 (-1 / 10)) : ℚ × ℚ) (0, 0) (1, -1) ≠ 0 ∧
    triangleR rnd64 ((0, rnd64 (-1 / 10)) : ℚ × ℚ) (0, 0) (1, -1) 5 3 7 (0, 0) = some 3 ∧
    triangleR rnd64 ((0, rnd64 (-1 / 10)) : ℚ × ℚ) (0, 0) (1, -1) 5 3 7 (1, -1) = some 7 := by
  refine ⟨?_, ?_, ?_⟩ <;> decide +kernel

/-! ## C159: the same value everywhere -/

/-- C159 as listed: data that are the same everywhere give exactly that value, in time, in depth and
inside triangles. -/
def C159_statement : Prop :=
  ∀ (p q r pt : ℚ × ℚ) (v : ℚ), ProperTriangle p q r → InTriangle p q r pt →
    (∀ x ∈ [p.1, p.2, q.1, q.2, r.1, r.2, pt.1, pt.2, v], Stored rnd64 x) →
    denomR rnd64 p q r ≠ 0 → triangleR rnd64 p q r v v v pt = some v

/-- False inside triangles: with 1 at all three nodes the value is just below 1. -/
theorem C159_refuted : ¬ C159_statement := by
  intro h
  have := h (0, 2) (-2, 0) (2, -2) (-1, 0) 1
    (by unfold ProperTriangle TurnsRight TurnsLeft; decide +kernel)
    ⟨1 / 6, 2 / 3, 1 / 6, by norm_num, by norm_num, by norm_num, by norm_num, by norm_num, by norm_num⟩
    (by unfold Stored; decide +kernel) (by decide +kernel)
  have e : triangleR rnd64 ((0, 2) : ℚ × ℚ) (-2, 0) (2, -2) 1 1 1 (-1, 0) =
      some (1 - 1 / 2 ^ 53) := by decide +kernel
  rw [e] at this
  exact absurd this (by decide +kernel)

/-- In time: equal slices give exactly their value, at every time. Missing: triangles. -/
theorem C159_time_partial (rnd : K → K) (hr : Rounding rnd) (hpos : 0 < rnd (1 / 1000000))
    (times : List Int) (hs : StrictIncr times) (v : K) (hst : Stored rnd v) (i : Nat) (a b t : Int)
    (e : Bool) (ha : times[i]? = some a) (hb : times[i + 1]? = some b) (hat : a < t) (htb : t ≤ b) :
    atTimeR rnd times (List.replicate times.length v) t e = .ok v := by
  have hi : i + 1 < times.length := (List.getElem?_eq_some_iff.mp hb).1
  by_cases hl : times.getLast? = some t
  · refine (C153_ends rnd times _ (by simp) t v e).2 hl ?_ hs
    rw [List.getLast?_eq_getElem?, List.length_replicate, List.getElem?_replicate]
    rw [if_pos (by omega)]
  · rw [atTimeR_between hr hpos times hs _ i a b t v v e ha hb hat htb hl
      (by rw [List.getElem?_replicate, if_pos (by omega)])
      (by rw [List.getElem?_replicate, if_pos (by omega)])]
    unfold mixR Stored at *
    rw [sub_self, hr.zero, zero_mul, hr.zero, add_zero, hst]

/-- In depth: equal levels give exactly their value at every point that is not masked, between the
levels or extrapolated beyond the level listed first. -/
theorem C159_depth_partial (rnd : K → K) (hr : Rounding rnd) (hk : KeepsNonzero rnd)
    (levels : List K) (sbc bbc bFirst bLast : BC) (ds : List K) (v : K) (hst : Stored rnd v)
    (q : DepthQuery levels sbc bbc bFirst bLast
      (List.replicate ds.length (List.replicate levels.length v)) ds) :
    ∃ out, levelValuesR rnd levels (List.replicate ds.length (List.replicate levels.length v)) sbc bbc ds =
        .ok out ∧
      ∀ (i : Nat) (d : K), ds[i]? = some d →
        ((∃ j l0 l1, BetweenLevels levels d j l0 l1) ∨ (BeforeFirst levels d ∧ bFirst ≠ .mask)) →
        out[i]? = some ⟨some v, false⟩ := by
  obtain ⟨out, ho, _, h⟩ := levelValuesR_spec hk q
  refine ⟨out, ho, ?_⟩
  intro i d hd hw
  have hi : i < ds.length := (List.getElem?_eq_some_iff.mp hd).1
  have hc : (List.replicate ds.length (List.replicate levels.length v))[i]? =
      some (List.replicate levels.length v) := by rw [List.getElem?_replicate, if_pos hi]
  have same : ∀ a, mixR rnd v v a = v := by
    intro a
    unfold mixR Stored at *
    rw [sub_self, hr.zero, zero_mul, hr.zero, add_zero, hst]
  have hn := q.two
  rcases hw with ⟨j, l0, l1, hb⟩ | ⟨hb, hm⟩
  · have hj : j + 1 < levels.length := (List.getElem?_eq_some_iff.mp hb.2.1).1
    rw [(h i d _ hd hc).1 j l0 l1 v v hb (by rw [List.getElem?_replicate, if_pos (by omega)])
      (by rw [List.getElem?_replicate, if_pos (by omega)]), same]
  · rw [(h i d _ hd hc).2.1 v v hb hm
      (by rw [List.head?_eq_getElem?, List.getElem?_replicate, if_pos (by omega)])
      (by rw [List.getLast?_eq_getElem?, List.getElem?_replicate, List.length_replicate,
        if_pos (by omega)]), same]

/-- In triangles: within `80 u κ` times the value (C157 with equal values). -/
theorem C159_triangle_partial (rnd : K → K) (u : K) (h : Accurate rnd u) (hu : u ≤ 1 / 16)
    (p q r : K × K) (S κ v : K) (hp : ProperTriangle p q r)
    (ex : |p.1 - q.1| ≤ S ∧ |q.1 - r.1| ≤ S ∧ |r.1 - p.1| ≤ S)
    (ey : |p.2 - q.2| ≤ S ∧ |q.2 - r.2| ≤ S ∧ |r.2 - p.2| ≤ S)
    (hκ : S * S ≤ κ * |(q.1 - p.1) * (r.2 - p.2) - (r.1 - p.1) * (q.2 - p.2)|)
    (huκ : u * κ ≤ 1 / 144) (pt : K × K) (hin : InTriangle p q r pt) :
    ∃ x, triangleR rnd p q r v v v pt = some x ∧ |x - v| ≤ 80 * (u * κ) * |v| := by
  obtain ⟨a, b, c, ha, hb, hc, hw⟩ := hin
  obtain ⟨x, h1, h2⟩ := C157_triangle_error rnd u h hu p q r S κ |v| hp ex ey hκ huκ v v v (le_refl _)
    (le_refl _) (le_refl _) pt a b c ha hb hc hw
  refine ⟨x, h1, ?_⟩
  rwa [show a * v + b * v + c * v = v by rw [← add_mul, ← add_mul, hw.1, one_mul]] at h2

example : atTimeR rnd64 [0, 3000000] (List.replicate 2 (rnd64 (1 / 10))) 1000000 false =
      .ok (rnd64 (1 / 10)) ∧
    DepthQuery [(0 : ℚ), 10, 40] .extrapolate .mask .extrapolate .mask
      (List.replicate 2 (List.replicate 3 (rnd64 (1 / 10)))) [20, -5] ∧
    levelValuesR rnd64 [0, 10, 40] (List.replicate 2 (List.replicate 3 (rnd64 (1 / 10)))) .extrapolate .mask
        [20, -5] =
      .ok [⟨some (rnd64 (1 / 10)), false⟩, ⟨some (rnd64 (1 / 10)), false⟩] := by
  refine ⟨by decide +kernel, ⟨.inl ⟨by unfold StrictIncr; decide +kernel, rfl, rfl⟩, by decide, rfl,
    by simp, .inl rfl⟩, by decide +kernel⟩

end

end Verif
