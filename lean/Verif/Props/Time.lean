import Verif.Lemmas.Time
import Mathlib.Algebra.Order.Ring.Rat
import Mathlib.Data.Rat.Cast.Order
import Mathlib.Data.Rat.Floor

/-! # Properties C01-C06 and C08 of `gridded/time.py` -/

set_option autoImplicit false

namespace Verif
open TimeM Spec

variable {H : Type} (td : H → Int)

/-! ## C01 -/

/-- C01. Construction succeeds exactly for strictly increasing data (given that the other arguments
are usable: an origin needs a first time, a new offset needs an old one). -/
theorem C01_accepts_iff_strictly_increasing (data : List Int) (a : Args H)
    (horigin : a.origin = none ∨ data ≠ []) (hnew : a.newTz = none ∨ a.tz ≠ none) :
    (∃ t, construct td data a = .ok t) ↔ StrictIncr data := by
  rw [construct_eq]
  have h1 : ¬(a.origin ≠ none ∧ data = []) := by
    rintro ⟨h, h'⟩; rcases horigin with h2 | h2 <;> contradiction
  have h2 : ¬(a.newTz ≠ none ∧ a.tz = none) := by
    rintro ⟨h, h'⟩; rcases hnew with h2 | h2 <;> contradiction
  rw [if_neg h1, if_neg h2]
  by_cases hp : data.Pairwise (· < ·)
  · simp [hp, StrictIncr]
  · simp [hp, StrictIncr]

/-- C01. Anything else is refused with `TimeSeriesError`. -/
theorem C01_rejects_with_timeSeriesError (data : List Int) (a : Args H)
    (horigin : a.origin = none ∨ data ≠ []) (hnew : a.newTz = none ∨ a.tz ≠ none)
    (h : ¬ StrictIncr data) : construct td data a = .error .timeSeriesError := by
  rw [construct_eq]
  have h1 : ¬(a.origin ≠ none ∧ data = []) := by
    rintro ⟨h, h'⟩; rcases horigin with h2 | h2 <;> contradiction
  have h2 : ¬(a.newTz ≠ none ∧ a.tz = none) := by
    rintro ⟨h, h'⟩; rcases hnew with h2 | h2 <;> contradiction
  rw [if_neg h1, if_neg h2, if_neg (show ¬ data.Pairwise (· < ·) from h)]

/-- C01. Without options the data are stored as they are. -/
theorem C01_stores_data_unchanged (data : List Int) (tz : Option H) (t : TimeObj H)
    (h : construct td data { tz := tz } = .ok t) : t.data = data ∧ t.tz = tz := by
  rw [construct_eq] at h
  simp only [ne_eq, not_true_eq_false, false_and, if_false] at h
  split_ifs at h with hp
  cases h
  simp [shift]

/-- C01. With options every time is moved by one and the same amount: the move to the origin, plus
the change of offset, plus the displacement; nothing is dropped or reordered. -/
theorem C01_options_shift_uniformly (data : List Int) (a : Args H) (t : TimeObj H)
    (h : construct td data a = .ok t) :
    ∃ c, t.data = data.map (· + c) ∧
      ∃ c0 c1 c2, c = c0 + c1 + c2 ∧
        (a.origin = none → c0 = 0) ∧
        (∀ o x, a.origin = some o → data.head? = some x → x + c0 = o) ∧
        (a.newTz = none → c1 = 0) ∧
        (∀ n o, a.newTz = some n → a.tz = some o → c1 = td n - td o) ∧
        (a.disp = none → c2 = 0) ∧
        (∀ x, a.disp = some (.hours x) → c2 = td x) ∧
        (∀ x, a.disp = some (.delta x) → c2 = x) := by
  rw [construct_eq] at h
  split_ifs at h
  cases h
  refine ⟨_, rfl, _, _, _, rfl, ?_, ?_, ?_, ?_, ?_, ?_, ?_⟩
  · intro h; simp [h]
  · intro o x ho hx
    cases data with
    | nil => simp at hx
    | cons y ys => simp at hx; subst hx; simp [ho]
  · intro h; simp [h]
  · intro n o h1 h2; simp [h1, h2]
  · intro h; simp [h]
  · intro x h; simp [h, Displ.micros]
  · intro x h; simp [h, Displ.micros]

example : construct (fun h : Int => h * 3600000000) [0, 10, 25] { tz := some 0, newTz := some 2 }
    = .ok { data := [7200000000, 7200000010, 7200000025], tz := some 2, disp := none } := by
  decide +kernel
example : construct (fun h : Int => h * 3600000000) [0, 10, 10] {} = .error .timeSeriesError := by
  decide +kernel
example : construct (fun h : Int => h * 3600000000) [0, 10, 5] { origin := some 7 } = .error .timeSeriesError := by
  decide +kernel
example : construct (fun h : Int => h * 3600000000) [5, 10, 15] { origin := some 7, disp := some (.delta 100) }
    = .ok { data := [107, 112, 117], tz := none, disp := some 100 } := by decide +kernel

/-! ## C02 -/

/-- C02. Inside the range of a series with several times, `index_of` returns `i` exactly when `i`
is the first index whose time is at least `t`. -/
theorem C02_index_brackets (data : List Int) (hs : StrictIncr data) (hn : data.length ≠ 1)
    (lo hi t : Int) (h0 : data.head? = some lo) (h1 : data.getLast? = some hi)
    (ht : lo ≤ t ∧ t ≤ hi) (e : Bool) (i : Nat) :
    indexOf data t e = .ok i ↔ FirstAtLeast data t i := by
  have hf := firstAtLeast_searchsorted hs h1 ht.2
  rw [indexOf_eq t e h0 h1]
  simp only [ht, and_self, not_true_eq_false, and_false, if_false, hn]
  constructor
  · intro h; cases h; exact hf
  · intro h; rw [firstAtLeast_unique h hf]

/-- C02. In particular the index is 0 only at the first time, and otherwise `t` lies strictly after
the entry before and not after the entry itself. -/
theorem C02_index_neighbours (data : List Int) (hs : StrictIncr data) (hn : data.length ≠ 1)
    (lo hi t : Int) (h0 : data.head? = some lo) (h1 : data.getLast? = some hi)
    (ht : lo ≤ t ∧ t ≤ hi) (e : Bool) :
    ∃ i b, indexOf data t e = .ok i ∧ data[i]? = some b ∧ t ≤ b ∧
      (i = 0 ↔ t = lo) ∧ (∀ a, 0 < i → data[i - 1]? = some a → a < t) := by
  have hf := firstAtLeast_searchsorted hs h1 ht.2
  refine ⟨Np.searchsortedLeft data t, _, (C02_index_brackets data hs hn lo hi t h0 h1 ht e _).mpr hf,
    List.getElem?_eq_getElem hf.1, hf.2.2 _ _ (Nat.le_refl _) (List.getElem?_eq_getElem hf.1), ?_, ?_⟩
  · have hx : data[0]? = some lo := by rw [← List.head?_eq_getElem?]; exact h0
    constructor
    · intro hz
      have := hf.2.2 0 lo (by omega) hx
      omega
    · intro hz
      exact searchsorted_before hs h0 (by omega)
  · intro a hpos ha
    exact hf.2.1 _ _ (by omega) ha

/-- C02. With extrapolation, before the series gives 0 and after it gives the length. -/
theorem C02_index_extrapolated (data : List Int) (hs : StrictIncr data) (hn : data.length ≠ 1)
    (lo hi t : Int) (h0 : data.head? = some lo) (h1 : data.getLast? = some hi) :
    (t < lo → indexOf data t true = .ok 0) ∧ (hi < t → indexOf data t true = .ok data.length) := by
  rw [indexOf_eq t true h0 h1]
  simp only [hn, if_false, reduceCtorEq, false_and]
  exact ⟨fun h => by rw [searchsorted_before hs h0 (by omega)],
    fun h => by rw [searchsorted_after hs h1 h]⟩

/-- C02. A single-time series always gives index 0. -/
theorem C02_index_single (x t : Int) (e : Bool) : indexOf [x] t e = .ok 0 := by
  simp [indexOf]

example : StrictIncr [0, 10, 25, 31] ∧ indexOf [0, 10, 25, 31] 11 false = .ok 2 ∧
    indexOf [0, 10, 25, 31] 25 false = .ok 2 ∧ indexOf [0, 10, 25, 31] 99 true = .ok 4 := by
  refine ⟨by unfold StrictIncr; decide, by decide, by decide, by decide⟩

/-! ## C03 -/

/-- C03. `index_of` raises exactly for times outside the range, without extrapolation, on a series
with several times; the exception is `OutOfTimeRangeError`. -/
theorem C03_indexOf_raises_iff (data : List Int) (lo hi t : Int)
    (h0 : data.head? = some lo) (h1 : data.getLast? = some hi) (e : Bool) :
    (indexOf data t e = .error .outOfTimeRange ↔
      (e = false ∧ data.length ≠ 1 ∧ (t < lo ∨ hi < t))) ∧
    (¬(e = false ∧ data.length ≠ 1 ∧ (t < lo ∨ hi < t)) → ∃ i, indexOf data t e = .ok i) := by
  rw [indexOf_eq t e h0 h1]
  have hiff : (¬(lo ≤ t ∧ t ≤ hi)) ↔ (t < lo ∨ hi < t) := by omega
  simp only [hiff]
  by_cases h : e = false ∧ data.length ≠ 1 ∧ (t < lo ∨ hi < t)
  · rw [if_pos h]
    exact ⟨⟨fun _ => h, fun _ => rfl⟩, fun hc => absurd h hc⟩
  · rw [if_neg h]
    exact ⟨⟨fun hc => by simp at hc, fun hc => absurd hc h⟩, fun _ => ⟨_, rfl⟩⟩

/-- C03. `valid_time` raises exactly outside the range and `time_in_bounds` says so. -/
theorem C03_validTime_raises_iff (data : List Int) (lo hi t : Int)
    (h0 : data.head? = some lo) (h1 : data.getLast? = some hi) :
    (validTime data t = .error .outOfTimeRange ↔ (t < lo ∨ hi < t)) ∧
    (validTime data t = .ok () ↔ (lo ≤ t ∧ t ≤ hi)) ∧
    (timeInBounds data t = .ok true ↔ (lo ≤ t ∧ t ≤ hi)) ∧
    (timeInBounds data t = .ok false ↔ (t < lo ∨ hi < t)) := by
  rw [validTime_eq t h0 h1, timeInBounds_eq t h0 h1]
  by_cases h : lo ≤ t ∧ t ≤ hi
  · simp [h]
  · have : t < lo ∨ hi < t := by omega
    simp [h, this]

/-- C03. `interp_alpha` raises `OutOfTimeRangeError` exactly under the same condition. -/
theorem C03_interpAlpha_raises_iff {K : Type*} [Field K] [LinearOrder K] [IsStrictOrderedRing K]
    (rnd : K → K) (hr : Rounding rnd) (hpos : 0 < rnd (1 / 1000000))
    (data : List Int) (hs : StrictIncr data) (lo hi t : Int)
    (h0 : data.head? = some lo) (h1 : data.getLast? = some hi) (e : Bool) :
    (interpAlpha rnd data t e = .error .outOfTimeRange ↔
      (e = false ∧ data.length ≠ 1 ∧ (t < lo ∨ hi < t))) ∧
    (¬(e = false ∧ data.length ≠ 1 ∧ (t < lo ∨ hi < t)) →
      ∃ α, interpAlpha rnd data t e = .ok α ∧ 0 ≤ α ∧ α ≤ 1) := by
  obtain ⟨⟨hA, hB⟩, hC⟩ := C03_indexOf_raises_iff data lo hi t h0 h1 e
  by_cases hc : e = false ∧ data.length ≠ 1 ∧ (t < lo ∨ hi < t)
  · refine ⟨⟨fun _ => hc, fun _ => ?_⟩, fun h => absurd hc h⟩
    have hv := (C03_validTime_raises_iff data lo hi t h0 h1).1.mpr hc.2.2
    simp [interpAlpha, hc.1, hc.2.1, hv]
  · have key : ∃ α, interpAlpha rnd data t e = .ok α ∧ 0 ≤ α ∧ α ≤ 1 := by
      obtain ⟨i, hi'⟩ := hC hc
      rw [interpAlpha_of_index rnd t e i h0 h1 hi']
      by_cases h2 : (i : Int) > (data.length : Int) - 1
      · exact ⟨1, by rw [alphaFrom, if_pos h2], zero_le_one, le_refl _⟩
      by_cases h3 : i = 0
      · exact ⟨0, by rw [alphaFrom, if_neg h2, if_pos h3], le_refl _, zero_le_one⟩
      obtain ⟨k, rfl⟩ : ∃ k, i = k + 1 := ⟨i - 1, by omega⟩
      have hlen : data.length ≠ 1 := by omega
      have hile : k + 1 < data.length := by omega
      have hid : k + 1 = Np.searchsortedLeft data t := by
        rw [indexOf_eq t e h0 h1] at hi'
        split_ifs at hi'
        exact (Except.ok.inj hi').symm
      have hthi : t ≤ hi := by
        by_contra hgt
        have := searchsorted_after hs h1 (by omega : hi < t)
        omega
      have hf := firstAtLeast_searchsorted hs h1 hthi
      rw [← hid] at hf
      have hx1 : data[k + 1]? = some (data[k + 1]'hile) := List.getElem?_eq_getElem hile
      have hx0 : data[k]? = some (data[k]'(by omega)) := List.getElem?_eq_getElem (by omega)
      generalize data[k + 1]'hile = b at hx1
      generalize data[k]'(by omega) = a at hx0
      have hat : a < t := hf.2.1 _ _ (by omega) hx0
      have htb : t ≤ b := hf.2.2 _ _ (Nat.le_refl _) hx1
      obtain ⟨hden, hal⟩ := alphaFrom_eq (t := t) hr hpos hx0 hx1 (lt_of_lt_of_le hat htb)
      have hmill : (0 : K) < 1000000 := by norm_num
      have hnum0 : 0 ≤ rnd (((t - a : Int) : K) / 1000000) := by
        rw [← hr.zero]
        apply hr.mono
        apply div_nonneg _ (le_of_lt hmill)
        have : (0 : Int) ≤ t - a := by omega
        exact_mod_cast this
      have hnumle : rnd (((t - a : Int) : K) / 1000000) ≤ rnd (((b - a : Int) : K) / 1000000) := by
        apply hr.mono
        apply div_le_div_of_nonneg_right _ (le_of_lt hmill)
        have : t - a ≤ b - a := by omega
        exact_mod_cast this
      refine ⟨_, hal, ?_, ?_⟩
      · rw [← hr.zero]
        exact hr.mono _ _ (div_nonneg hnum0 (le_of_lt hden))
      · rw [← hr.one]
        exact hr.mono _ _ ((div_le_one hden).mpr hnumle)
    refine ⟨⟨fun h => ?_, fun h => absurd h hc⟩, fun _ => key⟩
    obtain ⟨α, hα, _⟩ := key
    rw [hα] at h
    cases h

example : indexOf [0, 10, 25] 26 false = .error .outOfTimeRange ∧ indexOf [0, 10, 25] 26 true = .ok 3 ∧
    indexOf [7] 26 false = .ok 0 ∧ validTime [7] 26 = .error .outOfTimeRange := by decide

/-! ## C04 -/

/-- C04. The weight is between 0 and 1 whenever one is returned, under any monotone rounding that
keeps 0 and 1 and does not flush one microsecond to zero. -/
theorem C04_alpha_in_unit_interval {K : Type*} [Field K] [LinearOrder K] [IsStrictOrderedRing K]
    (rnd : K → K) (hr : Rounding rnd) (hpos : 0 < rnd (1 / 1000000))
    (data : List Int) (hs : StrictIncr data) (hne : data ≠ []) (t : Int) (e : Bool) (α : K)
    (h : interpAlpha rnd data t e = .ok α) : 0 ≤ α ∧ α ≤ 1 := by
  obtain ⟨lo, h0⟩ : ∃ lo, data.head? = some lo := by
    cases data with
    | nil => exact absurd rfl hne
    | cons a _ => exact ⟨a, rfl⟩
  obtain ⟨hi, h1⟩ : ∃ hi, data.getLast? = some hi := ⟨_, List.getLast?_eq_some_getLast hne⟩
  obtain ⟨hA, hB⟩ := C03_interpAlpha_raises_iff rnd hr hpos data hs lo hi t h0 h1 e
  by_cases hc : e = false ∧ data.length ≠ 1 ∧ (t < lo ∨ hi < t)
  · rw [hA.mpr hc] at h; cases h
  · obtain ⟨β, hβ, h2⟩ := hB hc
    rw [hβ] at h; cases h; exact h2

/-- C04. Between two consecutive times `a < t ≤ b` the weight is the rounded quotient of the rounded
differences. -/
theorem C04_alpha_interval {K : Type*} [Field K] [LinearOrder K] [IsStrictOrderedRing K]
    (rnd : K → K) (hr : Rounding rnd) (hpos : 0 < rnd (1 / 1000000))
    (data : List Int) (hs : StrictIncr data) (i : Nat) (a b t : Int) (e : Bool)
    (ha : data[i]? = some a) (hb : data[i + 1]? = some b) (hat : a < t) (htb : t ≤ b) :
    interpAlpha rnd data t e =
      .ok (rnd (rnd (((t - a : Int) : K) / 1000000) / rnd (((b - a : Int) : K) / 1000000))) := by
  have hlen : i + 1 < data.length := (List.getElem?_eq_some_iff.mp hb).1
  have hne : data ≠ [] := by intro h; simp [h] at hlen
  obtain ⟨lo, h0⟩ : ∃ lo, data.head? = some lo := by
    cases data with
    | nil => exact absurd rfl hne
    | cons a _ => exact ⟨a, rfl⟩
  obtain ⟨hi, h1⟩ : ∃ hi, data.getLast? = some hi := ⟨_, List.getLast?_eq_some_getLast hne⟩
  have hle : data.Pairwise (· ≤ ·) := List.Pairwise.imp (fun h => le_of_lt h) hs
  have hlo : lo ≤ a := Np.pairwise_get?_le hle (Nat.zero_le i)
    (by rw [← List.head?_eq_getElem?]; exact h0) ha
  have hhi : b ≤ hi := Np.pairwise_get?_le hle (by omega : i + 1 ≤ data.length - 1) hb
    (by rw [← List.getLast?_eq_getElem?]; exact h1)
  have hf : FirstAtLeast data t (i + 1) := by
    refine ⟨hlen, ?_, ?_⟩
    · intro j x hj hx
      exact lt_of_le_of_lt (Np.pairwise_get?_le hle (by omega : j ≤ i) hx ha) hat
    · intro j x hj hx
      exact le_trans htb (Np.pairwise_get?_le hle hj hb hx)
  have hidx := (C02_index_brackets data hs (by omega) lo hi t h0 h1 (by omega) e (i + 1)).mpr hf
  rw [interpAlpha_of_index rnd t e _ h0 h1 hidx]
  exact (alphaFrom_eq hr hpos ha hb (lt_of_lt_of_le hat htb)).2

/-- C04. At the first time the weight is 0 and at every later data time it is 1, also under
rounding. -/
theorem C04_alpha_at_data_times {K : Type*} [Field K] [LinearOrder K] [IsStrictOrderedRing K]
    (rnd : K → K) (hr : Rounding rnd) (hpos : 0 < rnd (1 / 1000000))
    (data : List Int) (hs : StrictIncr data) (t : Int) (e : Bool) :
    (data.head? = some t → interpAlpha rnd data t e = .ok 0) ∧
    (∀ i, data[i + 1]? = some t → interpAlpha rnd data t e = .ok 1) := by
  constructor
  · intro h0
    have hne : data ≠ [] := by intro h; simp [h] at h0
    obtain ⟨hi, h1⟩ : ∃ hi, data.getLast? = some hi := ⟨_, List.getLast?_eq_some_getLast hne⟩
    have hle := head_le_last hs h0 h1
    have hidx : indexOf data t e = .ok 0 := by
      rw [indexOf_eq t e h0 h1, searchsorted_before hs h0 (le_refl _)]
      simp [hle]
    have hlen : 0 < data.length := List.length_pos_iff.mpr hne
    rw [interpAlpha_of_index rnd t e _ h0 h1 hidx, alphaFrom, if_neg (by omega), if_pos rfl]
  · intro i hb
    have hlen : i + 1 < data.length := (List.getElem?_eq_some_iff.mp hb).1
    have ha : data[i]? = some (data[i]'(by omega)) := List.getElem?_eq_getElem (by omega)
    have hlt := Np.pairwise_get?_lt hs (Nat.lt_succ_self i) ha hb
    rw [C04_alpha_interval rnd hr hpos data hs i _ t t e ha hb hlt (le_refl _)]
    rw [div_self, hr.one]
    apply ne_of_gt
    refine lt_of_lt_of_le hpos (hr.mono _ _ ?_)
    have : (1 : K) ≤ ((t - data[i]'(by omega) : Int) : K) := by
      have : (1 : Int) ≤ t - data[i]'(by omega) := by omega
      exact_mod_cast this
    exact div_le_div_of_nonneg_right this (by norm_num)

/-- C04. In exact arithmetic the weight places `t` between its neighbours. -/
theorem C04_alpha_reconstructs_time {K : Type*} [Field K] [LinearOrder K] [IsStrictOrderedRing K]
    (data : List Int) (hs : StrictIncr data) (i : Nat) (a b t : Int) (e : Bool) (α : K)
    (ha : data[i]? = some a) (hb : data[i + 1]? = some b) (hat : a < t) (htb : t ≤ b)
    (h : interpAlpha (fun x => x) data t e = .ok α) :
    (a : K) + α * ((b : K) - (a : K)) = (t : K) := by
  rw [C04_alpha_interval (fun x => x) Rounding.id (by norm_num) data hs i a b t e ha hb hat htb] at h
  cases h
  have hba : ((b : K) - (a : K)) ≠ 0 := by
    have : (a : K) < (b : K) := by exact_mod_cast lt_of_lt_of_le hat htb
    exact ne_of_gt (sub_pos.mpr this)
  push_cast
  field_simp
  ring

/-- C04. Outside the range, with extrapolation, alpha is 0 before the first time and 1 after the
last; on a series with one time it is always 0. -/
theorem C04_alpha_extrapolated {K : Type*} [Field K] [LinearOrder K] [IsStrictOrderedRing K]
    (rnd : K → K) (data : List Int) (hs : StrictIncr data) (lo hi t : Int)
    (h0 : data.head? = some lo) (h1 : data.getLast? = some hi) :
    (t < lo → interpAlpha rnd data t true = .ok 0) ∧
    (hi < t → data.length ≠ 1 → interpAlpha rnd data t true = .ok 1) ∧
    (∀ e, data.length = 1 → interpAlpha rnd data t e = .ok 0) := by
  have hne : data ≠ [] := by intro h; simp [h] at h0
  have hlen : 0 < data.length := List.length_pos_iff.mpr hne
  refine ⟨?_, ?_, ?_⟩
  · intro h
    have hidx : indexOf data t true = .ok 0 := by
      by_cases hn : data.length = 1
      · rw [indexOf_eq t true h0 h1]; simp [hn]
      · exact (C02_index_extrapolated data hs hn lo hi t h0 h1).1 h
    rw [interpAlpha_of_index rnd t true _ h0 h1 hidx, alphaFrom, if_neg (by omega), if_pos rfl]
  · intro h hn
    have hidx := (C02_index_extrapolated data hs hn lo hi t h0 h1).2 h
    rw [interpAlpha_of_index rnd t true _ h0 h1 hidx, alphaFrom, if_pos (by omega)]
  · intro e hn
    have hidx : indexOf data t e = .ok 0 := by
      rw [indexOf_eq t e h0 h1]; simp [hn]
    rw [interpAlpha_of_index rnd t e _ h0 h1 hidx, alphaFrom, if_neg (by omega), if_pos rfl]

example : interpAlpha (fun x : ℚ => x) [0, 10, 25] 16 false = .ok (2 / 5) := by decide +kernel
example : interpAlpha (fun x : ℚ => x) [0, 10, 25] 30 true = .ok 1 ∧
    interpAlpha (fun x : ℚ => x) [0, 10, 25] (-3) true = .ok 0 := by decide +kernel
/-- A rounding other than the identity that meets the hypotheses: round down to multiples of
`2^-20`. -/
example : Rounding (fun x : ℚ => (⌊x * 1048576⌋ : ℚ) / 1048576) ∧
    0 < (fun x : ℚ => (⌊x * 1048576⌋ : ℚ) / 1048576) (1 / 1000000) := by
  refine ⟨⟨?_, ?_, ?_⟩, ?_⟩
  · intro x y h
    apply div_le_div_of_nonneg_right _ (by norm_num)
    exact_mod_cast Int.floor_le_floor (by linarith)
  · norm_num
  · norm_num
  · have : ⌊(1 : ℚ) / 1000000 * 1048576⌋ = 1 := by decide +kernel
    simp only [this]
    norm_num

/-! ## C05 -/

/-- C05. Changing a known offset keeps every instant (local time minus offset). -/
theorem C05_instants_preserved (t : TimeObj H) (a b : H) (h : t.tz = some a) :
    (setTz td (some b) t).data.map (· - td b) = t.data.map (· - td a) ∧
      (setTz td (some b) t).tz = some b := by
  constructor
  · rw [setTz_data td t a b h]
    simp only [shift, List.map_map]
    apply List.map_congr_left
    intro x _
    simp only [Function.comp]
    omega
  · simp [setTz, h]

/-- C05. After any number of offset changes the data depend only on the last offset: local time is
the original instant plus the final offset. -/
theorem C05_path_independent (t : TimeObj H) (a : H) (h : t.tz = some a) (os : List H) :
    (run td t (os.map fun o => .setTz (some o))).1.data =
      t.data.map (fun x => x - td a + td (os.getLast?.getD a)) ∧
    (run td t (os.map fun o => .setTz (some o))).1.tz = some (os.getLast?.getD a) := by
  induction os generalizing t a with
  | nil => simp [run, h]
  | cons o os ih =>
    have h1 := C05_instants_preserved td t a o h
    have := ih (setTz td (some o) t) o h1.2
    simp only [List.map_cons, run, step]
    rw [this.1, this.2, setTz_data td t a o h]
    have hl : ((o :: os).getLast?.getD a) = (os.getLast?.getD o) := by
      cases os <;> simp [List.getLast?_cons]
    rw [hl]
    refine ⟨?_, rfl⟩
    simp only [shift, List.map_map]
    apply List.map_congr_left
    intro x _
    simp only [Function.comp]
    omega

/-- C05. Returning to the first offset restores the first data. -/
theorem C05_round_trip (t : TimeObj H) (a : H) (h : t.tz = some a) (os : List H) :
    (run td t ((os ++ [a]).map fun o => .setTz (some o))).1.data = t.data := by
  rw [(C05_path_independent td t a h _).1]
  simp

/-- C05. From or to an unknown offset nothing moves; only the label changes. -/
theorem C05_none_relabels (t : TimeObj H) (o : Option H) (h : t.tz = none ∨ o = none) :
    (setTz td o t).data = t.data ∧ (setTz td o t).tz = o := by
  rcases t with ⟨d, tz, dp⟩
  rcases h with h | h
  · simp only at h; subst h; cases o <;> simp [setTz]
  · subst h; cases tz <;> simp [setTz]

example : (run (fun h : Int => h * 3600000000) ⟨[0, 10], some 2, none⟩
    [.setTz (some (-7)), .setTz (some 5)]).1 = ⟨[10800000000, 10800000010], some 5, none⟩ := by
  decide

/-! ## C06 -/

/-- Specification: the first actual displacement in a history, in microseconds. -/
def Spec.firstDisplacement (td : H → Int) : List (Op H) → Option Int
  | [] => none
  | .setDisp (some (.hours h)) :: _ => some (td h)
  | .setDisp (some (.delta d)) :: _ => some d
  | _ :: ops => Spec.firstDisplacement td ops

/-- Specification: the offset assignments of a history. -/
def Spec.offsetOps : List (Op H) → List (Op H)
  | [] => []
  | .setTz o :: ops => .setTz o :: Spec.offsetOps ops
  | .setDisp _ :: ops => Spec.offsetOps ops

/-- Once a displacement is set every further assignment fails and changes nothing. -/
theorem C06_settable_once (t : TimeObj H) (d : Int) (h : t.disp = some d) (x : Option (Displ H)) :
    step td t (.setDisp x) = (t, some .attributeError) := by
  simp [step, setDisp, h]

/-- C06. Whatever the history of assignments on an object without displacement, the final data are
those of the offset assignments alone plus the one displacement that took effect. -/
theorem C06_displacement_applied_once (t : TimeObj H) (h : t.disp = none) (ops : List (Op H)) :
    (run td t ops).1.disp = Spec.firstDisplacement td ops ∧
    (run td t ops).1.tz = (run td t (Spec.offsetOps ops)).1.tz ∧
    (run td t ops).1.data = (run td t (Spec.offsetOps ops)).1.data.map
      (· + (Spec.firstDisplacement td ops).getD 0) := by
  -- after a displacement only offset assignments matter
  have comm : ∀ (ops : List (Op H)) (t : TimeObj H) (c : Int),
      (run td { t with data := shift c t.data } (Spec.offsetOps ops)).1.tz
        = (run td t (Spec.offsetOps ops)).1.tz ∧
      (run td { t with data := shift c t.data } (Spec.offsetOps ops)).1.data
        = shift c (run td t (Spec.offsetOps ops)).1.data := by
    intro ops
    induction ops with
    | nil => intro t c; exact ⟨rfl, rfl⟩
    | cons op ops ih =>
      intro t c
      cases op with
      | setDisp d => exact ih t c
      | setTz o =>
        simp only [Spec.offsetOps, run, step]
        have : setTz td o { t with data := shift c t.data } =
            { setTz td o t with data := shift c (setTz td o t).data } := by
          rcases t with ⟨dt, tz, dp⟩
          cases tz <;> cases o <;> simp [setTz, shift_shift]
          congr 1; omega
        rw [this]
        exact ih _ c
  have dispIrrel : ∀ (ops : List (Op H)) (t : TimeObj H) (dp : Option Int),
      (run td { t with disp := dp } (Spec.offsetOps ops)).1.tz
        = (run td t (Spec.offsetOps ops)).1.tz ∧
      (run td { t with disp := dp } (Spec.offsetOps ops)).1.data
        = (run td t (Spec.offsetOps ops)).1.data := by
    intro ops
    induction ops with
    | nil => intro t c; exact ⟨rfl, rfl⟩
    | cons op ops ih =>
      intro t dp
      cases op with
      | setDisp d => exact ih t dp
      | setTz o =>
        simp only [Spec.offsetOps, run, step]
        have : setTz td o { t with disp := dp } = { setTz td o t with disp := dp } := by
          rcases t with ⟨dt, tz, dp⟩
          cases tz <;> cases o <;> simp [setTz]
        rw [this]
        exact ih _ dp
  have setOnce : ∀ (ops : List (Op H)) (t : TimeObj H) (d : Int), t.disp = some d →
      (run td t ops).1.disp = some d ∧
      (run td t ops).1.tz = (run td t (Spec.offsetOps ops)).1.tz ∧
      (run td t ops).1.data = (run td t (Spec.offsetOps ops)).1.data := by
    intro ops
    induction ops with
    | nil => intro t d hd; exact ⟨hd, rfl, rfl⟩
    | cons op ops ih =>
      intro t d hd
      cases op with
      | setDisp x =>
        simp only [run, C06_settable_once td t d hd x, Spec.offsetOps]
        exact ih t d hd
      | setTz o =>
        simp only [run, step, Spec.offsetOps]
        apply ih
        rcases t with ⟨dt, tz, dp⟩
        cases tz <;> cases o <;> simpa [setTz] using hd
  have setSome : ∀ (ops : List (Op H)) (t : TimeObj H) (x : Displ H) (c : Int), t.disp = none →
      x.micros td = c →
      (run td t (.setDisp (some x) :: ops)).1.disp = some c ∧
      (run td t (.setDisp (some x) :: ops)).1.tz = (run td t (Spec.offsetOps ops)).1.tz ∧
      (run td t (.setDisp (some x) :: ops)).1.data
        = (run td t (Spec.offsetOps ops)).1.data.map (· + c) := by
    intro ops t x c ht hc
    have hs : step td t (.setDisp (some x)) =
        ({ t with data := shift c t.data, disp := some c }, none) := by
      simp [step, setDisp, ht, hc]
    simp only [run, hs]
    obtain ⟨a1, a2, a3⟩ := setOnce ops { t with data := shift c t.data, disp := some c } c rfl
    obtain ⟨b1, b2⟩ := dispIrrel ops { t with data := shift c t.data } (some c)
    obtain ⟨c1, c2⟩ := comm ops t c
    refine ⟨a1, ?_, ?_⟩
    · rw [a2]; exact b1.trans c1
    · rw [a3]; exact b2.trans c2
  induction ops generalizing t with
  | nil => simp [run, Spec.firstDisplacement, Spec.offsetOps, h]
  | cons op ops ih =>
    cases op with
    | setTz o =>
      simp only [run, step, Spec.firstDisplacement, Spec.offsetOps]
      apply ih
      rcases t with ⟨dt, tz, dp⟩
      cases tz <;> cases o <;> simpa [setTz] using h
    | setDisp d =>
      cases d with
      | none =>
        have hs : step td t (.setDisp none) = (t, none) := by
          rcases t with ⟨dt, tz, dp⟩
          simp only at h
          subst h
          simp [step, setDisp]
        simp only [run, hs, Spec.firstDisplacement, Spec.offsetOps]
        exact ih t h
      | some x =>
        cases x with
        | hours q =>
          have := setSome ops t (.hours q) (td q) h rfl
          simpa [Spec.firstDisplacement, Spec.offsetOps] using this
        | delta q =>
          have := setSome ops t (.delta q) q h rfl
          simpa [Spec.firstDisplacement, Spec.offsetOps] using this

/-- C06. The assignment at a given point of a history fails exactly when it assigns a displacement
and an earlier one already took effect. -/
theorem C06_fails_iff_already_set (t : TimeObj H) (h : t.disp = none) (ops : List (Op H))
    (op : Op H) :
    (step td (run td t ops).1 op).2 = some .attributeError ↔
      (∃ d, op = .setDisp d) ∧ Spec.firstDisplacement td ops ≠ none := by
  have hd := (C06_displacement_applied_once td t h ops).1
  cases op with
  | setTz o => simp [step]
  | setDisp d =>
    cases hf : Spec.firstDisplacement td ops with
    | none =>
      rw [hf] at hd
      cases d <;> simp [step, setDisp, hd]
    | some c =>
      rw [hf] at hd
      simp [step, setDisp, hd]

example : run (fun h : Int => h * 3600000000) ⟨[0, 10], some 2, none⟩
    [.setDisp (some (.delta 5)), .setTz (some 3), .setDisp (some (.hours 1)), .setDisp none] =
    (⟨[3600000005, 3600000015], some 3, some 5⟩,
      [none, none, some .attributeError, some .attributeError]) := by decide

/-! ## C08 -/

/-- C08. The offset in force after loading: none for `'naive'`, the caller's if given, otherwise the
one in the units, otherwise zero. -/
theorem C08_offset_resolution (zero : H) (iso : H → String) (arg : TzArg H)
    (parsed : Option H × Option String) (user : Option String) :
    (arg = .naive → (resolveTz zero iso arg parsed user).1 = none) ∧
    (∀ h, arg = .given h → (resolveTz zero iso arg parsed user).1 = some h) ∧
    (∀ p, arg = .absent → parsed.1 = some p → (resolveTz zero iso arg parsed user).1 = some p) ∧
    (arg = .absent → parsed.1 = none → (resolveTz zero iso arg parsed user).1 = some zero) ∧
    (∀ n, user = some n → (resolveTz zero iso arg parsed user).2 = some n) ∧
    (user = none → arg = .naive →
      (resolveTz zero iso arg parsed user).2 = some "No Timezone Specified") ∧
    (user = none → arg = .absent → parsed.1 = none →
      (resolveTz zero iso arg parsed user).2 = some "UTC") ∧
    (∀ h, user = none → arg = .given h →
      (resolveTz zero iso arg parsed user).2 = some (iso h)) := by
  refine ⟨?_, ?_, ?_, ?_, ?_, ?_, ?_, ?_⟩
  · rintro rfl; rfl
  · rintro h rfl; rfl
  · rintro p rfl hp; simp [resolveTz, hp]
  · rintro rfl hp; simp [resolveTz, hp]
  · rintro n rfl; simp [resolveTz]
  · rintro rfl rfl; rfl
  · rintro rfl rfl hp; simp [resolveTz, hp]
  · rintro h rfl rfl; rfl

/-- C08. Loading without a new offset keeps the file's times; with one, every time moves by the
difference of the offsets and the new offset is recorded. -/
theorem C08_loaded_data (zero : H) (iso : H → String) (data : List Int) (arg : TzArg H)
    (parsed : Option H × Option String) (user : Option String) (newTz : Option H)
    (t : TimeObj H) (name : Option String)
    (h : fromNetCDF td zero iso data arg parsed user newTz none none = .ok (t, name)) :
    (newTz = none → t.data = data ∧ t.tz = (resolveTz zero iso arg parsed user).1) ∧
    (∀ n, newTz = some n → t.tz = some n ∧
      ∃ o, (resolveTz zero iso arg parsed user).1 = some o ∧
        t.data.map (· - td n) = data.map (· - td o)) := by
  unfold fromNetCDF at h
  simp only at h
  generalize hr : resolveTz zero iso arg parsed user = r at h ⊢
  obtain ⟨off, nm⟩ := r
  simp only [construct_eq] at h
  split at h
  · cases h
  · rename_i t' ht'
    split_ifs at ht' with h1 h2 h3
    cases ht'
    cases h
    constructor
    · rintro rfl
      simp [shift]
    · rintro n rfl
      cases off with
      | none => simp at h2
      | some o =>
        refine ⟨rfl, o, rfl, ?_⟩
        simp only [shift, List.map_map]
        apply List.map_congr_left
        intro x _
        simp only [Function.comp]
        omega

/-- C08. A new offset for a naive series is refused. -/
theorem C08_naive_new_offset_refused (zero : H) (iso : H → String) (data : List Int)
    (parsed : Option H × Option String) (user : Option String) (n : H) (disp : Option (Displ H)) :
    fromNetCDF td zero iso data .naive parsed user (some n) none disp = .error .valueError := by
  simp [fromNetCDF, resolveTz, construct_eq]

example : fromNetCDF (fun h : Int => h * 3600000000) 0 (fun _ => "?") [0, 10] .absent
    (some (-7), some "-07:00") none (some (-3)) none none
    = .ok (⟨[14400000000, 14400000010], some (-3), none⟩, some "-07:00") := by decide +kernel

end Verif
