import Verif.Model.Time
import Verif.Lemmas.Np
import Verif.Spec.Order
import Mathlib.Tactic.Linarith
import Mathlib.Tactic.FieldSimp
import Mathlib.Tactic.NormNum
import Mathlib.Tactic.Ring
import Mathlib.Algebra.Order.Ring.Cast

/-! Helper lemmas about the `Time` model. -/

set_option autoImplicit false

namespace Verif.TimeM
open Verif.Spec

variable {H : Type}

theorem shift_shift (a b : Int) (l : List Int) : shift a (shift b l) = shift (b + a) l := by
  simp [shift, Function.comp_def, Int.add_assoc]

theorem shift_zero (l : List Int) : shift 0 l = l := by simp [shift]

theorem shift_length (a : Int) (l : List Int) : (shift a l).length = l.length := by simp [shift]

theorem shift_strictIncr (a : Int) (l : List Int) :
    (shift a l).Pairwise (· < ·) ↔ l.Pairwise (· < ·) := by
  simp [shift, List.pairwise_map]

theorem checks_iff (l : List Int) :
    (isAscending l = true ∧ hasDuplicates l = false) ↔ l.Pairwise (· < ·) := by
  simp only [isAscending, hasDuplicates, decide_eq_true_eq, Np.sort_eq_self_iff,
    Bool.and_eq_false_iff, decide_eq_false_iff_not, ne_eq, Decidable.not_not]
  constructor
  · rintro ⟨h1, h2 | h2⟩
    · rw [Np.unique, Np.sort_of_pairwise h1] at h2
      exact (Np.dedupAdj_length_eq_iff h1).mp h2
    · obtain ⟨a, rfl⟩ := List.length_eq_one_iff.mp h2
      simp
  · intro h
    have hle : l.Pairwise (· ≤ ·) := h.imp (fun h => le_of_lt h)
    refine ⟨hle, Or.inl ?_⟩
    rw [Np.unique, Np.sort_of_pairwise hle]
    exact (Np.dedupAdj_length_eq_iff hle).mpr h

theorem minTime_of_head {l : List Int} {x : Int} (h : l.head? = some x) : minTime l = .ok x := by
  cases l with
  | nil => simp at h
  | cons a t => simp at h; subst h; simp [minTime, Np.pyGet]

theorem maxTime_of_last {l : List Int} {x : Int} (h : l.getLast? = some x) : maxTime l = .ok x :=
  Np.pyGet_neg_one h

theorem head_le_last {l : List Int} {lo hi : Int} (hs : l.Pairwise (· < ·))
    (h0 : l.head? = some lo) (h1 : l.getLast? = some hi) : lo ≤ hi := by
  cases l with
  | nil => simp at h0
  | cons a t =>
    simp at h0; subst h0
    have hm := List.mem_of_getLast? h1
    rcases List.mem_cons.mp hm with rfl | hm
    · exact le_refl _
    · exact le_of_lt ((List.pairwise_cons.mp hs).1 _ hm)

theorem timeInBounds_eq {l : List Int} {lo hi : Int} (t : Int)
    (h0 : l.head? = some lo) (h1 : l.getLast? = some hi) :
    timeInBounds l t = .ok (decide (lo ≤ t ∧ t ≤ hi)) := by
  simp only [timeInBounds, minTime_of_head h0, maxTime_of_last h1]
  split
  · rename_i h
    congr 1
    symm
    simp only [decide_eq_false_iff_not]
    omega
  · rename_i h
    congr 1
    by_cases hc : hi < t
    · simp [hc]
    · simp [hc]; omega

theorem validTime_eq {l : List Int} {lo hi : Int} (t : Int)
    (h0 : l.head? = some lo) (h1 : l.getLast? = some hi) :
    validTime l t = if lo ≤ t ∧ t ≤ hi then .ok () else .error .outOfTimeRange := by
  simp only [validTime, timeInBounds_eq t h0 h1]
  by_cases h : lo ≤ t ∧ t ≤ hi <;> simp [h]

theorem indexOf_eq {l : List Int} {lo hi : Int} (t : Int) (e : Bool)
    (h0 : l.head? = some lo) (h1 : l.getLast? = some hi) :
    indexOf l t e = if e = false ∧ l.length ≠ 1 ∧ ¬(lo ≤ t ∧ t ≤ hi) then .error .outOfTimeRange
      else .ok (if l.length = 1 then 0 else Np.searchsortedLeft l t) := by
  simp only [indexOf, validTime_eq t h0 h1]
  by_cases hl : l.length = 1
  · simp [hl]
  · cases e
    · by_cases h : lo ≤ t ∧ t ≤ hi <;> simp [h, hl]
    · simp [hl]

theorem firstAtLeast_searchsorted {l : List Int} {hi : Int} {t : Int}
    (hs : l.Pairwise (· < ·)) (h1 : l.getLast? = some hi) (hhi : t ≤ hi) :
    FirstAtLeast l t (Np.searchsortedLeft l t) := by
  obtain ⟨k1, k2, k3⟩ := Np.searchsortedLeft_spec (hs.imp (fun h => le_of_lt h)) t
  refine ⟨?_, k2, k3⟩
  rcases Nat.lt_or_eq_of_le k1 with h | h
  · exact h
  · exfalso
    have hl : l[l.length - 1]? = some hi := by rw [← List.getLast?_eq_getElem?]; exact h1
    have hpos : 0 < l.length := by
      cases l with
      | nil => simp at h1
      | cons a t => simp
    have := k2 (l.length - 1) hi (by omega) hl
    omega

theorem firstAtLeast_unique {l : List Int} {t : Int} {i j : Nat} (hi : FirstAtLeast l t i)
    (hj : FirstAtLeast l t j) : i = j := by
  rcases Nat.lt_trichotomy i j with h | h | h
  · have hx : l[i]? = some (l[i]'hi.1) := List.getElem?_eq_getElem hi.1
    have := hj.2.1 i _ h hx
    have := hi.2.2 i _ (le_refl _) hx
    omega
  · exact h
  · have hx : l[j]? = some (l[j]'hj.1) := List.getElem?_eq_getElem hj.1
    have := hi.2.1 j _ h hx
    have := hj.2.2 j _ (le_refl _) hx
    omega

theorem searchsorted_before {l : List Int} {lo : Int} {t : Int} (hs : l.Pairwise (· < ·))
    (h0 : l.head? = some lo) (ht : t ≤ lo) : Np.searchsortedLeft l t = 0 := by
  obtain ⟨k1, k2, k3⟩ := Np.searchsortedLeft_spec (hs.imp (fun h => le_of_lt h)) t
  by_contra hne
  have hx : l[0]? = some lo := by rw [← List.head?_eq_getElem?]; exact h0
  have := k2 0 lo (by omega) hx
  omega

theorem searchsorted_after {l : List Int} {hi : Int} {t : Int} (hs : l.Pairwise (· < ·))
    (h1 : l.getLast? = some hi) (ht : hi < t) : Np.searchsortedLeft l t = l.length := by
  obtain ⟨k1, k2, k3⟩ := Np.searchsortedLeft_spec (hs.imp (fun h => le_of_lt h)) t
  by_contra hne
  have hx : l[l.length - 1]? = some hi := by rw [← List.getLast?_eq_getElem?]; exact h1
  have := k3 (l.length - 1) hi (by omega) hx
  omega

theorem setTz_data (td : H → Int) (t : TimeObj H) (a b : H) (h : t.tz = some a) :
    (setTz td (some b) t).data = shift (td b - td a) t.data := by
  simp only [setTz, h, shift_shift]
  congr 1
  omega

/-- Unfolded form of the constructor. -/
theorem construct_eq (td : H → Int) (data : List Int) (a : Args H) :
    construct td data a =
      if a.origin ≠ none ∧ data = [] then .error .indexError
      else if a.newTz ≠ none ∧ a.tz = none then .error .valueError
      else if data.Pairwise (· < ·) then
        .ok { data := shift ((match a.origin, data with
                | some o, x :: _ => o - x
                | _, _ => 0) + (match a.newTz, a.tz with
                | some n, some o => td n - td o
                | _, _ => 0) + (match a.disp with
                | some d => d.micros td
                | none => 0)) data
              tz := match a.newTz with
                | some n => some n
                | none => a.tz
              disp := a.disp.map (Displ.micros td) }
      else .error .timeSeriesError := by
  have fin : ∀ (d0 : List Int) (tz : Option H) (dp : Option Int) (c : Int), d0 = shift c data →
      (if !isAscending d0 then Except.error Err.timeSeriesError
        else if hasDuplicates d0 then .error .timeSeriesError
        else .ok ({ data := d0, tz := tz, disp := dp } : TimeObj H)) =
      if data.Pairwise (· < ·) then .ok { data := shift c data, tz := tz, disp := dp }
      else .error .timeSeriesError := by
    intro d0 tz dp c hd
    have hc := checks_iff d0
    rw [hd, shift_strictIncr] at hc
    rw [hd]
    by_cases hp : data.Pairwise (· < ·)
    · have := hc.mpr hp
      simp [this.1, this.2, hp]
    · simp only [hp, if_false]
      by_cases h1 : isAscending (shift c data) = true
      · have h2 : hasDuplicates (shift c data) = true := by
          by_contra hne
          exact hp (hc.mp ⟨h1, by simpa using hne⟩)
        simp [h1, h2]
      · simp [h1]
  obtain ⟨tz, newTz, origin, disp⟩ := a
  simp only [construct]
  rcases origin with _ | o
  · simp only [originShift, ne_eq, not_true_eq_false, false_and, if_false]
    rcases newTz with _ | n
    · rcases disp with _ | d
      · simp only [ne_eq, not_true_eq_false, false_and, if_false]
        exact fin _ _ _ _ (by rfl)
      · simp only [setDisp, ne_eq, not_true_eq_false, false_and, if_false]
        exact fin _ _ _ _ (by rw [shift_shift]; congr 1)
    · rcases tz with _ | z
      · simp
      · rcases disp with _ | d
        · simp only [setTz, reduceCtorEq, and_false, if_false]
          exact fin _ _ _ _ (by rw [shift_shift, shift_shift]; congr 1; omega)
        · simp only [setTz, setDisp, reduceCtorEq, and_false, if_false]
          exact fin _ _ _ _ (by rw [shift_shift, shift_shift, shift_shift]; congr 1; omega)
  · cases data with
    | nil => simp [originShift, shift]
    | cons x xs =>
      rw [shift_zero]
      simp only [originShift, reduceCtorEq, and_false, if_false]
      rcases newTz with _ | n
      · rcases disp with _ | d
        · simp only [not_true_eq_false, false_and, if_false]
          exact fin _ _ _ _ (by congr 1; omega)
        · simp only [setDisp, ne_eq, not_true_eq_false, false_and, if_false]
          exact fin _ _ _ _ (by rw [shift_shift]; congr 1; omega)
      · rcases tz with _ | z
        · simp
        · rcases disp with _ | d
          · simp only [setTz, reduceCtorEq, and_false, if_false]
            exact fin _ _ _ _ (by rw [shift_shift, shift_shift]; congr 1; omega)
          · simp only [setTz, setDisp, reduceCtorEq, and_false, if_false]
            exact fin _ _ _ _ (by rw [shift_shift, shift_shift, shift_shift]; congr 1; omega)

/-- Once `index_of` has an answer, `interp_alpha` continues with it. -/
theorem interpAlpha_of_index {K : Type*} [Field K] [DecidableEq K] (rnd : K → K) {l : List Int}
    {lo hi : Int} (t : Int) (e : Bool) (i : Nat)
    (h0 : l.head? = some lo) (h1 : l.getLast? = some hi) (h : indexOf l t e = .ok i) :
    interpAlpha rnd l t e = alphaFrom rnd l t i := by
  have hv := validTime_eq t h0 h1
  have hi' := indexOf_eq t e h0 h1
  rw [h] at hi'
  unfold interpAlpha
  simp only [h, hv]
  by_cases hl : l.length = 1
  · simp [hl]
  · cases e
    · by_cases hb : lo ≤ t ∧ t ≤ hi
      · simp [hb, hl]
      · simp [hb, hl] at hi'
    · simp [hl]

/-- The weight between two neighbours. -/
theorem alphaFrom_eq {K : Type*} [Field K] [LinearOrder K] [IsStrictOrderedRing K] {rnd : K → K}
    (hr : Rounding rnd) (hpos : 0 < rnd (1 / 1000000)) {l : List Int} {t a b : Int} {i : Nat}
    (ha : l[i]? = some a) (hb : l[i + 1]? = some b) (hab : a < b) :
    0 < rnd (((b - a : Int) : K) / 1000000) ∧
    alphaFrom rnd l t (i + 1) =
      .ok (rnd (rnd (((t - a : Int) : K) / 1000000) / rnd (((b - a : Int) : K) / 1000000))) := by
  have hlen : i + 1 < l.length := (List.getElem?_eq_some_iff.mp hb).1
  have hg1 : Np.pyGet l ((i + 1 : Nat) : Int) = .ok b := Np.pyGet_nonneg hb
  have hg0 : Np.pyGet l (((i + 1 : Nat) : Int) - 1) = .ok a := by
    have : (((i + 1 : Nat) : Int) - 1) = (i : Int) := by omega
    rw [this]; exact Np.pyGet_nonneg ha
  have hden : 0 < rnd (((b - a : Int) : K) / 1000000) := by
    refine lt_of_lt_of_le hpos (hr.mono _ _ ?_)
    have : (1 : K) ≤ ((b - a : Int) : K) := by
      have : (1 : Int) ≤ b - a := by omega
      exact_mod_cast this
    exact div_le_div_of_nonneg_right this (by norm_num)
  refine ⟨hden, ?_⟩
  unfold alphaFrom
  rw [if_neg (by omega), if_neg (by omega), hg0, hg1]
  simp only [if_neg (ne_of_gt hden)]

end Verif.TimeM
