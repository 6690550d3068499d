import Verif.Model.GridR
import Verif.Spec.GridR
import Verif.Spec.Order
import Verif.Lemmas.Np

/-!
# Lemmas on rectangular grids
-/

set_option autoImplicit false

namespace Verif.GridR
open Verif Verif.Spec

variable {α : Type*} [LinearOrder α]

/-- `digitize` on an increasing axis. -/
theorem digitize_incr (axis : List α) (h : StrictIncr axis) (x : α) :
    ∃ d, Np.digitize x axis false = .ok d ∧ d ≤ axis.length ∧
      (∀ i a, i < d → axis[i]? = some a → a ≤ x) ∧ (∀ i a, d ≤ i → axis[i]? = some a → x < a) := by
  have hle : axis.Pairwise (· ≤ ·) := h.imp (fun h => le_of_lt h)
  refine ⟨Np.searchsortedRight axis x, ?_, Np.searchsortedRight_spec hle x⟩
  unfold Np.digitize
  simp [(Np.nondecreasing_iff axis).2 hle]

/-- `digitize` on a decreasing axis. -/
theorem digitize_decr (axis : List α) (h : StrictDecr axis) (hl : 2 ≤ axis.length) (x : α) :
    ∃ d, Np.digitize x axis false = .ok d ∧ d ≤ axis.length ∧
      (∀ i a, i < d → axis[i]? = some a → x < a) ∧ (∀ i a, d ≤ i → axis[i]? = some a → a ≤ x) := by
  have hge : axis.Pairwise (· ≥ ·) := h.imp (fun h => le_of_lt h)
  have hnot : Np.nondecreasing axis ≠ true := by
    rw [Ne, Np.nondecreasing_iff]
    intro hle
    match axis, h, hle, hl with
    | a :: b :: _, h, hle, _ =>
      have h1 := (List.pairwise_cons.1 h).1 b (by simp)
      have h2 := (List.pairwise_cons.1 hle).1 b (by simp)
      exact absurd h2 (not_le.2 h1)
  have hrev : axis.reverse.Pairwise (· ≤ ·) := by rw [List.pairwise_reverse]; exact hge
  obtain ⟨s1, s2, s3⟩ := Np.searchsortedRight_spec hrev x
  rw [List.length_reverse] at s1
  refine ⟨axis.length - Np.searchsortedRight axis.reverse x, ?_, by omega, ?_, ?_⟩
  · unfold Np.digitize
    simp [hnot, (Np.nonincreasing_iff axis).2 hge]
  · intro i a hi ha
    have hi' : i < axis.length := by omega
    refine s3 (axis.length - 1 - i) a (by omega) ?_
    rw [List.getElem?_reverse (by omega)]
    rw [← ha]; congr 1; omega
  · intro i a hi ha
    have hi' : i < axis.length := (List.getElem?_eq_some_iff.1 ha).1
    refine s2 (axis.length - 1 - i) a (by omega) ?_
    rw [List.getElem?_reverse (by omega)]
    rw [← ha]; congr 1; omega

/-- The index on one axis, both orders. -/
theorem axisIndex_spec (axis : List α) (h : StrictIncr axis ∨ StrictDecr axis) (x : α) :
    ∃ n, axisIndex axis x = .ok n ∧ (n = -1 ∨ ∃ k : Nat, n = k) ∧
      ∀ k : Nat, n = (k : Int) ↔ InCell axis k x := by
  have key : ∀ (d : Nat) (lo hi : α → Prop), Np.digitize x axis false = .ok d → d ≤ axis.length →
      (∀ i a, i < d → axis[i]? = some a → lo a) → (∀ i a, d ≤ i → axis[i]? = some a → hi a) →
      (∀ a, lo a → hi a → False) →
      (∀ (k : Nat) (a b : α), axis[k]? = some a → axis[k + 1]? = some b →
        (HalfOpen a b x ↔ lo a ∧ hi b)) →
      ∃ n, axisIndex axis x = .ok n ∧ (n = -1 ∨ ∃ k : Nat, n = k) ∧
        ∀ k : Nat, n = (k : Int) ↔ InCell axis k x := by
    intro d lo hi hd hdl h1 h2 hex hho
    unfold axisIndex
    rw [hd]
    refine ⟨_, rfl, ?_, ?_⟩
    · split
      · exact Or.inl rfl
      · by_cases h0 : d = 0
        · left; omega
        · right; exact ⟨d - 1, by omega⟩
    · intro k
      constructor
      · intro hk
        split at hk
        · omega
        · have hlt : k + 1 < axis.length := by omega
          refine ⟨axis[k], axis[k + 1], List.getElem?_eq_getElem (by omega),
            List.getElem?_eq_getElem hlt, ?_⟩
          rw [hho k _ _ (List.getElem?_eq_getElem (by omega)) (List.getElem?_eq_getElem hlt)]
          exact ⟨h1 k _ (by omega) (List.getElem?_eq_getElem (by omega)),
            h2 (k + 1) _ (by omega) (List.getElem?_eq_getElem hlt)⟩
      · rintro ⟨a, b, ha, hb, hab⟩
        rw [hho k a b ha hb] at hab
        have hlt : k + 1 < axis.length := (List.getElem?_eq_some_iff.1 hb).1
        have e1 : k < d := by
          by_contra hc
          exact hex a hab.1 (h2 k a (by omega) ha)
        have e2 : d ≤ k + 1 := by
          by_contra hc
          exact hex b (h1 (k + 1) b (by omega) hb) hab.2
        rw [if_neg (by omega)]
        omega
  by_cases hl : 2 ≤ axis.length
  · rcases h with h | h
    · obtain ⟨d, hd, hdl, h1, h2⟩ := digitize_incr axis h x
      refine key d (fun a => a ≤ x) (fun a => x < a) hd hdl h1 h2
        (fun a h1 h2 => absurd h1 (not_le.2 h2)) ?_
      intro k a b ha hb
      have hab := Np.pairwise_get?_lt h (Nat.lt_succ_self k) ha hb
      unfold HalfOpen
      constructor
      · rintro (h | ⟨h3, h4⟩)
        · exact h
        · exact absurd (lt_of_le_of_lt h3 h4) (not_lt.2 (le_of_lt hab))
      · exact fun h => Or.inl h
    · obtain ⟨d, hd, hdl, h1, h2⟩ := digitize_decr axis h hl x
      refine key d (fun a => x < a) (fun a => a ≤ x) hd hdl h1 h2
        (fun a h1 h2 => absurd h2 (not_le.2 h1)) ?_
      intro k a b ha hb
      have hab := Np.pairwise_get?_lt h (Nat.lt_succ_self k) ha hb
      unfold HalfOpen
      constructor
      · rintro (⟨h3, h4⟩ | h)
        · exact absurd (lt_of_le_of_lt h3 h4) (not_lt.2 (le_of_lt hab))
        · exact ⟨h.2, h.1⟩
      · exact fun h => Or.inr ⟨h.2, h.1⟩
  · -- no cells at all
    have hinc : StrictIncr axis := by
      match axis, hl with
      | [], _ => exact List.Pairwise.nil
      | [a], _ => exact List.pairwise_singleton _ _
      | _ :: _ :: _, hl => exact absurd (by simp) hl
    obtain ⟨d, hd, hdl, h1, h2⟩ := digitize_incr axis hinc x
    refine key d (fun a => a ≤ x) (fun a => x < a) hd hdl h1 h2
      (fun a h1 h2 => absurd h1 (not_le.2 h2)) ?_
    intro k a b ha hb
    have : k + 1 < axis.length := (List.getElem?_eq_some_iff.1 hb).1
    omega

end Verif.GridR
