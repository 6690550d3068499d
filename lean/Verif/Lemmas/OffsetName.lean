import Verif.Model.OffsetName
import Verif.Spec.OffsetName
import Verif.Spec.Binary64
import Mathlib.Tactic.Linarith
import Mathlib.Tactic.FieldSimp
import Mathlib.Tactic.Ring
import Mathlib.Tactic.NormNum
import Mathlib.Tactic.Positivity
import Mathlib.Data.Nat.Log
import Mathlib.Tactic.IntervalCases

set_option autoImplicit false

namespace Verif.OffsetName
open Verif.Spec

theorem digit_toNat (n : Nat) (h : n < 10) : (Char.ofNat (48 + n)).toNat = 48 + n := by
  interval_cases n <;> rfl

theorem decDigits_spec : ∀ (fuel n : Nat), n < fuel →
    decValue (decDigits fuel n) = n ∧ AllDigits (decDigits fuel n) ∧
      1 ≤ (decDigits fuel n).length := by
  intro fuel
  induction fuel with
  | zero => intro n h; omega
  | succ f ih =>
    intro n h
    simp only [decDigits]
    split_ifs with hn
    · refine ⟨?_, ?_, by simp⟩
      · simp [decValue, digit_toNat n hn]
      · intro c hc
        simp only [List.mem_singleton] at hc
        subst hc
        rw [digit_toNat n hn]
        omega
    · obtain ⟨h1, h2, h3⟩ := ih (n / 10) (by omega)
      have hm : n % 10 < 10 := Nat.mod_lt _ (by omega)
      refine ⟨?_, ?_, by simp⟩
      · unfold decValue at h1 ⊢
        rw [List.foldl_append, h1]
        simp only [List.foldl_cons, List.foldl_nil, digit_toNat _ hm]
        omega
      · intro c hc
        rcases List.mem_append.mp hc with hc | hc
        · exact h2 c hc
        · simp only [List.mem_singleton] at hc
          subst hc
          rw [digit_toNat _ hm]
          omega

theorem decDigits_len2 (fuel n : Nat) (hf : n < fuel) (h : n < 100) :
    (decDigits fuel n).length ≤ 2 := by
  cases fuel with
  | zero => omega
  | succ f =>
    simp only [decDigits]
    split_ifs with hn
    · simp
    · cases f with
      | zero => omega
      | succ f =>
        have : n / 10 < 10 := by omega
        simp [decDigits, this]

theorem decValue_replicate_zero (k : Nat) (l : List Char) :
    decValue (List.replicate k '0' ++ l) = decValue l := by
  unfold decValue
  rw [List.foldl_append]
  congr 1
  induction k with
  | zero => rfl
  | succ k ih =>
    rw [List.replicate_succ', List.foldl_append, ih]
    rfl

theorem pad2_spec (n : Nat) :
    decValue (pad2 n) = n ∧ AllDigits (pad2 n) ∧ 2 ≤ (pad2 n).length ∧
      (n < 100 → (pad2 n).length = 2) := by
  obtain ⟨h1, h2, h3⟩ := decDigits_spec (n + 1) n (by omega)
  refine ⟨?_, ?_, ?_, ?_⟩
  · simp only [pad2]
    rw [decValue_replicate_zero, h1]
  · intro c hc
    simp only [pad2] at hc
    rcases List.mem_append.mp hc with hc | hc
    · rw [(List.mem_replicate.mp hc).2]; decide
    · exact h2 c hc
  · simp only [pad2, List.length_append, List.length_replicate]
    omega
  · intro hn
    have := decDigits_len2 (n + 1) n (by omega) hn
    simp only [pad2, List.length_append, List.length_replicate]
    omega

/-- If the two rounded operations are exact on the fraction of the hour, the printed name denotes
the offset. -/
theorem isoString_denotes (rnd : ℚ → ℚ) (m : Int)
    (hx : rnd (rnd (|(m : ℚ) / 60| - ⌊|(m : ℚ) / 60|⌋) * 60)
        = (|(m : ℚ) / 60| - ⌊|(m : ℚ) / 60|⌋) * 60) :
    DenotesMinutes (isoString rnd ((m : ℚ) / 60)) m := by
  have habs : |(m : ℚ) / 60| = ((m.natAbs : ℕ) : ℚ) / 60 := by
    rw [abs_div, ← Int.cast_abs, Int.abs_eq_natAbs]
    norm_num
  have hfloor : ⌊((m.natAbs : ℕ) : ℚ) / 60⌋ = ((m.natAbs / 60 : ℕ) : Int) := by
    have h := Rat.floor_intCast_div_natCast (m.natAbs : Int) 60
    rw [Int.cast_natCast] at h
    rw [show (60 : ℚ) = ((60 : ℕ) : ℚ) by norm_num, h]
    norm_cast
  have hfrac : (((m.natAbs : ℕ) : ℚ) / 60 - (((m.natAbs / 60 : ℕ) : Int) : ℚ)) * 60
      = ((m.natAbs % 60 : ℕ) : ℚ) := by
    have hdm : ((m.natAbs : ℕ) : ℚ) = 60 * ((m.natAbs / 60 : ℕ) : ℚ) + ((m.natAbs % 60 : ℕ) : ℚ) := by
      exact_mod_cast (Nat.div_add_mod m.natAbs 60).symm
    have h2 : (((m.natAbs / 60 : ℕ) : Int) : ℚ) = ((m.natAbs / 60 : ℕ) : ℚ) := by norm_cast
    rw [h2]
    linarith
  have hmod : m.natAbs % 60 < 60 := Nat.mod_lt _ (by omega)
  unfold isoString
  simp only
  rw [hx, habs, hfloor, hfrac]
  rw [show ⌊((m.natAbs % 60 : ℕ) : ℚ)⌋ = ((m.natAbs % 60 : ℕ) : Int) from Int.floor_natCast _]
  simp only [Int.toNat_natCast]
  obtain ⟨a1, a2, a3, _⟩ := pad2_spec (m.natAbs / 60)
  obtain ⟨b1, b2, b3, b4⟩ := pad2_spec (m.natAbs % 60)
  have hsign : ((m : ℚ) / 60 < 0) ↔ m < 0 := by
    rw [div_neg_iff]
    constructor
    · rintro (⟨h, h'⟩ | ⟨h, _⟩)
      · norm_num at h'
      · exact_mod_cast h
    · intro h
      right
      exact ⟨by exact_mod_cast h, by norm_num⟩
  by_cases hm : m < 0
  · refine ⟨-1, '-', _, _, ?_, Or.inr ⟨rfl, rfl⟩, a2, b2, a3, b4 (by omega), ?_, ?_⟩
    · rw [if_pos (hsign.mpr hm)]
    · rw [b1]; exact hmod
    · rw [a1, b1]; omega
  · refine ⟨1, '+', _, _, ?_, Or.inl ⟨rfl, rfl⟩, a2, b2, a3, b4 (by omega), ?_, ?_⟩
    · rw [if_neg (fun h => hm (hsign.mp h))]
    · rw [b1]; exact hmod
    · rw [a1, b1]; omega

end Verif.OffsetName
