import Verif.Lemmas.OffsetName

/-!
# C09: the offset name denotes the offset

`Spec.DenotesMinutes` reads a string as an ISO offset, independently of how the program prints it.
-/

set_option autoImplicit false

namespace Verif
open Verif.OffsetName Verif.Spec

/-- C09 as listed, for double-precision arithmetic: an offset of `m` whole minutes, given as the
double nearest to `m/60` hours, is printed as a string denoting `m` minutes. -/
def C09_statement : Prop :=
  ∀ m : Int, DenotesMinutes (isoString rnd64 (rnd64 ((m : ℚ) / 60))) m

/-- A string denotes at most one number of minutes, given the position of its parts; used to turn a
computed wrong name into a contradiction. -/
theorem C09_refuted : ¬ C09_statement := by
  intro h
  -- 4 h 20 min is printed as "+04:19"
  have h1 := h 260
  have h2 : isoString rnd64 (rnd64 (((260 : Int) : ℚ) / 60)) = ['+', '0', '4', ':', '1', '9'] := by
    decide +kernel
  rw [h2] at h1
  obtain ⟨sgn, c, hh, mm, hs, hc, _, _, _, hm2, _, hval⟩ := h1
  have hl := congrArg List.length hs
  simp only [List.length_cons, List.length_append, List.length_nil] at hl
  simp only [List.cons.injEq] at hs
  obtain ⟨rfl, hs⟩ := hs
  have hh2 : hh.length = 2 := by omega
  match hh, hh2, mm, hm2 with
  | [a, b], _, [x, y], _ =>
    simp only [List.cons_append, List.nil_append, List.cons.injEq] at hs
    obtain ⟨rfl, rfl, _, rfl, rfl, _⟩ := hs
    rcases hc with ⟨_, rfl⟩ | ⟨h, _⟩
    · revert hval; decide
    · revert h; decide

/-- In exact arithmetic C09 holds for every whole number of minutes. Missing: double rounding, for
which the claim is false (`C09_refuted`). -/
theorem C09_exact_partial (m : Int) : DenotesMinutes (isoString id ((m : ℚ) / 60)) m :=
  isoString_denotes id m rfl

/-- In double-precision arithmetic C09 holds for every offset of whole quarter hours (every offset
in civil use). Missing: other minutes. -/
theorem C09_quarter_hours_partial (q : Int) :
    DenotesMinutes (isoString rnd64 (((15 * q : Int) : ℚ) / 60)) (15 * q) := by
  apply isoString_denotes
  have habs : |((15 * q : Int) : ℚ) / 60| = ((q.natAbs : ℕ) : ℚ) / 4 := by
    rw [abs_div, ← Int.cast_abs, Int.abs_eq_natAbs, Int.natAbs_mul]
    push_cast
    norm_num
    ring
  have hfloor : ⌊((q.natAbs : ℕ) : ℚ) / 4⌋ = ((q.natAbs / 4 : ℕ) : Int) := by
    have h := Rat.floor_intCast_div_natCast (q.natAbs : Int) 4
    rw [Int.cast_natCast] at h
    rw [show (4 : ℚ) = ((4 : ℕ) : ℚ) by norm_num, h]
    norm_cast
  have hfrac : ((q.natAbs : ℕ) : ℚ) / 4 - (((q.natAbs / 4 : ℕ) : Int) : ℚ)
      = ((q.natAbs % 4 : ℕ) : ℚ) / 4 := by
    have hdm : ((q.natAbs : ℕ) : ℚ) = 4 * ((q.natAbs / 4 : ℕ) : ℚ) + ((q.natAbs % 4 : ℕ) : ℚ) := by
      exact_mod_cast (Nat.div_add_mod q.natAbs 4).symm
    have h2 : (((q.natAbs / 4 : ℕ) : Int) : ℚ) = ((q.natAbs / 4 : ℕ) : ℚ) := by norm_cast
    rw [h2]
    linarith
  rw [habs, hfloor, hfrac]
  have hlt : q.natAbs % 4 < 4 := Nat.mod_lt _ (by omega)
  generalize q.natAbs % 4 = r at hlt
  have key : ∀ r : Fin 4, rnd64 (rnd64 (((r : ℕ) : ℚ) / 4) * 60) = ((r : ℕ) : ℚ) / 4 * 60 := by
    decide +kernel
  exact key ⟨r, hlt⟩

/-- Offsets of whole quarter hours are doubles, so `C09_quarter_hours_partial` speaks about values
the function really receives. -/
example : rnd64 (((15 * (-14) : Int) : ℚ) / 60) = ((15 * (-14) : Int) : ℚ) / 60 := by decide +kernel
example : isoString rnd64 (((15 * (-14) : Int) : ℚ) / 60) = ['-', '0', '3', ':', '3', '0'] := by
  decide +kernel
example : isoString rnd64 (((15 * 23 : Int) : ℚ) / 60) = ['+', '0', '5', ':', '4', '5'] := by
  decide +kernel
example : isoString id (((260 : Int) : ℚ) / 60) = ['+', '0', '4', ':', '2', '0'] := by
  decide +kernel

end Verif
