import Mathlib.Algebra.Order.Field.Basic
import Mathlib.Data.Finset.Card
import Mathlib.Tactic.Linarith
import Mathlib.Tactic.FieldSimp
import Mathlib.Tactic.Ring

/-!
# A path through finitely many pieces

Each piece is where some affine functions of the position on the path are not negative. A value that
changes at a limited rate on every piece, and is the same where pieces meet, changes at that rate along
the path.
-/

set_option autoImplicit false

namespace Verif.Path

variable {K ι : Type} [Field K] [LinearOrder K] [IsStrictOrderedRing K]

/-- The position `s` is on the piece. -/
def On (W : List (K × K)) (s : K) : Prop := ∀ w ∈ W, 0 ≤ w.1 + w.2 * s

/-- Where one of the functions is zero. -/
def breaks (pieces : List ι) (W : ι → List (K × K)) : Finset K :=
  (pieces.flatMap fun i => (W i).map fun w => -w.1 / w.2).toFinset

private theorem on_ends {W : List (K × K)} {s0 s1 : K} (h : s0 < s1)
    (hb : ∀ w ∈ W, -w.1 / w.2 ≤ s0 ∨ s1 ≤ -w.1 / w.2) (hm : On W ((s0 + s1) / 2)) :
    On W s0 ∧ On W s1 := by
  have key : ∀ w ∈ W, 0 ≤ w.1 + w.2 * s0 ∧ 0 ≤ w.1 + w.2 * s1 := by
    intro w hw
    have h0 := hm w hw
    by_cases hz : w.2 = 0
    · rw [hz] at h0 ⊢
      simp only [zero_mul, add_zero] at h0 ⊢
      exact ⟨h0, h0⟩
    · have he : ∀ s, w.1 + w.2 * s = w.2 * (s - -w.1 / w.2) := by
        intro s
        field_simp
        ring
      rw [he] at h0 ⊢
      rw [he]
      rcases hb w hw with hr | hr
      · have : 0 ≤ w.2 := by
          by_contra hc
          have := mul_neg_of_neg_of_pos (not_le.mp hc) (show 0 < (s0 + s1) / 2 - -w.1 / w.2 by linarith)
          linarith
        exact ⟨mul_nonneg this (by linarith), mul_nonneg this (by linarith)⟩
      · have : w.2 ≤ 0 := by
          by_contra hc
          have := mul_neg_of_pos_of_neg (not_le.mp hc) (show (s0 + s1) / 2 - -w.1 / w.2 < 0 by linarith)
          linarith
        exact ⟨mul_nonneg_of_nonpos_of_nonpos this (by linarith),
          mul_nonneg_of_nonpos_of_nonpos this (by linarith)⟩
  exact ⟨fun w hw => (key w hw).1, fun w hw => (key w hw).2⟩

/-- Without a break in between, one piece holds both ends. -/
private theorem no_break {pieces : List ι} {W : ι → List (K × K)} {val : ι → K → K} {L : K}
    (lip : ∀ i ∈ pieces, ∀ s s', |val i s' - val i s| ≤ L * |s' - s|)
    (cover : ∀ s, 0 ≤ s → s ≤ 1 → ∃ i ∈ pieces, On (W i) s)
    (agree : ∀ i ∈ pieces, ∀ j ∈ pieces, ∀ s, On (W i) s → On (W j) s → val i s = val j s)
    {s0 s1 : K} (h0 : 0 ≤ s0) (h01 : s0 < s1) (h1 : s1 ≤ 1)
    (he : ((breaks pieces W).filter fun c => s0 < c ∧ c < s1) = ∅) {i j : ι} (hi : i ∈ pieces)
    (hj : j ∈ pieces) (oi : On (W i) s0) (oj : On (W j) s1) :
    |val j s1 - val i s0| ≤ L * (s1 - s0) := by
  obtain ⟨k, hk, ok⟩ := cover ((s0 + s1) / 2) (by linarith) (by linarith)
  have hb : ∀ w ∈ W k, -w.1 / w.2 ≤ s0 ∨ s1 ≤ -w.1 / w.2 := by
    intro w hw
    by_contra hn
    rw [not_or, not_le, not_le] at hn
    have : -w.1 / w.2 ∈ (breaks pieces W).filter fun c => s0 < c ∧ c < s1 := by
      rw [Finset.mem_filter, breaks, List.mem_toFinset, List.mem_flatMap]
      exact ⟨⟨k, hk, List.mem_map.mpr ⟨w, hw, rfl⟩⟩, hn⟩
    rw [he] at this
    exact absurd this (Finset.notMem_empty _)
  obtain ⟨k0, k1⟩ := on_ends h01 hb ok
  rw [agree i hi k hk s0 oi k0, agree j hj k hk s1 oj k1]
  have := lip k hk s0 s1
  rwa [abs_of_pos (show (0 : K) < s1 - s0 by linarith)] at this

/-- The rate along the path is that of the pieces. -/
theorem along (pieces : List ι) (W : ι → List (K × K)) (val : ι → K → K) (L : K)
    (lip : ∀ i ∈ pieces, ∀ s s', |val i s' - val i s| ≤ L * |s' - s|)
    (cover : ∀ s, 0 ≤ s → s ≤ 1 → ∃ i ∈ pieces, On (W i) s)
    (agree : ∀ i ∈ pieces, ∀ j ∈ pieces, ∀ s, On (W i) s → On (W j) s → val i s = val j s) :
    ∀ (n : Nat) (s0 s1 : K), 0 ≤ s0 → s0 < s1 → s1 ≤ 1 →
      ((breaks pieces W).filter fun c => s0 < c ∧ c < s1).card ≤ n →
      ∀ i ∈ pieces, ∀ j ∈ pieces, On (W i) s0 → On (W j) s1 →
        |val j s1 - val i s0| ≤ L * (s1 - s0) := by
  intro n
  induction n with
  | zero =>
    intro s0 s1 h0 h01 h1 hc i hi j hj oi oj
    exact no_break lip cover agree h0 h01 h1 (Finset.card_eq_zero.mp (Nat.le_zero.mp hc)) hi hj oi oj
  | succ n ih =>
    intro s0 s1 h0 h01 h1 hc i hi j hj oi oj
    by_cases he : ((breaks pieces W).filter fun c => s0 < c ∧ c < s1) = ∅
    · exact no_break lip cover agree h0 h01 h1 he hi hj oi oj
    · obtain ⟨c, hcm⟩ := Finset.nonempty_iff_ne_empty.mpr he
      obtain ⟨hcb, hc0, hc1⟩ := Finset.mem_filter.mp hcm
      obtain ⟨k, hk, ok⟩ := cover c (by linarith) (by linarith)
      have small : ∀ a b : K, s0 ≤ a → b ≤ s1 → (c ≤ a ∨ b ≤ c) →
          ((breaks pieces W).filter fun x => a < x ∧ x < b).card ≤ n := by
        intro a b ha hb hab
        have : ((breaks pieces W).filter fun x => a < x ∧ x < b).card <
            ((breaks pieces W).filter fun x => s0 < x ∧ x < s1).card := by
          apply Finset.card_lt_card
          rw [Finset.ssubset_iff_of_subset]
          · refine ⟨c, hcm, ?_⟩
            rw [Finset.mem_filter]
            rintro ⟨_, h2, h3⟩
            rcases hab with h | h <;> linarith
          · intro x hx
            rw [Finset.mem_filter] at hx ⊢
            exact ⟨hx.1, by linarith [hx.2.1], by linarith [hx.2.2]⟩
        omega
      have e1 := ih s0 c h0 hc0 (by linarith) (small s0 c le_rfl hc1.le (Or.inr le_rfl)) i hi k hk oi ok
      have e2 := ih c s1 (by linarith) hc1 h1 (small c s1 hc0.le le_rfl (Or.inl le_rfl)) k hk j hj ok oj
      have : val j s1 - val i s0 = (val j s1 - val k c) + (val k c - val i s0) := by ring
      rw [this]
      refine (abs_add_le _ _).trans ?_
      linarith

/-- A list of witnesses for the members of a list that have one. -/
theorem exists_list {α β : Type} (R : α → β → Prop) : ∀ l : List α, ∃ ps : List β,
    (∀ b ∈ ps, ∃ a ∈ l, R a b) ∧ ∀ a ∈ l, (∃ b, R a b) → ∃ b ∈ ps, R a b
  | [] => ⟨[], by simp, by simp⟩
  | a :: l => by
    obtain ⟨ps, h1, h2⟩ := exists_list R l
    by_cases h : ∃ b, R a b
    · obtain ⟨b, hb⟩ := h
      refine ⟨b :: ps, ?_, ?_⟩
      · intro c hc
        rcases List.mem_cons.mp hc with rfl | hc
        · exact ⟨a, List.mem_cons_self, hb⟩
        · obtain ⟨a', ha', h'⟩ := h1 c hc
          exact ⟨a', List.mem_cons_of_mem _ ha', h'⟩
      · intro a' ha' he
        rcases List.mem_cons.mp ha' with rfl | ha'
        · exact ⟨b, List.mem_cons_self, hb⟩
        · obtain ⟨c, hc, h'⟩ := h2 a' ha' he
          exact ⟨c, List.mem_cons_of_mem _ hc, h'⟩
    · refine ⟨ps, ?_, ?_⟩
      · intro c hc
        obtain ⟨a', ha', h'⟩ := h1 c hc
        exact ⟨a', List.mem_cons_of_mem _ ha', h'⟩
      · intro a' ha' he
        rcases List.mem_cons.mp ha' with rfl | ha'
        · exact absurd he h
        · exact h2 a' ha' he

end Verif.Path
