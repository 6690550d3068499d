import Verif.Model.Depth
import Verif.Lemmas.Np
import Verif.Spec.Depth
import Verif.Spec.Order
import Mathlib.Tactic.Linarith
import Mathlib.Tactic.Ring
import Mathlib.Tactic.FieldSimp
import Mathlib.Tactic.LinearCombination

set_option autoImplicit false

namespace Verif.Np
variable {α : Type*} [LinearOrder α]

theorem digitize_incr {l : List α} (h : l.Pairwise (· < ·)) (x : α) :
    ∃ k, digitize x l false = .ok k ∧ k ≤ l.length ∧
      (∀ i y, i < k → l[i]? = some y → y ≤ x) ∧ (∀ i y, k ≤ i → l[i]? = some y → x < y) := by
  have hle : l.Pairwise (· ≤ ·) := h.imp le_of_lt
  obtain ⟨h1, h2, h3⟩ := searchsortedRight_spec hle x
  refine ⟨searchsortedRight l x, ?_, h1, h2, h3⟩
  simp [digitize, (nondecreasing_iff l).mpr hle]

theorem not_nondecreasing_of_decr {l : List α} (h : l.Pairwise (· > ·)) (hn : 2 ≤ l.length) :
    ¬ nondecreasing l = true := by
  rw [nondecreasing_iff]
  intro hle
  match l, hn with
  | a :: b :: t, _ =>
    have h1 : a > b := (List.pairwise_cons.mp h).1 b (by simp)
    have h2 : a ≤ b := (List.pairwise_cons.mp hle).1 b (by simp)
    exact absurd h1 (not_lt.mpr h2)

theorem getElem?_reverse' {β : Type*} {l : List β} {i : Nat} (h : i < l.length) :
    l.reverse[l.length - 1 - i]? = l[i]? := by
  rw [List.getElem?_reverse (by omega)]
  congr 1
  omega

/-- Decreasing bins: `right` decides which of the two comparisons is strict. -/
theorem digitize_decr {l : List α} (h : l.Pairwise (· > ·)) (hn : 2 ≤ l.length) (x : α)
    (right : Bool) :
    ∃ k, digitize x l right = .ok k ∧ k ≤ l.length ∧
      (∀ i y, i < k → l[i]? = some y → if right then x ≤ y else x < y) ∧
      (∀ i y, k ≤ i → l[i]? = some y → if right then y < x else y ≤ x) := by
  have hrev : l.reverse.Pairwise (· ≤ ·) := by
    rw [List.pairwise_reverse]
    exact h.imp (fun h => le_of_lt h)
  have hnd := not_nondecreasing_of_decr h hn
  have hni : nonincreasing l = true := by
    rw [nonincreasing_iff]
    exact h.imp (fun h => le_of_lt h)
  cases right with
  | true =>
    obtain ⟨h1, h2, h3⟩ := searchsortedLeft_spec hrev x
    rw [List.length_reverse] at h1
    refine ⟨l.length - searchsortedLeft l.reverse x, by simp [digitize, hnd, hni], by omega, ?_, ?_⟩
    · intro i y hi hy
      simp only [if_true]
      have hil : i < l.length := (List.getElem?_eq_some_iff.mp hy).1
      exact h3 (l.length - 1 - i) y (by omega) (by rw [getElem?_reverse' hil]; exact hy)
    · intro i y hi hy
      simp only [if_true]
      have hil : i < l.length := (List.getElem?_eq_some_iff.mp hy).1
      exact h2 (l.length - 1 - i) y (by omega) (by rw [getElem?_reverse' hil]; exact hy)
  | false =>
    obtain ⟨h1, h2, h3⟩ := searchsortedRight_spec hrev x
    rw [List.length_reverse] at h1
    refine ⟨l.length - searchsortedRight l.reverse x, by simp [digitize, hnd, hni], by omega, ?_, ?_⟩
    · intro i y hi hy
      have hil : i < l.length := (List.getElem?_eq_some_iff.mp hy).1
      exact h3 (l.length - 1 - i) y (by omega) (by rw [getElem?_reverse' hil]; exact hy)
    · intro i y hi hy
      have hil : i < l.length := (List.getElem?_eq_some_iff.mp hy).1
      exact h2 (l.length - 1 - i) y (by omega) (by rw [getElem?_reverse' hil]; exact hy)

end Verif.Np

namespace Verif.DepthM
open Verif.Spec

theorem mapE_ok {α β : Type*} {f : α → Except Err β} {g : α → β} {l : List α}
    (h : ∀ a ∈ l, f a = .ok (g a)) : mapE f l = .ok (l.map g) := by
  induction l with
  | nil => rfl
  | cons a as ih =>
    simp only [mapE, h a (by simp), ih (fun x hx => h x (by simp [hx])), List.map_cons]

/-- If every element succeeds with a result related to it, so does the list. -/
theorem mapE_rel {α β : Type*} {f : α → Except Err β} {R : α → β → Prop} {l : List α}
    (h : ∀ a ∈ l, ∃ b, f a = .ok b ∧ R a b) : ∃ bs, mapE f l = .ok bs ∧ List.Forall₂ R l bs := by
  induction l with
  | nil => exact ⟨[], rfl, List.Forall₂.nil⟩
  | cons a as ih =>
    obtain ⟨b, hb, hR⟩ := h a (by simp)
    obtain ⟨bs, hbs, hRs⟩ := ih (fun x hx => h x (by simp [hx]))
    exact ⟨b :: bs, by simp [mapE, hb, hbs], List.Forall₂.cons hR hRs⟩

section
variable {K : Type*} [Field K] [LinearOrder K] [IsStrictOrderedRing K]

theorem ratio_incr {rnd : K → K} (hr : Rounding rnd) (hk : KeepsNonzero rnd) {d a b : K}
    (hab : a < b) (h1 : a ≤ d) (h2 : d ≤ b) :
    ∃ α, ratio rnd d a b = some α ∧ 0 ≤ α ∧ α ≤ 1 := by
  have hden : rnd (b - a) ≠ 0 := hk _ (by intro h; linarith)
  have hden0 : 0 ≤ rnd (b - a) := by rw [← hr.zero]; exact hr.mono _ _ (by linarith)
  have hpos : 0 < rnd (b - a) := lt_of_le_of_ne hden0 (Ne.symm hden)
  have hnum0 : 0 ≤ rnd (d - a) := by rw [← hr.zero]; exact hr.mono _ _ (by linarith)
  have hnum1 : rnd (d - a) ≤ rnd (b - a) := hr.mono _ _ (by linarith)
  refine ⟨rnd (rnd (d - a) / rnd (b - a)), by simp [ratio, hden], ?_, ?_⟩
  · rw [← hr.zero]; exact hr.mono _ _ (div_nonneg hnum0 hden0)
  · rw [← hr.one]; exact hr.mono _ _ ((div_le_one hpos).mpr hnum1)

theorem ratio_decr {rnd : K → K} (hr : Rounding rnd) (hk : KeepsNonzero rnd) {d a b : K}
    (hab : b < a) (h1 : b ≤ d) (h2 : d ≤ a) :
    ∃ α, ratio rnd d a b = some α ∧ 0 ≤ α ∧ α ≤ 1 := by
  have hden : rnd (b - a) ≠ 0 := hk _ (by intro h; linarith)
  have hden0 : rnd (b - a) ≤ 0 := by rw [← hr.zero]; exact hr.mono _ _ (by linarith)
  have hneg : rnd (b - a) < 0 := lt_of_le_of_ne hden0 hden
  have hnum0 : rnd (d - a) ≤ 0 := by rw [← hr.zero]; exact hr.mono _ _ (by linarith)
  have hnum1 : rnd (b - a) ≤ rnd (d - a) := hr.mono _ _ (by linarith)
  refine ⟨rnd (rnd (d - a) / rnd (b - a)), by simp [ratio, hden], ?_, ?_⟩
  · rw [← hr.zero]; exact hr.mono _ _ (div_nonneg_of_nonpos hnum0 hden0)
  · rw [← hr.one]; exact hr.mono _ _ ((div_le_one_of_neg hneg).mpr hnum1)

theorem ratio_id {d a b α : K} (h : ratio (fun x => x) d a b = some α) : a + (b - a) * α = d := by
  unfold ratio at h
  simp only at h
  split_ifs at h with h0
  cases h
  rw [mul_div_cancel₀ _ h0]
  ring

theorem ratio_eq {rnd : K → K} {d a b : K} (hab : a ≠ b) (hk : KeepsNonzero rnd) :
    ratio rnd d a b = some (rnd (rnd (d - a) / rnd (b - a))) := by
  have hden : rnd (b - a) ≠ 0 := hk _ (by intro h; exact hab (sub_eq_zero.mp h).symm)
  simp [ratio, hden]

end
section
variable {K : Type*} [Field K] [LinearOrder K] [IsStrictOrderedRing K]

omit [IsStrictOrderedRing K] in
theorem argminFrom_of_le {l : List K} : ∀ {best : K} {bi i : Nat}, (∀ x ∈ l, best ≤ x) →
    argminFrom best bi i l = bi := by
  induction l with
  | nil => intros; rfl
  | cons x t ih =>
    intro best bi i h
    have : ¬ x < best := not_lt.mpr (h x (by simp))
    rw [argminFrom, if_neg this]
    exact ih fun y hy => h y (by simp [hy])

omit [IsStrictOrderedRing K] in
theorem argminFrom_decr {l : List K} : ∀ {best : K} {bi i : Nat}, (best :: l).Pairwise (· > ·) →
    l ≠ [] → argminFrom best bi i l = i + l.length - 1 := by
  induction l with
  | nil => intro _ _ _ _ h; exact absurd rfl h
  | cons x t ih =>
    intro best bi i h _
    have hx : x < best := (List.pairwise_cons.mp h).1 x (by simp)
    rw [argminFrom, if_pos hx]
    rcases t with _ | ⟨y, t⟩
    · simp [argminFrom]
    · rw [ih (List.pairwise_cons.mp h).2 (by simp)]
      simp only [List.length_cons]
      omega

omit [IsStrictOrderedRing K] in
theorem argmin_incr {l : List K} (h : l.Pairwise (· < ·)) (hn : l ≠ []) : argmin l = .ok 0 := by
  rcases l with _ | ⟨x, t⟩
  · exact absurd rfl hn
  · rw [argmin, argminFrom_of_le fun y hy => le_of_lt ((List.pairwise_cons.mp h).1 y hy)]

omit [IsStrictOrderedRing K] in
theorem argmin_decr {l : List K} (h : l.Pairwise (· > ·)) (hn : l ≠ []) :
    argmin l = .ok (l.length - 1) := by
  rcases l with _ | ⟨x, t⟩
  · exact absurd rfl hn
  · rcases t with _ | ⟨y, t⟩
    · rfl
    · rw [argmin, argminFrom_decr h (by simp)]
      simp

theorem argmax_incr {l : List K} (h : l.Pairwise (· < ·)) (hn : l ≠ []) :
    argmax l = .ok (l.length - 1) := by
  unfold argmax
  rw [argmin_decr (by rw [List.pairwise_map]; exact h.imp fun hab => neg_lt_neg hab) (by simpa)]
  simp

theorem argmax_decr {l : List K} (h : l.Pairwise (· > ·)) (hn : l ≠ []) : argmax l = .ok 0 := by
  unfold argmax
  exact argmin_incr (by rw [List.pairwise_map]; exact h.imp fun hab => neg_lt_neg hab) (by simpa)

end

end Verif.DepthM
