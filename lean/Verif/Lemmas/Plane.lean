import Verif.Model.Plane
import Verif.Spec.Plane
import Mathlib.Tactic.Linarith
import Mathlib.Tactic.Ring
import Mathlib.Tactic.LinearCombination
import Mathlib.Tactic.FieldSimp
import Mathlib.Data.List.Rotate

/-!
# Lemmas on the crossing test
-/

set_option autoImplicit false

namespace Verif.Plane
open Verif Verif.Spec

section
variable {K : Type*} [Field K] [LinearOrder K]

/-- The crossing test without division. -/
theorem crosses_eq [IsStrictOrderedRing K] (p v w : K × K) :
    crosses p v w = true ↔ (p.2 < v.2 ∧ w.2 ≤ p.2 ∧ side v w p < 0) ∨
      (v.2 ≤ p.2 ∧ p.2 < w.2 ∧ 0 < side v w p) := by
  unfold crosses side
  rw [Bool.and_eq_true, decide_eq_true_iff]
  by_cases hv : p.2 < v.2
  · by_cases hw : p.2 < w.2
    · simp [hv, hw, not_le.2 hv, not_le.2 hw]
    · have hd : 0 < v.2 - w.2 := by linarith [not_lt.1 hw]
      have e : p.1 < (v.1 - w.1) * (p.2 - w.2) / (v.2 - w.2) + w.1 ↔
          (w.1 - v.1) * (p.2 - v.2) - (w.2 - v.2) * (p.1 - v.1) < 0 := by
        rw [← sub_lt_iff_lt_add, lt_div_iff₀ hd]
        constructor <;> intro h <;> nlinarith
      rw [e]
      simp [hv, hw, not_le.2 hv, not_lt.1 hw]
  · by_cases hw : p.2 < w.2
    · have hd : v.2 - w.2 < 0 := by linarith [not_lt.1 hv]
      have e : p.1 < (v.1 - w.1) * (p.2 - w.2) / (v.2 - w.2) + w.1 ↔
          0 < (w.1 - v.1) * (p.2 - v.2) - (w.2 - v.2) * (p.1 - v.1) := by
        rw [← sub_lt_iff_lt_add, lt_div_iff_of_neg hd]
        constructor <;> intro h <;> nlinarith
      rw [e]
      simp [hv, hw, not_le.2 hw, not_lt.1 hv]
    · simp [hv, hw]

variable [IsStrictOrderedRing K]

theorem side_swap (a b p : K × K) : side b a p = -side a b p := by
  unfold side; ring

theorem side_self (a p : K × K) : side a a p = 0 := by
  unfold side; ring

theorem crosses_symm (p v w : K × K) : crosses p v w = crosses p w v := by
  rw [Bool.eq_iff_iff, crosses_eq, crosses_eq, side_swap v w]
  constructor
  · rintro (⟨a, b, c⟩ | ⟨a, b, c⟩)
    · exact Or.inr ⟨b, a, by linarith⟩
    · exact Or.inl ⟨b, a, by linarith⟩
  · rintro (⟨a, b, c⟩ | ⟨a, b, c⟩)
    · exact Or.inr ⟨b, a, by linarith⟩
    · exact Or.inl ⟨b, a, by linarith⟩

theorem crosses_self (p v : K × K) : crosses p v v = false := by
  unfold crosses; simp

omit [IsStrictOrderedRing K] in
theorem loop_acc (p : K × K) : ∀ (vs : List (K × K)) (prev : K × K) (r : Bool),
    loop p prev vs r = (r ^^ loop p prev vs false)
  | [], _, r => by simp [loop]
  | v :: vs, prev, r => by
    unfold loop
    rw [loop_acc p vs v (r ^^ crosses p prev v), loop_acc p vs v (false ^^ crosses p prev v)]
    simp

omit [IsStrictOrderedRing K] in
theorem loop_cons (p prev v : K × K) (vs : List (K × K)) :
    loop p prev (v :: vs) false = (crosses p prev v ^^ loop p v vs false) := by
  rw [loop, loop_acc]; simp

omit [IsStrictOrderedRing K] in
theorem loop_append (p : K × K) : ∀ (vs ws : List (K × K)) (prev : K × K),
    loop p prev (vs ++ ws) false =
      (loop p prev vs false ^^ loop p (vs.getLast?.getD prev) ws false)
  | [], ws, prev => by simp [loop]
  | v :: vs, ws, prev => by
    rw [List.cons_append, loop_cons, loop_cons, loop_append p vs ws v, Bool.xor_assoc]
    congr 3
    cases vs with
    | nil => rfl
    | cons u us => simp [List.getLast?_cons_cons, List.getLast?_eq_some_getLast]

omit [IsStrictOrderedRing K] in
theorem inPoly_cons (p a : K × K) (l : List (K × K)) :
    inPoly p (a :: l) = (crosses p (l.getLast?.getD a) a ^^ loop p a l false) := by
  unfold inPoly
  cases l with
  | nil => simp [loop]
  | cons u us =>
    rw [List.getLast?_cons_cons]
    simp [List.getLast?_eq_some_getLast, loop_cons]

/-- The first vertex may be moved to the end. -/
theorem inPoly_rotate_one (p a : K × K) (l : List (K × K)) : inPoly p (l ++ [a]) = inPoly p (a :: l) := by
  cases l with
  | nil => rfl
  | cons u us =>
    rw [List.cons_append, inPoly_cons, inPoly_cons, loop_append, loop_cons]
    have h1 : ((us ++ [a]).getLast?.getD u) = a := by simp
    have h2 : ((u :: us).getLast?.getD a) = (us.getLast?.getD u) := by
      cases us with
      | nil => rfl
      | cons x xs => simp [List.getLast?_cons_cons, List.getLast?_eq_some_getLast]
    rw [h1, h2, loop_cons]
    simp only [loop]
    cases crosses p a u <;> cases loop p u us false <;> cases crosses p (us.getLast?.getD u) a <;> rfl

theorem loop_reverse (p : K × K) : ∀ (l : List (K × K)) (a b : K × K),
    loop p a (l ++ [b]) false = loop p b (l.reverse ++ [a]) false
  | [], a, b => by simp [loop, crosses_symm p a b]
  | x :: l, a, b => by
    rw [List.cons_append, loop_cons, loop_reverse p l x b, List.reverse_cons]
    rw [loop_append p (l.reverse ++ [x]) [a] b]
    simp [loop, crosses_symm p a x, Bool.xor_comm]

/-- Going round the other way. -/
theorem inPoly_reverse (p : K × K) (l : List (K × K)) : inPoly p l.reverse = inPoly p l := by
  cases l with
  | nil => rfl
  | cons a l =>
    rw [List.reverse_cons, inPoly_rotate_one]
    cases l using List.reverseRecOn with
    | nil => rfl
    | append_singleton l b =>
      rw [inPoly_cons, inPoly_cons]
      have h1 : ((l ++ [b]).getLast?.getD a) = b := by simp
      rw [h1, List.reverse_append]
      simp only [List.reverse_singleton, List.singleton_append]
      rw [loop_cons]
      cases l with
      | nil => simp [loop, crosses_symm p b a]
      | cons u us =>
        have h2 : ((b :: (u :: us).reverse).getLast?.getD a) = u := by
          rw [List.reverse_cons, ← List.cons_append, List.getLast?_append]
          simp
        rw [h2, crosses_symm p u a, List.reverse_cons, List.cons_append, loop_cons,
          loop_reverse p us u b, crosses_symm p b a]
        cases crosses p a u <;> cases crosses p a b <;>
          cases loop p b (us.reverse ++ [u]) false <;> rfl

omit [IsStrictOrderedRing K] in
theorem loop_nil (p a : K × K) (r : Bool) : loop p a [] r = r := rfl

theorem inPoly_triangle (p a b c : K × K) :
    inPoly p [a, b, c] = (crosses p c a ^^ (crosses p a b ^^ crosses p b c)) := by
  rw [inPoly_cons, loop_cons, loop_cons, loop_nil]
  simp

/-- Cutting off a triangle. -/
theorem inPoly_fan (p a b c : K × K) (l : List (K × K)) :
    inPoly p (a :: b :: c :: l) = (inPoly p [a, b, c] ^^ inPoly p (a :: c :: l)) := by
  rw [inPoly_triangle, inPoly_cons, inPoly_cons, loop_cons, loop_cons, loop_cons,
    List.getLast?_cons_cons, crosses_symm p c a]
  generalize crosses p (((c :: l).getLast?).getD a) a = x1
  generalize loop p c l false = x2
  cases x1 <;> cases crosses p a b <;> cases crosses p b c <;>
    cases crosses p a c <;> cases x2 <;> rfl

/-- The point as combination of the vertices of a triangle, in each coordinate. -/
theorem side_id (p a b c : K × K) :
    side a b p * (c.1 - p.1) + side b c p * (a.1 - p.1) + side c a p * (b.1 - p.1) = 0 ∧
    side a b p * (c.2 - p.2) + side b c p * (a.2 - p.2) + side c a p * (b.2 - p.2) = 0 := by
  unfold side; constructor <;> ring

/-- Whether a level line is crossed to the right, by the heights of the ends and the side. -/
def cr (y1 y2 s : K) : Bool :=
  (decide (0 < y1) && !decide (0 < y2) && decide (s < 0)) ||
    (!decide (0 < y1) && decide (0 < y2) && decide (0 < s))

theorem crosses_cr (p v w : K × K) : crosses p v w = cr (v.2 - p.2) (w.2 - p.2) (side v w p) := by
  rw [Bool.eq_iff_iff, crosses_eq]
  unfold cr
  simp [and_assoc]

omit [IsStrictOrderedRing K] in
theorem cr_pos {y1 y2 s : K} (h : 0 < s) : cr y1 y2 s = (!decide (0 < y1) && decide (0 < y2)) := by
  unfold cr
  simp [h, not_lt.2 (le_of_lt h)]

theorem side_rel (p a b : K × K) :
    side a b p = (a.1 - p.1) * (b.2 - p.2) - (b.1 - p.1) * (a.2 - p.2) := by
  unfold side; ring

/-- A point strictly left of the three sides. -/
theorem triangle_true (p a b c : K × K) (h1 : 0 < side a b p) (h2 : 0 < side b c p)
    (h3 : 0 < side c a p) : inPoly p [a, b, c] = true := by
  rw [inPoly_triangle, crosses_cr, crosses_cr, crosses_cr, cr_pos h1, cr_pos h2, cr_pos h3]
  have id2 := (side_id p a b c).2
  have e1 := side_rel p a b
  generalize a.2 - p.2 = ya at *
  generalize b.2 - p.2 = yb at *
  generalize c.2 - p.2 = yc at *
  generalize side a b p = s at *
  generalize side b c p = t at *
  generalize side c a p = r at *
  have n1 : ¬ (0 < ya ∧ 0 < yb ∧ 0 < yc) := by
    rintro ⟨ha, hb, hc⟩
    nlinarith [mul_pos h1 hc, mul_pos h2 ha, mul_pos h3 hb]
  have n2 : ¬ (ya ≤ 0 ∧ yb ≤ 0 ∧ yc ≤ 0) := by
    rintro ⟨ha, hb, hc⟩
    have q1 := mul_nonpos_of_nonneg_of_nonpos (le_of_lt h1) hc
    have q2 := mul_nonpos_of_nonneg_of_nonpos (le_of_lt h2) ha
    have q3 := mul_nonpos_of_nonneg_of_nonpos (le_of_lt h3) hb
    have z2 : t * ya = 0 := by linarith
    have z3 : r * yb = 0 := by linarith
    rcases mul_eq_zero.1 z2 with z | z
    · linarith
    · rcases mul_eq_zero.1 z3 with w | w
      · linarith
      · rw [z, w] at e1; linarith
  by_cases ha : 0 < ya <;> by_cases hb : 0 < yb <;> by_cases hc : 0 < yc <;>
    simp only [ha, hb, hc, decide_true, decide_false, Bool.not_true, Bool.not_false,
      Bool.and_true, Bool.and_false, Bool.false_and, Bool.true_and, Bool.xor_false, Bool.xor_true,
      Bool.false_xor]
  · exact (n1 ⟨ha, hb, hc⟩).elim
  · exact (n2 ⟨not_lt.1 ha, not_lt.1 hb, not_lt.1 hc⟩).elim

/-- Of three numbers, one positive and one negative. -/
def Mixed (s t r : K) : Prop := (0 < s ∨ 0 < t ∨ 0 < r) ∧ (s < 0 ∨ t < 0 ∨ r < 0)

/-- One vertex above the point. -/
theorem one_above {s t r ya yb yc : K} (id2 : s * yc + t * ya + r * yb = 0) (ha : 0 < ya)
    (hb : yb ≤ 0) (hc : yc ≤ 0) (hm : Mixed s t r) : s < 0 ↔ 0 < r := by
  obtain ⟨hp, hn⟩ := hm
  constructor
  · intro hs
    by_contra hr
    have ht : 0 < t := by
      rcases hp with h | h | h
      · linarith
      · exact h
      · exact absurd h hr
    nlinarith [mul_pos ht ha, mul_nonneg_of_nonpos_of_nonpos (le_of_lt hs) hc,
      mul_nonneg_of_nonpos_of_nonpos (not_lt.1 hr) hb]
  · intro hr
    by_contra hs
    have ht : t < 0 := by
      rcases hn with h | h | h
      · exact absurd h hs
      · exact h
      · linarith
    nlinarith [mul_neg_of_neg_of_pos ht ha, mul_nonpos_of_nonneg_of_nonpos (not_lt.1 hs) hc,
      mul_nonpos_of_nonneg_of_nonpos (le_of_lt hr) hb]

/-- Two vertices above the point. -/
theorem two_above {s t r ya yb yc : K} (id2 : s * yc + t * ya + r * yb = 0) (ha : 0 < ya)
    (hb : 0 < yb) (hc : yc ≤ 0) (hm : Mixed s t r) : t < 0 ↔ 0 < r := by
  obtain ⟨hp, hn⟩ := hm
  constructor
  · intro ht
    by_contra hr
    have hs : 0 < s := by
      rcases hp with h | h | h
      · exact h
      · linarith
      · exact absurd h hr
    nlinarith [mul_neg_of_neg_of_pos ht ha, mul_nonpos_of_nonneg_of_nonpos (le_of_lt hs) hc,
      mul_nonpos_of_nonpos_of_nonneg (not_lt.1 hr) (le_of_lt hb)]
  · intro hr
    by_contra ht
    have hs : s < 0 := by
      rcases hn with h | h | h
      · exact h
      · exact absurd h ht
      · linarith
    nlinarith [mul_pos hr hb, mul_nonneg_of_nonpos_of_nonpos (le_of_lt hs) hc,
      mul_nonneg (not_lt.1 ht) (le_of_lt ha)]

omit [IsStrictOrderedRing K] in
theorem Mixed.rot {s t r : K} (h : Mixed s t r) : Mixed t r s := by
  obtain ⟨hp, hn⟩ := h
  constructor
  · tauto
  · tauto

/-- A point strictly right of one side and strictly left of another. -/
theorem triangle_false (p a b c : K × K) (hm : Mixed (side a b p) (side b c p) (side c a p)) :
    inPoly p [a, b, c] = false := by
  rw [inPoly_triangle, crosses_cr, crosses_cr, crosses_cr]
  have id1 := (side_id p a b c).2
  generalize a.2 - p.2 = ya at *
  generalize b.2 - p.2 = yb at *
  generalize c.2 - p.2 = yc at *
  generalize side a b p = s at *
  generalize side b c p = t at *
  generalize side c a p = r at *
  have id2 : t * ya + r * yb + s * yc = 0 := by linarith
  have id3 : r * yb + s * yc + t * ya = 0 := by linarith
  have m2 := hm.rot
  have m3 := m2.rot
  unfold cr
  by_cases ha : 0 < ya <;> by_cases hb : 0 < yb <;> by_cases hc : 0 < yc
  · simp [ha, hb, hc]
  · have := two_above id1 ha hb (not_lt.1 hc) hm
    simp [ha, hb, hc, this]
  · have := two_above id3 hc ha (not_lt.1 hb) m3
    simp [ha, hb, hc, this]
  · have := one_above id1 ha (not_lt.1 hb) (not_lt.1 hc) hm
    simp [ha, hb, hc, this]
  · have := two_above id2 hb hc (not_lt.1 ha) m2
    simp [ha, hb, hc, this]
  · have := one_above id2 hb (not_lt.1 hc) (not_lt.1 ha) m2
    simp [ha, hb, hc, this]
  · have := one_above id3 hc (not_lt.1 ha) (not_lt.1 hb) m3
    simp [ha, hb, hc, this]
  · simp [ha, hb, hc]

/-- A point on the lines of all three sides. -/
theorem triangle_zero (p a b c : K × K) (h1 : side a b p = 0) (h2 : side b c p = 0)
    (h3 : side c a p = 0) : inPoly p [a, b, c] = false := by
  rw [inPoly_triangle, crosses_cr, crosses_cr, crosses_cr, h1, h2, h3]
  simp [cr]

/-- A triangle separated from the point. -/
theorem triangle_separated (p a b c : K × K) (α β : K)
    (ha : α * p.1 + β * p.2 < α * a.1 + β * a.2) (hb : α * p.1 + β * p.2 < α * b.1 + β * b.2)
    (hc : α * p.1 + β * p.2 < α * c.1 + β * c.2) : inPoly p [a, b, c] = false := by
  obtain ⟨id1, id2⟩ := side_id p a b c
  have id : side a b p * (α * (c.1 - p.1) + β * (c.2 - p.2)) +
      side b c p * (α * (a.1 - p.1) + β * (a.2 - p.2)) +
      side c a p * (α * (b.1 - p.1) + β * (b.2 - p.2)) = 0 := by
    linear_combination α * id1 + β * id2
  have fa : 0 < α * (a.1 - p.1) + β * (a.2 - p.2) := by linarith
  have fb : 0 < α * (b.1 - p.1) + β * (b.2 - p.2) := by linarith
  have fc : 0 < α * (c.1 - p.1) + β * (c.2 - p.2) := by linarith
  generalize α * (a.1 - p.1) + β * (a.2 - p.2) = u at *
  generalize α * (b.1 - p.1) + β * (b.2 - p.2) = v at *
  generalize α * (c.1 - p.1) + β * (c.2 - p.2) = w at *
  by_cases hz : side a b p = 0 ∧ side b c p = 0 ∧ side c a p = 0
  · exact triangle_zero p a b c hz.1 hz.2.1 hz.2.2
  · apply triangle_false
    by_contra hm
    have key : (side a b p ≤ 0 ∧ side b c p ≤ 0 ∧ side c a p ≤ 0) ∨
        (0 ≤ side a b p ∧ 0 ≤ side b c p ∧ 0 ≤ side c a p) := by
      unfold Mixed at hm
      by_cases h : 0 < side a b p ∨ 0 < side b c p ∨ 0 < side c a p
      · right
        have h' : ¬ (side a b p < 0 ∨ side b c p < 0 ∨ side c a p < 0) := fun q => hm ⟨h, q⟩
        push Not at h'
        exact h'
      · left
        push Not at h
        exact h
    apply hz
    rcases key with ⟨h1, h2, h3⟩ | ⟨h1, h2, h3⟩
    · have q1 := mul_nonpos_of_nonpos_of_nonneg h1 (le_of_lt fc)
      have q2 := mul_nonpos_of_nonpos_of_nonneg h2 (le_of_lt fa)
      have q3 := mul_nonpos_of_nonpos_of_nonneg h3 (le_of_lt fb)
      exact ⟨(mul_eq_zero.1 (by linarith : side a b p * w = 0)).resolve_right (ne_of_gt fc),
        (mul_eq_zero.1 (by linarith : side b c p * u = 0)).resolve_right (ne_of_gt fa),
        (mul_eq_zero.1 (by linarith : side c a p * v = 0)).resolve_right (ne_of_gt fb)⟩
    · have q1 := mul_nonneg h1 (le_of_lt fc)
      have q2 := mul_nonneg h2 (le_of_lt fa)
      have q3 := mul_nonneg h3 (le_of_lt fb)
      exact ⟨(mul_eq_zero.1 (by linarith : side a b p * w = 0)).resolve_right (ne_of_gt fc),
        (mul_eq_zero.1 (by linarith : side b c p * u = 0)).resolve_right (ne_of_gt fa),
        (mul_eq_zero.1 (by linarith : side c a p * v = 0)).resolve_right (ne_of_gt fb)⟩

theorem inPoly_one (p a : K × K) : inPoly p [a] = false := by
  rw [inPoly_cons, loop_nil]
  simp [crosses_self]

theorem inPoly_two (p a b : K × K) : inPoly p [a, b] = false := by
  rw [inPoly_cons, loop_cons, loop_nil, crosses_symm p a b]
  simp

/-- A polygon separated from the point. -/
theorem inPoly_separated (p : K × K) (α β : K) : ∀ (l : List (K × K)) (a b : K × K),
    (∀ v ∈ a :: b :: l, α * p.1 + β * p.2 < α * v.1 + β * v.2) → inPoly p (a :: b :: l) = false
  | [], a, b, _ => inPoly_two p a b
  | c :: l, a, b, h => by
    rw [inPoly_fan, triangle_separated p a b c α β (h a (by simp)) (h b (by simp)) (h c (by simp)),
      inPoly_separated p α β l a c (fun v hv => h v (by
        simp only [List.mem_cons] at hv ⊢; tauto))]
    rfl

/-- A point strictly left of the four sides of a quadrilateral. -/
theorem quad_true (p a b c d : K × K) (h1 : 0 < side a b p) (h2 : 0 < side b c p)
    (h3 : 0 < side c d p) (h4 : 0 < side d a p) : inPoly p [a, b, c, d] = true := by
  rcases lt_trichotomy (side c a p) 0 with h | h | h
  · rw [inPoly_fan, triangle_false p a b c ⟨Or.inl h1, Or.inr (Or.inr h)⟩,
      triangle_true p a c d (by rw [side_swap]; linarith) h3 h4]
    rfl
  · have e : inPoly p [a, b, c, d] = (crosses p d a ^^ (crosses p a b ^^ (crosses p b c ^^
        crosses p c d))) := by
      rw [inPoly_cons, loop_cons, loop_cons, loop_cons, loop_nil]
      simp
    rw [e, crosses_cr, crosses_cr, crosses_cr, crosses_cr, cr_pos h1, cr_pos h2, cr_pos h3, cr_pos h4]
    have id2 := (side_id p a b c).2
    rw [h] at id2
    have e1 := side_rel p a b
    have e4 := side_rel p d a
    generalize a.2 - p.2 = ya at *
    generalize b.2 - p.2 = yb at *
    generalize c.2 - p.2 = yc at *
    generalize d.2 - p.2 = yd at *
    generalize side a b p = s at *
    generalize side b c p = t at *
    generalize side d a p = q at *
    generalize a.1 - p.1 = xa at *
    rcases lt_trichotomy ya 0 with ha | ha | ha
    · have hc : 0 < yc := by
        by_contra hc
        nlinarith [mul_pos h2 (neg_pos.2 ha), mul_nonneg (le_of_lt h1) (neg_nonneg.2 (not_lt.1 hc))]
      by_cases hb : 0 < yb <;> by_cases hd : 0 < yd <;> simp [hb, hd, hc, not_lt.2 (le_of_lt ha)]
    · have hc : yc = 0 := by
        rw [ha] at id2
        have : s * yc = 0 := by linarith
        exact (mul_eq_zero.1 this).resolve_left (ne_of_gt h1)
      rw [ha] at e1 e4
      have f1 : 0 < xa * yb := by linarith
      have f4 : xa * yd < 0 := by linarith
      subst ha hc
      rcases pos_and_pos_or_neg_and_neg_of_mul_pos f1 with ⟨hx, hb⟩ | ⟨hx, hb⟩
      · have hd : yd < 0 := by
          by_contra hd
          nlinarith [mul_nonneg (le_of_lt hx) (not_lt.1 hd)]
        simp [hb, not_lt.2 (le_of_lt hd)]
      · have hd : 0 < yd := by
          by_contra hd
          nlinarith [mul_nonneg_of_nonpos_of_nonpos (le_of_lt hx) (not_lt.1 hd)]
        simp [hd, not_lt.2 (le_of_lt hb)]
    · have hc : yc < 0 := by
        by_contra hc
        nlinarith [mul_pos h2 ha, mul_nonneg (le_of_lt h1) (not_lt.1 hc)]
      by_cases hb : 0 < yb <;> by_cases hd : 0 < yd <;> simp [hb, hd, ha, not_lt.2 (le_of_lt hc)]
  · rw [inPoly_fan, triangle_true p a b c h1 h2 h,
      triangle_false p a c d ⟨Or.inr (Or.inl h3), Or.inl (by rw [side_swap]; linarith)⟩]
    rfl

/-- The rest of a fan once its diagonals have passed the point. -/
theorem fan_false (p a : K × K) : ∀ (l : List (K × K)) (w : K × K),
    (w :: l).IsChain (fun x y => 0 < side x y p) → (∀ x ∈ w :: l, side a x p < 0) →
    inPoly p (a :: w :: l) = false
  | [], w, _, _ => inPoly_two p a w
  | c :: l, w, h, hd => by
    rw [List.isChain_cons_cons] at h
    rw [inPoly_fan, triangle_false p a w c ⟨Or.inr (Or.inl h.1), Or.inl (hd w (by simp))⟩,
      fan_false p a l c h.2 (fun x hx => hd x (List.mem_cons_of_mem _ hx))]
    rfl

/-- A fan whose diagonals pass the point once. -/
theorem fan_true (p a : K × K) : ∀ (l : List (K × K)) (w : K × K),
    (w :: l).IsChain (fun x y => 0 < side x y p) →
    (w :: l).Pairwise (fun x y => side a x p ≤ 0 → side a y p < 0) →
    0 < side a w p → (∀ z, (w :: l).getLast? = some z → side a z p < 0) →
    inPoly p (a :: w :: l) = true
  | [], w, _, _, hw, hz => absurd (hz w rfl) (not_lt.2 (le_of_lt hw))
  | c :: l, w, h, hp, hw, hz => by
    rw [List.isChain_cons_cons] at h
    have hp' := (List.pairwise_cons.1 hp).2
    rcases lt_trichotomy (side a c p) 0 with hc | hc | hc
    · rw [inPoly_fan, triangle_true p a w c hw h.1 (by rw [side_swap]; linarith),
        fan_false p a l c h.2 (by
          intro x hx
          rcases List.mem_cons.1 hx with rfl | hx
          · exact hc
          · exact (List.pairwise_cons.1 hp').1 x hx (le_of_lt hc))]
      rfl
    · cases l with
      | nil => exact absurd (hz c rfl) (by rw [hc]; exact lt_irrefl 0)
      | cons e l =>
        have h' := h.2
        rw [List.isChain_cons_cons] at h'
        have he : ∀ x ∈ e :: l, side a x p < 0 :=
          fun x hx => (List.pairwise_cons.1 hp').1 x hx (le_of_eq hc)
        have q := quad_true p a w c e hw h.1 h'.1 (by
          rw [side_swap]; have := he e (by simp); linarith)
        rw [inPoly_fan] at q
        rw [inPoly_fan, inPoly_fan p a c e l, fan_false p a l e h'.2 he, ← Bool.xor_assoc, q]
        rfl
    · rw [inPoly_fan, triangle_false p a w c ⟨Or.inl hw, Or.inr (Or.inr (by
        rw [side_swap]; linarith))⟩, fan_true p a l c h.2 hp' hc (fun z hz' => hz z (by
          rw [List.getLast?_cons_cons]; exact hz'))]
      rfl

/-- Directions to the left of one direction are ordered. -/
theorem side_plucker (a v x y p : K × K) :
    side a v x * side a y p = side a v y * side a x p - side a v p * side a x y := by
  unfold side; ring

end

end Verif.Plane
