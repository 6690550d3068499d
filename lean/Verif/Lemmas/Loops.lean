import Verif.Lemmas.UTopo

/-!
Segments with an even number of ends at every node make up closed loops.
-/

set_option autoImplicit false

namespace Verif.UTopo
open Verif.Spec

/-- Each segment of the first list is a segment of the second, possibly turned around, and the
lists are the same up to order. -/
def Turned (segs steps : List (Int × Int)) : Prop :=
  ∃ segs', List.Forall₂ (fun s s' => s' = s ∨ s' = (s.2, s.1)) segs segs' ∧ segs'.Perm steps

theorem turned_nil : Turned [] [] := ⟨[], List.Forall₂.nil, List.Perm.refl _⟩

theorem turned_perm_left {l l' s : List (Int × Int)} (hp : l.Perm l') (h : Turned l s) :
    Turned l' s := by
  obtain ⟨t, h1, h2⟩ := h
  have hc := (List.perm_comp_forall₂ hp.symm h1)
  obtain ⟨t', h3, h4⟩ := hc
  exact ⟨t', h3, h4.trans h2⟩

theorem turned_append {l l' s s' : List (Int × Int)} (h : Turned l s) (h' : Turned l' s') :
    Turned (l ++ l') (s ++ s') := by
  obtain ⟨t, h1, h2⟩ := h
  obtain ⟨t', h3, h4⟩ := h'
  exact ⟨t ++ t', List.rel_append h1 h3, h2.append h4⟩

theorem turned_cons {l s : List (Int × Int)} {e e' : Int × Int} (he : e' = e ∨ e' = (e.2, e.1))
    (h : Turned l s) : Turned (e :: l) (e' :: s) := by
  obtain ⟨t, h1, h2⟩ := h
  exact ⟨e' :: t, List.Forall₂.cons he h1, h2.cons e'⟩

theorem degree_cons (w : Int) (e : Int × Int) (l : List (Int × Int)) :
    degree w (e :: l) = ((if e.1 = w then 1 else 0) + (if e.2 = w then 1 else 0)) + degree w l := by
  simp [degree]

/-- From a node with an odd number of ends there is a walk to the other odd node; what is left has
even degrees. -/
theorem trail (n : Nat) : ∀ (segs : List (Int × Int)) (u v : Int), segs.length = n →
    (∀ w, degree w segs % 2 = ((if w = u then 1 else 0) + (if w = v then 1 else 0)) % 2) →
    ∃ used rest steps, segs.Perm (used ++ rest) ∧ Turned used steps ∧ Walk u v steps ∧
      ∀ w, degree w rest % 2 = 0 := by
  induction n with
  | zero =>
    intro segs u v hn hd
    rw [List.length_eq_zero_iff] at hn
    subst hn
    have huv : u = v := by
      have := hd u
      by_contra h
      simp [degree, h] at this
    subst huv
    exact ⟨[], [], [], by simp, turned_nil, Walk.nil u, by simp [degree]⟩
  | succ n ih =>
    intro segs u v hn hd
    by_cases huv : u = v
    · subst huv
      refine ⟨[], segs, [], by simp, turned_nil, Walk.nil u, fun w => ?_⟩
      have := hd w
      split at this <;> omega
    · -- an end at `u`
      have hu := hd u
      simp only [if_true, huv, if_false] at hu
      have hex : ∃ e ∈ segs, e.1 = u ∨ e.2 = u := by
        by_contra hno
        push Not at hno
        have : degree u segs = 0 := by
          unfold degree
          rw [List.sum_eq_zero]
          intro x hx
          rw [List.mem_map] at hx
          obtain ⟨e, he, rfl⟩ := hx
          have := hno e he
          simp [this.1, this.2]
        omega
      obtain ⟨e, he, hor⟩ := hex
      obtain ⟨l₁, l₂, rfl⟩ := List.append_of_mem he
      have hperm : (l₁ ++ e :: l₂).Perm (e :: (l₁ ++ l₂)) := List.perm_middle
      have hlen : (l₁ ++ l₂).length = n := by
        simp only [List.length_append, List.length_cons] at hn ⊢; omega
      -- the other end
      obtain ⟨x, hx⟩ : ∃ x, e = (u, x) ∨ e = (x, u) := by
        rcases hor with h | h
        · exact ⟨e.2, Or.inl (by rw [← h])⟩
        · exact ⟨e.1, Or.inr (by rw [← h])⟩
      have hd' : ∀ w, degree w (l₁ ++ l₂) % 2
          = ((if w = x then 1 else 0) + (if w = v then 1 else 0)) % 2 := by
        intro w
        have h1 := hd w
        rw [degree_perm w hperm, degree_cons] at h1
        have h2 : ((if e.1 = w then 1 else 0) + (if e.2 = w then 1 else 0) : Nat)
            = (if w = u then 1 else 0) + (if w = x then 1 else 0) := by
          rcases hx with rfl | rfl
          · simp only [eq_comm]
          · simp only [eq_comm]; omega
        rw [h2] at h1
        split_ifs at h1 ⊢ <;> omega
      obtain ⟨used, rest, steps, p, t, wk, ev⟩ := ih (l₁ ++ l₂) x v hlen hd'
      refine ⟨e :: used, rest, (u, x) :: steps, hperm.trans (p.cons e), turned_cons ?_ t,
        Walk.cons u x v steps wk, ev⟩
      rcases hx with rfl | rfl
      · exact Or.inl rfl
      · exact Or.inr rfl

theorem closedLoops_of_even (n : Nat) : ∀ segs : List (Int × Int), segs.length ≤ n →
    (∀ w, degree w segs % 2 = 0) → ClosedLoops segs := by
  induction n with
  | zero =>
    intro segs hn _
    have : segs = [] := List.length_eq_zero_iff.mp (by omega)
    subst this
    exact ⟨[], by simp, [], List.Forall₂.nil, by simp⟩
  | succ n ih =>
    intro segs hn hev
    cases segs with
    | nil => exact ⟨[], by simp, [], List.Forall₂.nil, by simp⟩
    | cons e l =>
      obtain ⟨a, b⟩ := e
      have hd : ∀ w, degree w l % 2 = ((if w = b then 1 else 0) + (if w = a then 1 else 0)) % 2 := by
        intro w
        have := hev w
        rw [degree_cons] at this
        simp only [eq_comm (a := w)]
        split_ifs at this ⊢ <;> omega
      obtain ⟨used, rest, steps, p, t, wk, ev⟩ := trail l.length l b a rfl hd
      have hlen : rest.length ≤ n := by
        have := p.length_eq
        simp only [List.length_append] at this
        simp only [List.length_cons] at hn
        omega
      obtain ⟨loops, h1, h2⟩ := ih rest hlen ev
      refine ⟨((a, b) :: steps) :: loops, ?_, ?_⟩
      · intro s hs
        rcases List.mem_cons.mp hs with rfl | hs
        · exact ⟨by simp, a, Walk.cons a b a steps wk⟩
        · exact h1 s hs
      · have ht : Turned ((a, b) :: l) (((a, b) :: steps) ++ loops.flatten) :=
          turned_perm_left (p.symm.cons (a, b))
            (turned_append (turned_cons (Or.inl rfl) t) h2)
        rw [List.flatten_cons]
        exact ht

end Verif.UTopo
