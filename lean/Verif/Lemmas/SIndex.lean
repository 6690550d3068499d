import Verif.Spec.SGrid
import Verif.Lemmas.Np
import Mathlib.Tactic.Ring

/-!
# Lemmas on paddings, slices and flat indices
-/

set_option autoImplicit false

namespace Verif.SIndex
open Verif Verif.Spec

variable {α : Type*}

theorem trim_get (p : Pad) (xs : List α) (i : Nat) (v : α)
    (h : (trim p xs)[i]? = some v) : xs[i + lowPads p]? = some v := by
  cases p <;>
    simp [trim, padSlice, pySlice, bound, lowPads, List.getElem?_drop, List.getElem?_take] at h ⊢ <;>
    first
      | exact h
      | (rw [Nat.add_comm]
         by_cases h0 : xs.length = 0
         · simp [List.length_eq_zero_iff.1 h0] at h
         · have e : min 1 xs.length = 1 := by omega
           first
             | exact (by simpa [e] using h)
             | (rw [e] at h; exact h.2))
      | exact h.2

theorem trim_padded (p : Pad) (hp : p ≠ .other) (core full : List α) (h : Padded p core full) :
    trim p full = core := by
  obtain ⟨a, b, rfl, ha, hb⟩ := h
  have e1 : min 1 (a.length + (core.length + b.length)) =
      if a.length + (core.length + b.length) = 0 then 0 else 1 := by
    split <;> omega
  cases p with
  | other => exact absurd rfl hp
  | none =>
    have := List.length_eq_zero_iff.1 (show a.length = 0 from ha)
    have := List.length_eq_zero_iff.1 (show b.length = 0 from hb)
    subst_vars; simp [trim, padSlice, pySlice]
  | absent =>
    have := List.length_eq_zero_iff.1 (show a.length = 0 from ha)
    have := List.length_eq_zero_iff.1 (show b.length = 0 from hb)
    subst_vars; simp [trim, padSlice, pySlice]
  | low =>
    have := List.length_eq_zero_iff.1 (show b.length = 0 from hb)
    obtain ⟨x, rfl⟩ := List.length_eq_one_iff.1 (show a.length = 1 from ha)
    subst_vars; simp [trim, padSlice, pySlice, bound]
  | high =>
    have := List.length_eq_zero_iff.1 (show a.length = 0 from ha)
    obtain ⟨x, rfl⟩ := List.length_eq_one_iff.1 (show b.length = 1 from hb)
    subst_vars; simp [trim, padSlice, pySlice, bound]
  | both =>
    obtain ⟨x, rfl⟩ := List.length_eq_one_iff.1 (show a.length = 1 from ha)
    obtain ⟨y, rfl⟩ := List.length_eq_one_iff.1 (show b.length = 1 from hb)
    have e2 : (-1 + ((core.length : Int) + 1 + 1)).toNat = core.length + 1 := by omega
    simp [trim, padSlice, pySlice, bound, e2]

theorem trim_length (p : Pad) (xs : List α) (hp : p ≠ .other)
    (h : lowPads p + highPads p ≤ xs.length) :
    (trim p xs).length = xs.length - lowPads p - highPads p := by
  cases p <;> simp [trim, padSlice, pySlice, bound, lowPads, highPads] at h hp ⊢ <;> omega

theorem shift_ok (p : Pad) (hp : p ≠ .other) (i : Int) : shift p i = .ok (i + lowPads p) := by
  cases p <;> simp [shift, lowPads] at hp ⊢

theorem ncols_eq (c : Nat) (A : List (List α)) (hr : Rectangular c A) (h : A ≠ []) :
    ncols A = c := by
  cases A with
  | nil => exact absurd rfl h
  | cons r t => exact hr r (by simp)

theorem flatten_get (c : Nat) (A : List (List α)) (hr : Rectangular c A) (i j : Nat) (hj : j < c) :
    A.flatten[i * c + j]? = entry A i j := by
  induction A generalizing i with
  | nil => simp [entry]
  | cons r t ih =>
    have hl : r.length = c := hr r (by simp)
    cases i with
    | zero =>
      simp [entry, List.getElem?_append, hl, hj]
    | succ i =>
      have := ih (fun r hr' => hr r (by simp [hr'])) i
      simp only [List.flatten_cons]
      rw [List.getElem?_append_right (by rw [hl, Nat.succ_mul]; omega)]
      have e : (i + 1) * c + j - r.length = i * c + j := by rw [hl, Nat.succ_mul]; omega
      rw [e, this]
      simp [entry]

theorem entry_some (A : List (List α)) (i j : Nat) (v : α) (h : entry A i j = some v) :
    ∃ r, A[i]? = some r ∧ r[j]? = some v := by
  unfold entry at h
  cases hA : A[i]? with
  | none => simp [hA] at h
  | some r => exact ⟨r, rfl, by simpa [hA] using h⟩

theorem entry_lt (c : Nat) (A : List (List α)) (hr : Rectangular c A) (i j : Nat) (v : α)
    (h : entry A i j = some v) : i < A.length ∧ j < c := by
  obtain ⟨r, h1, h2⟩ := entry_some A i j v h
  obtain ⟨h1', h1''⟩ := List.getElem?_eq_some_iff.1 h1
  obtain ⟨h2', _⟩ := List.getElem?_eq_some_iff.1 h2
  exact ⟨h1', by rw [← hr r (by rw [← h1'']; exact List.getElem_mem _)]; exact h2'⟩

theorem clip_id (n i : Nat) (h : i < n) : clip n (i : Int) = i := by
  unfold clip; omega

theorem ravel_eq (c : Nat) (A : List (List α)) (hr : Rectangular c A) (i j : Nat)
    (hi : i < A.length) (hj : j < c) : ravel A ((i : Int), (j : Int)) = ((i * c + j : Nat) : Int) := by
  have hn : ncols A = c := ncols_eq c A hr (by rintro rfl; simp at hi)
  unfold ravel
  rw [hn, clip_id _ _ hi, clip_id _ _ hj]
  push_cast; rfl

theorem pyGet_nat (l : List α) (k : Nat) (v : α) (h : l[k]? = some v) :
    Np.pyGet l (k : Int) = .ok v := by
  unfold Np.pyGet
  simp [h]

theorem atIndex_eq (c : Nat) (A : List (List α)) (hr : Rectangular c A) (i j : Nat) (v : α)
    (h : entry A i j = some v) : atIndex A ((i : Int), (j : Int)) = .ok v := by
  obtain ⟨hi, hj⟩ := entry_lt c A hr i j v h
  unfold atIndex
  rw [ravel_eq c A hr i j hi hj]
  exact pyGet_nat _ _ _ (by rw [flatten_get c A hr i j hj, h])

theorem byIndex_eq (c : Nat) (A : List (List α)) (hr : Rectangular c A) (i j : Nat)
    (v0 v1 v2 v3 : α) (h0 : entry A i j = some v0) (h1 : entry A (i + 1) j = some v1)
    (h2 : entry A (i + 1) (j + 1) = some v2) (h3 : entry A i (j + 1) = some v3) :
    byIndex A ((i : Int), (j : Int)) = .ok (v0, v1, v2, v3) := by
  obtain ⟨hi, hj⟩ := entry_lt c A hr i j v0 h0
  obtain ⟨hi2, hj2⟩ := entry_lt c A hr (i + 1) (j + 1) v2 h2
  have hn : ncols A = c := ncols_eq c A hr (by rintro rfl; simp at hi)
  unfold byIndex
  rw [ravel_eq c A hr i j hi hj, hn]
  have e1 : ((i * c + j : Nat) : Int) + (c : Int) = (((i + 1) * c + j : Nat) : Int) := by
    push_cast; ring
  have e2 : (((i + 1) * c + j : Nat) : Int) + 1 = (((i + 1) * c + (j + 1) : Nat) : Int) := by
    push_cast; ring
  have e3 : (((i + 1) * c + (j + 1) : Nat) : Int) - (c : Int) = ((i * c + (j + 1) : Nat) : Int) := by
    push_cast; ring
  have g0 := pyGet_nat A.flatten _ v0 (by rw [flatten_get c A hr i j hj, h0])
  have g1 := pyGet_nat A.flatten _ v1 (by rw [flatten_get c A hr (i + 1) j hj, h1])
  have g2 := pyGet_nat A.flatten _ v2 (by rw [flatten_get c A hr (i + 1) (j + 1) hj2, h2])
  have g3 := pyGet_nat A.flatten _ v3 (by rw [flatten_get c A hr i (j + 1) hj2, h3])
  simp only [e1, e2, e3, g0, g1, g2, g3]

theorem minN_le (l : List Nat) : ∀ x ∈ l, minN l ≤ x := by
  induction l with
  | nil => simp
  | cons a t ih =>
    cases t with
    | nil => simp [minN]
    | cons b t =>
      intro x hx
      rcases List.mem_cons.1 hx with rfl | h
      · exact Nat.min_le_left _ _
      · exact Nat.le_trans (Nat.min_le_right _ _) (ih x h)

theorem le_maxN (l : List Nat) : ∀ x ∈ l, x ≤ maxN l := by
  induction l with
  | nil => simp
  | cons a t ih =>
    cases t with
    | nil => simp [maxN]
    | cons b t =>
      intro x hx
      rcases List.mem_cons.1 hx with rfl | h
      · exact Nat.le_max_left _ _
      · exact Nat.le_trans (ih x h) (Nat.le_max_right _ _)

theorem minN_mem (l : List Nat) (h : l ≠ []) : minN l ∈ l := by
  induction l with
  | nil => exact absurd rfl h
  | cons a t ih =>
    cases t with
    | nil => simp [minN]
    | cons b t =>
      rcases Nat.le_total a (minN (b :: t)) with h1 | h1
      · simp [minN, Nat.min_eq_left h1]
      · have := ih (by simp)
        rw [minN, Nat.min_eq_right h1]
        exact List.mem_cons_of_mem _ this

theorem maxN_mem (l : List Nat) (h : l ≠ []) : maxN l ∈ l := by
  induction l with
  | nil => exact absurd rfl h
  | cons a t ih =>
    cases t with
    | nil => simp [maxN]
    | cons b t =>
      rcases Nat.le_total a (maxN (b :: t)) with h1 | h1
      · have := ih (by simp)
        rw [maxN, Nat.max_eq_right h1]
        exact List.mem_cons_of_mem _ this
      · simp [maxN, Nat.max_eq_left h1]

theorem u32_nat (n : Nat) (h : n < 4294967296) : u32 (n : Int) = n := by
  unfold u32; omega

theorem slice_get (lo hi : Nat) (xs : List α) (i : Nat) (h1 : lo ≤ i) (h2 : i < hi) :
    (pySlice (some (lo : Int)) (some (hi : Int)) xs)[i - lo]? = xs[i]? := by
  simp only [pySlice, bound]
  rw [if_neg (by omega), if_neg (by omega)]
  rw [List.getElem?_drop, List.getElem?_take]
  by_cases hi' : i < xs.length
  · have e : min (lo : Int).toNat xs.length + (i - lo) = i := by omega
    rw [e, if_pos (by omega)]
  · rw [List.getElem?_eq_none (l := xs) (i := i) (by omega)]
    split
    · exact List.getElem?_eq_none (by omega)
    · rfl

theorem window_entry (w : Window) (A : List (List α)) (i j : Nat) (h : inWindow w i j) :
    entry (window w A) (i - w.lo0) (j - w.lo1) = entry A i j := by
  obtain ⟨h1, h2, h3, h4⟩ := h
  unfold entry window
  rw [List.getElem?_map, slice_get _ _ _ _ h1 h2]
  cases A[i]? with
  | none => rfl
  | some r => exact slice_get _ _ r _ h3 h4

theorem window_rect (w : Window) (c : Nat) (A : List (List α)) (hr : Rectangular c A) :
    ∃ c', Rectangular c' (window w A) := by
  refine ⟨(pySlice (some (w.lo1 : Int)) (some (w.hi1 : Int)) (List.replicate c ())).length, ?_⟩
  intro r hr'
  unfold window at hr'
  obtain ⟨q, hq, rfl⟩ := List.mem_map.1 hr'
  have : q ∈ A := by
    simp only [pySlice] at hq
    exact List.mem_of_mem_take (List.mem_of_mem_drop hq)
  have hl := hr q this
  simp [pySlice, hl]

end Verif.SIndex
