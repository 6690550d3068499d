import Verif.Model.Np
import Mathlib.Order.Basic
import Mathlib.Tactic.SplitIfs

/-! Lemmas about the numpy primitives. -/

set_option autoImplicit false

namespace Verif.Np

/-- The search returns the boundary of a predicate that is closed downwards. -/
theorem bsearch_spec (p : Nat → Bool) (n : Nat)
    (hp : ∀ i j, i ≤ j → j < n → p j = true → p i = true) :
    ∀ fuel lo hi, hi - lo ≤ fuel → lo ≤ hi → hi ≤ n →
      (∀ i, i < lo → p i = true) → (∀ i, hi ≤ i → i < n → p i = false) →
      bsearch p fuel lo hi ≤ n ∧ (∀ i, i < bsearch p fuel lo hi → p i = true) ∧
        (∀ i, bsearch p fuel lo hi ≤ i → i < n → p i = false) := by
  intro fuel
  induction fuel with
  | zero =>
    intro lo hi hf hle hn hl hh
    have : lo = hi := by omega
    subst this
    exact ⟨hn, hl, hh⟩
  | succ f ih =>
    intro lo hi hf hle hn hl hh
    simp only [bsearch]
    split_ifs with h1 h2
    · apply ih
      · omega
      · omega
      · exact hn
      · intro i hi'
        by_cases hc : i < lo
        · exact hl i hc
        · exact hp i _ (by omega) (by omega) h2
      · exact hh
    · apply ih
      · omega
      · omega
      · omega
      · exact hl
      · intro i hi1 hi2
        cases hpi : p i with
        | false => rfl
        | true => exact absurd (hp _ i hi1 hi2 hpi) h2
    · have : lo = hi := by omega
      subst this
      exact ⟨hn, hl, hh⟩

theorem pairwise_get?_lt {α : Type*} {r : α → α → Prop} {l : List α} (h : l.Pairwise r)
    {i j : Nat} {x y : α} (hij : i < j) (hi : l[i]? = some x) (hj : l[j]? = some y) : r x y := by
  rw [List.pairwise_iff_getElem] at h
  obtain ⟨h1, rfl⟩ := List.getElem?_eq_some_iff.mp hi
  obtain ⟨h2, rfl⟩ := List.getElem?_eq_some_iff.mp hj
  exact h i j h1 h2 hij

variable {α : Type*} [LinearOrder α]

theorem pairwise_get?_le {l : List α} (h : l.Pairwise (· ≤ ·))
    {i j : Nat} {x y : α} (hij : i ≤ j) (hi : l[i]? = some x) (hj : l[j]? = some y) : x ≤ y := by
  rcases Nat.lt_or_eq_of_le hij with h1 | h1
  · exact pairwise_get?_lt h h1 hi hj
  · subst h1
    rw [hi] at hj
    cases hj
    exact le_refl _

/-- `searchsorted` left on a sorted list: everything before is smaller, nothing from there on is. -/
theorem searchsortedLeft_spec {a : List α} (h : a.Pairwise (· ≤ ·)) (v : α) :
    searchsortedLeft a v ≤ a.length ∧
    (∀ i x, i < searchsortedLeft a v → a[i]? = some x → x < v) ∧
    (∀ i x, searchsortedLeft a v ≤ i → a[i]? = some x → v ≤ x) := by
  have key := bsearch_spec (fun i => match a[i]? with
    | some x => decide (x < v)
    | none => false) a.length (by
      intro i j hij hj hpj
      have hj' : a[j]? = some a[j] := List.getElem?_eq_getElem hj
      have hi' : a[i]? = some a[i] := List.getElem?_eq_getElem (by omega)
      simp only [hj', hi', decide_eq_true_eq] at hpj ⊢
      exact lt_of_le_of_lt (pairwise_get?_le h hij hi' hj') hpj)
      a.length 0 a.length (by omega) (by omega) (by omega) (by intro i hi; omega)
      (by intro i h1 h2; omega)
  obtain ⟨k1, k2, k3⟩ := key
  refine ⟨k1, ?_, ?_⟩
  · intro i x hi hx
    have := k2 i hi
    simpa [hx] using this
  · intro i x hi hx
    have hlt : i < a.length := (List.getElem?_eq_some_iff.mp hx).1
    have := k3 i hi hlt
    simpa [hx] using this

/-- `searchsorted` right on a sorted list. -/
theorem searchsortedRight_spec {a : List α} (h : a.Pairwise (· ≤ ·)) (v : α) :
    searchsortedRight a v ≤ a.length ∧
    (∀ i x, i < searchsortedRight a v → a[i]? = some x → x ≤ v) ∧
    (∀ i x, searchsortedRight a v ≤ i → a[i]? = some x → v < x) := by
  have key := bsearch_spec (fun i => match a[i]? with
    | some x => decide (x ≤ v)
    | none => false) a.length (by
      intro i j hij hj hpj
      have hj' : a[j]? = some a[j] := List.getElem?_eq_getElem hj
      have hi' : a[i]? = some a[i] := List.getElem?_eq_getElem (by omega)
      simp only [hj', hi', decide_eq_true_eq] at hpj ⊢
      exact le_trans (pairwise_get?_le h hij hi' hj') hpj)
      a.length 0 a.length (by omega) (by omega) (by omega) (by intro i hi; omega)
      (by intro i h1 h2; omega)
  obtain ⟨k1, k2, k3⟩ := key
  refine ⟨k1, ?_, ?_⟩
  · intro i x hi hx
    have := k2 i hi
    simpa [hx] using this
  · intro i x hi hx
    have hlt : i < a.length := (List.getElem?_eq_some_iff.mp hx).1
    have := k3 i hi hlt
    simpa [hx] using this

theorem nondecreasing_iff (l : List α) : nondecreasing l = true ↔ l.Pairwise (· ≤ ·) := by
  induction l with
  | nil => simp [nondecreasing]
  | cons a t ih =>
    cases t with
    | nil => simp [nondecreasing]
    | cons b t =>
      simp only [nondecreasing, Bool.and_eq_true, decide_eq_true_eq, ih]
      constructor
      · rintro ⟨h1, h2⟩
        refine List.pairwise_cons.mpr ⟨?_, h2⟩
        intro x hx
        rcases List.mem_cons.mp hx with rfl | hx
        · exact h1
        · exact le_trans h1 ((List.pairwise_cons.mp h2).1 x hx)
      · intro h
        exact ⟨(List.pairwise_cons.mp h).1 b (by simp), (List.pairwise_cons.mp h).2⟩

theorem nonincreasing_iff (l : List α) : nonincreasing l = true ↔ l.Pairwise (· ≥ ·) := by
  induction l with
  | nil => simp [nonincreasing]
  | cons a t ih =>
    cases t with
    | nil => simp [nonincreasing]
    | cons b t =>
      simp only [nonincreasing, Bool.and_eq_true, decide_eq_true_eq, ih]
      constructor
      · rintro ⟨h1, h2⟩
        refine List.pairwise_cons.mpr ⟨?_, h2⟩
        intro x hx
        rcases List.mem_cons.mp hx with rfl | hx
        · exact h1
        · exact le_trans ((List.pairwise_cons.mp h2).1 x hx) h1
      · intro h
        exact ⟨(List.pairwise_cons.mp h).1 b (by simp), (List.pairwise_cons.mp h).2⟩

theorem insertSorted_perm (x : α) (l : List α) : (insertSorted x l).Perm (x :: l) := by
  induction l with
  | nil => exact List.Perm.refl _
  | cons y ys ih =>
    simp only [insertSorted]
    split_ifs
    · exact List.Perm.refl _
    · exact (List.Perm.cons y ih).trans (List.Perm.swap x y ys)

theorem sort_perm (l : List α) : (sort l).Perm l := by
  induction l with
  | nil => exact List.Perm.refl _
  | cons x xs ih => exact (insertSorted_perm x _).trans (ih.cons x)

theorem insertSorted_pairwise (x : α) {l : List α} (h : l.Pairwise (· ≤ ·)) :
    (insertSorted x l).Pairwise (· ≤ ·) := by
  induction l with
  | nil => simp [insertSorted]
  | cons y ys ih =>
    simp only [insertSorted]
    obtain ⟨h1, h2⟩ := List.pairwise_cons.mp h
    split_ifs with hxy
    · refine List.pairwise_cons.mpr ⟨?_, h⟩
      intro z hz
      rcases List.mem_cons.mp hz with rfl | hz
      · exact hxy
      · exact le_trans hxy (h1 z hz)
    · refine List.pairwise_cons.mpr ⟨?_, ih h2⟩
      intro z hz
      have hz' := (insertSorted_perm x ys).mem_iff.mp hz
      rcases List.mem_cons.mp hz' with rfl | hz'
      · exact le_of_lt (not_le.mp hxy)
      · exact h1 z hz'

theorem sort_pairwise (l : List α) : (sort l).Pairwise (· ≤ ·) := by
  induction l with
  | nil => exact List.Pairwise.nil
  | cons x xs ih => exact insertSorted_pairwise x ih

theorem sort_of_pairwise {l : List α} (h : l.Pairwise (· ≤ ·)) : sort l = l := by
  induction l with
  | nil => rfl
  | cons x xs ih =>
    obtain ⟨h1, h2⟩ := List.pairwise_cons.mp h
    simp only [sort, ih h2]
    cases xs with
    | nil => rfl
    | cons y ys => simp [insertSorted, h1 y (by simp)]

theorem sort_eq_self_iff (l : List α) : sort l = l ↔ l.Pairwise (· ≤ ·) :=
  ⟨fun h => h ▸ sort_pairwise l, sort_of_pairwise⟩

theorem dedupAdj_length_le (l : List α) : (dedupAdj l).length ≤ l.length := by
  induction l with
  | nil => simp [dedupAdj]
  | cons a t ih =>
    cases t with
    | nil => simp [dedupAdj]
    | cons b t =>
      simp only [dedupAdj]
      split_ifs
      · simp only [List.length_cons] at ih ⊢; omega
      · simp only [List.length_cons] at ih ⊢; omega

/-- A sorted list keeps its length under removal of repeats exactly when it has none. -/
theorem dedupAdj_length_eq_iff {l : List α} (h : l.Pairwise (· ≤ ·)) :
    (dedupAdj l).length = l.length ↔ l.Pairwise (· < ·) := by
  induction l with
  | nil => simp [dedupAdj]
  | cons a t ih =>
    obtain ⟨h1, h2⟩ := List.pairwise_cons.mp h
    cases t with
    | nil => simp [dedupAdj]
    | cons b t =>
      simp only [dedupAdj]
      split_ifs with hab
      · constructor
        · intro he
          have := dedupAdj_length_le (b :: t)
          simp only [List.length_cons] at he this
          omega
        · intro hp
          have := (List.pairwise_cons.mp hp).1 b (by simp)
          exact absurd hab (ne_of_lt this)
      · simp only [List.length_cons, Nat.add_right_cancel_iff]
        have ih' := ih h2
        simp only [List.length_cons] at ih'
        rw [ih']
        constructor
        · intro hp
          refine List.pairwise_cons.mpr ⟨?_, hp⟩
          intro x hx
          have hab' : a < b := lt_of_le_of_ne (h1 b (by simp)) hab
          rcases List.mem_cons.mp hx with rfl | hx
          · exact hab'
          · exact lt_trans hab' ((List.pairwise_cons.mp hp).1 x hx)
        · intro hp
          exact (List.pairwise_cons.mp hp).2

theorem pyGet_nonneg {β : Type*} {l : List β} {i : Nat} {x : β} (h : l[i]? = some x) :
    pyGet l (i : Int) = .ok x := by
  simp [pyGet, h]

theorem pyGet_last {β : Type*} (l : List β) (x : β) : pyGet (l ++ [x]) (-1) = .ok x := by
  simp [pyGet]

theorem pyGet_neg_one {β : Type*} {l : List β} {x : β} (h : l.getLast? = some x) :
    pyGet l (-1) = .ok x := by
  obtain ⟨ys, rfl⟩ := List.getLast?_eq_some_iff.mp h
  exact pyGet_last _ _

end Verif.Np
