import Verif.Spec.GridType
import Verif.Lemmas.Util
import Mathlib.Algebra.Order.Field.Basic
import Mathlib.Data.Nat.Cast.Order.Ring
import Mathlib.Tactic.Tauto

/-!
# Lemmas on kinds of grid
-/

set_option autoImplicit false

namespace Verif.Cache
variable {κ ν : Type*} [DecidableEq κ]

theorem lookup_split (d : List (κ × ν)) (k : κ) (v : ν) :
    lookup d k = some v ↔
      ∃ pre post, d = pre ++ (k, v) :: post ∧ ∀ p ∈ pre, p.1 ≠ k := by
  induction d with
  | nil => simp [lookup]
  | cons p t ih =>
    obtain ⟨a, b⟩ := p
    simp only [lookup]
    split
    · rename_i e
      subst e
      constructor
      · rintro ⟨⟩
        exact ⟨[], t, rfl, by simp⟩
      · rintro ⟨pre, post, e, h⟩
        cases pre with
        | nil => simp only [List.nil_append, List.cons.injEq, Prod.mk.injEq] at e; rw [e.1.2]
        | cons q pre =>
          simp only [List.cons_append, List.cons.injEq] at e
          exact absurd (by rw [← e.1]) (h q (List.mem_cons_self ..))
    · rename_i hne
      rw [ih]
      constructor
      · rintro ⟨pre, post, e, h⟩
        refine ⟨(a, b) :: pre, post, by rw [e]; rfl, ?_⟩
        intro q hq
        rcases List.mem_cons.1 hq with rfl | hq
        · exact hne
        · exact h q hq
      · rintro ⟨pre, post, e, h⟩
        cases pre with
        | nil =>
          simp only [List.nil_append, List.cons.injEq, Prod.mk.injEq] at e
          exact absurd e.1.1 hne
        | cons q pre =>
          simp only [List.cons_append, List.cons.injEq] at e
          exact ⟨pre, post, e.2, fun r hr => h r (List.mem_cons_of_mem _ hr)⟩

end Verif.Cache

namespace Verif.GridType
open Verif Verif.Spec Verif.Util
open Verif.Cache (lookup assign lookup_none lookup_split lookup_assign_self lookup_assign_ne)

section
variable {K : Type}

theorem lookup_lowerVars (f : File K) (n : String) (v : FileVar K) :
    lookup (lowerVars f) n = some v ↔ Named f n v := by
  unfold lowerVars
  rw [(dictOf_lookup _ n).1]
  unfold Util.lastOf Named
  rw [lookup_split]
  constructor
  · rintro ⟨pre, post, e, h⟩
    have e' := congrArg List.reverse e
    rw [List.reverse_reverse, List.reverse_append, List.reverse_cons, List.append_assoc,
      List.map_eq_append_iff] at e'
    obtain ⟨l1, l2, e1, -, e3⟩ := e'
    rw [List.singleton_append, List.map_eq_cons_iff] at e3
    obtain ⟨w, l3, rfl, e4, e5⟩ := e3
    simp only [Prod.mk.injEq] at e4
    obtain ⟨e6, rfl⟩ := e4
    refine ⟨l1, l3, e1, e6, ?_⟩
    intro u hu
    have : (u.name.toLower, u) ∈ pre.reverse := by
      rw [← e5]; exact List.mem_map.2 ⟨u, hu, rfl⟩
    exact h _ (List.mem_reverse.1 this)
  · rintro ⟨pre, post, e, hn, h⟩
    refine ⟨(post.map (fun v => (v.name.toLower, v))).reverse,
      (pre.map (fun v => (v.name.toLower, v))).reverse, ?_, ?_⟩
    · rw [e, List.map_append, List.map_cons, List.reverse_append, List.reverse_cons, hn]
      simp
    · intro p hp
      rw [List.mem_reverse, List.mem_map] at hp
      obtain ⟨u, hu, rfl⟩ := hp
      exact h u hu

theorem has_iff (f : File K) (n : String) : Has f n ↔ ∃ v, lookup (lowerVars f) n = some v := by
  simp only [lookup_lowerVars]
  constructor
  · rintro ⟨v, hv, hn⟩
    have : ∀ l : List (FileVar K), (∃ v ∈ l, v.name.toLower = n) →
        ∃ v pre post, l = pre ++ v :: post ∧ v.name.toLower = n ∧
          ∀ u ∈ post, u.name.toLower ≠ n := by
      intro l
      induction l with
      | nil => rintro ⟨v, hv, -⟩; cases hv
      | cons a t ih =>
        rintro ⟨v, hv, hn⟩
        by_cases ht : ∃ v ∈ t, v.name.toLower = n
        · obtain ⟨w, pre, post, e, h1, h2⟩ := ih ht
          exact ⟨w, a :: pre, post, by rw [e]; rfl, h1, h2⟩
        · rcases List.mem_cons.1 hv with rfl | hv
          · exact ⟨v, [], t, rfl, hn, fun u hu he => ht ⟨u, hu, he⟩⟩
          · exact absurd ⟨v, hv, hn⟩ ht
    obtain ⟨w, h⟩ := this f.vars ⟨v, hv, hn⟩
    exact ⟨w, h⟩
  · rintro ⟨v, pre, post, e, hn, -⟩
    exact ⟨v, by rw [e]; simp, hn⟩

theorem not_has_iff (f : File K) (n : String) : ¬ Has f n ↔ lookup (lowerVars f) n = none := by
  rw [has_iff]
  cases lookup (lowerVars f) n <;> simp

theorem named_unique (f : File K) (n : String) (v w : FileVar K) (hv : Named f n v)
    (hw : Named f n w) : v = w := by
  rw [← lookup_lowerVars] at hv hw
  rw [hv] at hw
  exact Option.some.inj hw

theorem firstPair_spec (f : File K) (names : List (String × String)) (n1 n2 : String)
    (v1 v2 : FileVar K) (h : FirstPair f names n1 n2) (h1 : Named f n1 v1) (h2 : Named f n2 v2) :
    firstPair (lowerVars f) names = some ((n1, n2), v1.arr, v2.arr) := by
  obtain ⟨pre, post, rfl, -, -, hn⟩ := h
  rw [← lookup_lowerVars] at h1 h2
  induction pre with
  | nil => simp [firstPair, h1, h2]
  | cons p pre ih =>
    obtain ⟨a, b⟩ := p
    have hp := hn (a, b) (List.mem_cons_self ..)
    rw [List.cons_append]
    have := ih (fun q hq => hn q (List.mem_cons_of_mem _ hq))
    simp only [firstPair]
    split
    · next w1 w2 e1 e2 => exact absurd ⟨(has_iff f a).2 ⟨_, e1⟩, (has_iff f b).2 ⟨_, e2⟩⟩ hp
    · exact this

theorem firstPair_none (f : File K) (names : List (String × String)) :
    firstPair (lowerVars f) names = none ↔ ∀ p ∈ names, ¬ (Has f p.1 ∧ Has f p.2) := by
  induction names with
  | nil => simp [firstPair]
  | cons p t ih =>
    obtain ⟨a, b⟩ := p
    simp only [firstPair, List.forall_mem_cons]
    split
    · next w1 w2 e1 e2 =>
      simp only [reduceCtorEq, false_iff, not_and]
      intro h
      exact absurd (And.intro ((has_iff f a).2 ⟨_, e1⟩) ((has_iff f b).2 ⟨_, e2⟩)) (by tauto)
    · next h =>
      rw [ih]
      refine ⟨fun ht => ⟨?_, ht⟩, fun ht => ht.2⟩
      rintro ⟨ha, hb⟩
      obtain ⟨v, hv⟩ := (has_iff f a).1 ha
      obtain ⟨w, hw⟩ := (has_iff f b).1 hb
      exact h v w hv hw

theorem firstPair_some (f : File K) (names : List (String × String)) (r)
    (h : firstPair (lowerVars f) names = some r) :
    FirstPair f names r.1.1 r.1.2 ∧ ∃ v1 v2, Named f r.1.1 v1 ∧ Named f r.1.2 v2 ∧
      r.2 = (v1.arr, v2.arr) := by
  induction names with
  | nil => cases h
  | cons p t ih =>
    obtain ⟨a, b⟩ := p
    simp only [firstPair] at h
    split at h
    · next w1 w2 e1 e2 =>
      cases h
      refine ⟨⟨[], t, rfl, (has_iff f a).2 ⟨_, e1⟩, (has_iff f b).2 ⟨_, e2⟩, by simp⟩, w1, w2,
        (lookup_lowerVars f a w1).1 e1, (lookup_lowerVars f b w2).1 e2, rfl⟩
    · next hn =>
      obtain ⟨⟨pre, post, e, h1, h2, h3⟩, hv⟩ := ih h
      refine ⟨⟨(a, b) :: pre, post, by rw [e]; rfl, h1, h2, ?_⟩, hv⟩
      intro p hp
      rcases List.mem_cons.1 hp with rfl | hp
      · rintro ⟨ha, hb⟩
        obtain ⟨v, hv⟩ := (has_iff f a).1 ha
        obtain ⟨w, hw⟩ := (has_iff f b).1 hb
        exact hn v w hv hw
      · exact h3 p hp

theorem firstIn_spec (f : File K) (names : List String) (n : String) (v : FileVar K)
    (h : FirstName f names n) (hv : Named f n v) :
    firstIn (lowerVars f) names = some (n, v) := by
  obtain ⟨pre, post, rfl, -, hn⟩ := h
  rw [← lookup_lowerVars] at hv
  induction pre with
  | nil => simp [firstIn, hv]
  | cons p pre ih =>
    have hp := hn p (List.mem_cons_self ..)
    rw [List.cons_append]
    simp only [firstIn, (not_has_iff f p).1 hp]
    exact ih (fun q hq => hn q (List.mem_cons_of_mem _ hq))

theorem firstIn_none (f : File K) (names : List String) :
    firstIn (lowerVars f) names = none ↔ ∀ n ∈ names, ¬ Has f n := by
  induction names with
  | nil => simp [firstIn]
  | cons p t ih =>
    simp only [firstIn, List.forall_mem_cons, not_has_iff]
    cases h : lookup (lowerVars f) p with
    | some v => simp
    | none => simpa [not_has_iff] using ih

theorem firstIn_some (f : File K) (names : List String) (r)
    (h : firstIn (lowerVars f) names = some r) :
    FirstName f names r.1 ∧ Named f r.1 r.2 := by
  induction names with
  | nil => cases h
  | cons p t ih =>
    simp only [firstIn] at h
    split at h
    · next w e =>
      cases h
      exact ⟨⟨[], t, rfl, (has_iff f p).2 ⟨_, e⟩, by simp⟩, (lookup_lowerVars f p w).1 e⟩
    · next e =>
      obtain ⟨⟨pre, post, e', h1, h2⟩, hv⟩ := ih h
      refine ⟨⟨p :: pre, post, by rw [e']; rfl, h1, ?_⟩, hv⟩
      intro q hq
      rcases List.mem_cons.1 hq with rfl | hq
      · exact (not_has_iff f q).2 e
      · exact h2 q hq

theorem evens_odds (a : List K) (h : a.length % 2 = 0) :
    Interleaved a (evens a) (odds a) ∧ (evens a).length = a.length / 2 := by
  induction a using evens.induct with
  | case1 => exact ⟨⟨rfl, rfl, by intro i hi; cases hi⟩, by simp [evens]⟩
  | case2 a => simp at h
  | case3 a b t ih =>
    obtain ⟨⟨h1, h2, h3⟩, h4⟩ := ih (by simp only [List.length_cons] at h; omega)
    refine ⟨⟨?_, ?_, ?_⟩, ?_⟩
    · simp only [evens, List.length_cons]; omega
    · simp only [evens, odds, List.length_cons]; omega
    · intro i hi
      cases i with
      | zero => simp [evens, odds]
      | succ i =>
        have := h3 i (by simp only [evens, List.length_cons] at hi; omega)
        have e : 2 * (i + 1) = (2 * i + 1) + 1 := by omega
        rw [e]
        simpa [evens, odds] using this
    · simp only [evens, List.length_cons]; omega

end

section
variable {K : Type} [Field K] [LinearOrder K] [IsStrictOrderedRing K]

omit [Field K] [IsStrictOrderedRing K] in
theorem foldl_max (t : List K) (x : K) :
    t.foldl max x ∈ x :: t ∧ ∀ y ∈ x :: t, y ≤ t.foldl max x := by
  induction t generalizing x with
  | nil => simp
  | cons a t ih =>
    rw [List.foldl_cons]
    obtain ⟨h1, h2⟩ := ih (max x a)
    refine ⟨?_, ?_⟩
    · rcases List.mem_cons.1 h1 with h | h
      · rw [h]
        rcases max_choice x a with e | e <;> rw [e] <;> simp
      · exact List.mem_cons_of_mem _ (List.mem_cons_of_mem _ h)
    · intro y hy
      have hm := h2 (max x a) (List.mem_cons_self ..)
      rcases List.mem_cons.1 hy with rfl | hy
      · exact le_trans (le_max_left _ _) hm
      · rcases List.mem_cons.1 hy with rfl | hy
        · exact le_trans (le_max_right _ _) hm
        · exact h2 y (List.mem_cons_of_mem _ hy)

omit [Field K] [IsStrictOrderedRing K] in
theorem arrMax_spec [Field K] (a : Arr K) (h : a.data ≠ []) :
    ∃ m, arrMax a = .ok m ∧ m ∈ a.data ∧ ∀ y ∈ a.data, y ≤ m := by
  unfold arrMax
  cases e : a.data with
  | nil => exact absurd e h
  | cons x t => exact ⟨_, rfl, foldl_max t x⟩

omit [Field K] [LinearOrder K] [IsStrictOrderedRing K] in
theorem holds_mem (a : Arr K) (r c : Nat) (f : Nat → Nat → K) (h : Holds a r c f) (x : K) :
    x ∈ a.data ↔ ∃ i j : Nat, i < r ∧ j < c ∧ x = f i j := by
  constructor
  · intro hx
    obtain ⟨n, hn, e⟩ := List.getElem_of_mem hx
    rw [h.2.1] at hn
    have hc : 0 < c := by
      rcases Nat.eq_zero_or_pos c with rfl | h
      · simp at hn
      · exact h
    have e' : n / c * c + n % c = n := by rw [Nat.mul_comm]; exact Nat.div_add_mod n c
    have h3 := h.2.2 (n / c) (n % c) ((Nat.div_lt_iff_lt_mul hc).2 hn) (Nat.mod_lt _ hc)
    rw [e', List.getElem?_eq_getElem (by rw [h.2.1]; exact hn), e] at h3
    exact ⟨n / c, n % c, (Nat.div_lt_iff_lt_mul hc).2 hn, Nat.mod_lt _ hc, Option.some.inj h3⟩
  · rintro ⟨i, j, hi, hj, rfl⟩
    exact List.mem_of_getElem? (h.2.2 i j hi hj)

/-- Faces by rows, with the largest index known, come out counting from zero. -/
theorem normalise_rows (a : Arr K) (b : K) (tris : List (Nat × Nat × Nat)) (ha : Rows a b tris)
    (n : Nat) (hb : b = 0 ∨ b = 1) (hne : tris ≠ [])
    (hlt : ∀ t ∈ tris, t.1 < n ∧ t.2.1 < n ∧ t.2.2 < n)
    (hlast : b = 1 → ∃ t ∈ tris, t.1 + 1 = n ∨ t.2.1 + 1 = n ∨ t.2.2 + 1 = n) :
    ∃ m c, arrMax a = .ok m ∧
      (if m = (n : K) then c = (⟨a.shape, a.data.map (· - 1)⟩ : Arr K) else c = a) ∧
      Rows c 0 tris := by
  have hmem := holds_mem a _ _ _ ha
  have hpos : 0 < tris.length := List.length_pos_iff.2 hne
  have hd : a.data ≠ [] := by
    intro e
    have := ha.2.1
    rw [e] at this
    simp only [List.length_nil] at this
    omega
  obtain ⟨m, h1, h2, h3⟩ := arrMax_spec a hd
  have entry : ∀ i j : Nat, i < tris.length → j < 3 → corner tris i j < n := by
    intro i j hi hj
    unfold corner
    rw [List.getElem?_eq_getElem hi]
    have := hlt tris[i] (List.getElem_mem hi)
    have hj' : j = 0 ∨ j = 1 ∨ j = 2 := by omega
    rcases hj' with rfl | rfl | rfl <;> simp [this]
  rcases hb with rfl | rfl
  · refine ⟨m, a, h1, ?_, ha⟩
    rw [if_neg]
    obtain ⟨i, j, hi, hj, e⟩ := (hmem m).1 h2
    have hk := entry i j hi hj
    rw [e, add_zero]
    intro e''
    have := Nat.cast_injective (R := K) e''
    omega
  · have hm : m = (n : K) := by
      refine le_antisymm ?_ ?_
      · obtain ⟨i, j, hi, hj, e⟩ := (hmem m).1 h2
        have hk := entry i j hi hj
        rw [e]
        exact_mod_cast hk
      · obtain ⟨t, ht, hh⟩ := hlast rfl
        obtain ⟨i, hi, rfl⟩ := List.getElem_of_mem ht
        have : ∃ j : Nat, j < 3 ∧
            (corner tris i j : K) + 1 = (n : K) := by
          unfold corner
          rw [List.getElem?_eq_getElem hi]
          rcases hh with h | h | h
          · exact ⟨0, by omega, by simp [← h]⟩
          · exact ⟨1, by omega, by simp [← h]⟩
          · exact ⟨2, by omega, by simp [← h]⟩
        obtain ⟨j, hj, e⟩ := this
        rw [← e]
        exact h3 _ ((hmem _).2 ⟨i, j, hi, hj, rfl⟩)
    refine ⟨m, ⟨a.shape, a.data.map (· - 1)⟩, h1, by rw [if_pos hm], ha.1, ?_, ?_⟩
    · simp only [List.length_map]; exact ha.2.1
    · intro i j hi hj
      simp only [List.getElem?_map]
      rw [ha.2.2 i j hi hj]
      simp

end

end Verif.GridType
