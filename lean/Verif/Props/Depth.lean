import Verif.Lemmas.LevelDepth
import Verif.Lemmas.SigmaDepth
import Mathlib.Algebra.Order.Ring.Rat
import Mathlib.Algebra.Order.Field.Rat

/-!
# C11-C17, C63-C65: depth objects

Results are stated with `List.Forall₂`: there is exactly one entry per queried point, in order, and
each entry satisfies the stated relation with its own point.
-/

set_option autoImplicit false

namespace Verif
open Verif.DepthM Verif.Spec

variable {K : Type*} [Field K] [LinearOrder K] [IsStrictOrderedRing K]

/-! ## C11, C12: level depths -/

/-- C11, levels listed from the surface down. The call succeeds and every depth from the first level
down to, but not including, the last gets two adjacent levels enclosing it and a weight in [0,1]. -/
theorem C11_bracket_surface_first (rnd : K → K) (hr : Rounding rnd) (hk : KeepsNonzero rnd)
    (levels : List K) (hs : StrictIncr levels) (top bottom : K) (h0 : levels.head? = some top)
    (h1 : levels.getLast? = some bottom) (hn : 2 ≤ levels.length) (shape0 : Option Nat)
    (hsh : shape0 ≠ some 1) (sbc bbc : BC) (depths : List K) :
    ∃ out, levelAlphas rnd levels shape0 sbc bbc depths = .ok out ∧
      List.Forall₂ (fun d e => top ≤ d → d < bottom →
        e.masked = false ∧ ∃ α, e.alpha = some α ∧ Encloses levels d e.idx α) depths out := by
  obtain ⟨out, ho, hf⟩ := levelAlphas_asc hk hs hn (first := top) (last := bottom)
    (by rw [← List.head?_eq_getElem?]; exact h0)
    (by rw [← List.getLast?_eq_getElem?]; exact h1) shape0 hsh sbc bbc depths
  refine ⟨out, ho, hf.imp ?_⟩
  rintro d e ⟨_, _, hc⟩ hlo hhi
  obtain ⟨hm, j, a, b, hj, ha, hb, had, hdb, hal⟩ := hc hlo hhi
  have hab := lt_of_le_of_lt had hdb
  obtain ⟨α, q1, q2, q3⟩ := ratio_incr hr hk hab had (le_of_lt hdb)
  exact ⟨hm, α, by rw [hal, q1], j, a, b, hj, ha, hb, by rw [min_eq_left (le_of_lt hab)]; exact had,
    by rw [max_eq_right (le_of_lt hab)]; exact le_of_lt hdb, q2, q3⟩

/-- C11, levels listed from the bottom up: every depth from the first level up to, but not including,
the last. -/
theorem C11_bracket_bottom_first (rnd : K → K) (hr : Rounding rnd) (hk : KeepsNonzero rnd)
    (levels : List K) (hs : StrictDecr levels) (top bottom : K) (h0 : levels.head? = some bottom)
    (h1 : levels.getLast? = some top) (hn : 2 ≤ levels.length) (shape0 : Option Nat)
    (hsh : shape0 ≠ some 1) (sbc bbc : BC) (depths : List K) :
    ∃ out, levelAlphas rnd levels shape0 sbc bbc depths = .ok out ∧
      List.Forall₂ (fun d e => top < d → d ≤ bottom →
        e.masked = false ∧ ∃ α, e.alpha = some α ∧ Encloses levels d e.idx α) depths out := by
  obtain ⟨out, ho, hf⟩ := levelAlphas_desc hk hs hn (first := bottom) (last := top)
    (by rw [← List.head?_eq_getElem?]; exact h0)
    (by rw [← List.getLast?_eq_getElem?]; exact h1) shape0 hsh sbc bbc depths
  refine ⟨out, ho, hf.imp ?_⟩
  rintro d e ⟨_, _, hc⟩ hlo hhi
  obtain ⟨hm, j, a, b, hj, ha, hb, had, hdb, hal⟩ := hc hlo hhi
  have hab := lt_of_lt_of_le had hdb
  obtain ⟨α, q1, q2, q3⟩ := ratio_decr hr hk hab (le_of_lt had) hdb
  exact ⟨hm, α, by rw [hal, q1], j, a, b, hj, ha, hb,
    by rw [min_eq_right (le_of_lt hab)]; exact le_of_lt had,
    by rw [max_eq_left (le_of_lt hab)]; exact hdb, q2, q3⟩

/-- C11, exact arithmetic: the weighted depth of the two levels is the depth asked for. -/
theorem C11_reconstructs_depth (levels : List K) (hs : StrictIncr levels ∨ StrictDecr levels)
    (first last : K) (h0 : levels.head? = some first) (h1 : levels.getLast? = some last)
    (hn : 2 ≤ levels.length) (shape0 : Option Nat) (hsh : shape0 ≠ some 1) (sbc bbc : BC)
    (depths : List K) :
    ∃ out, levelAlphas (fun x => x) levels shape0 sbc bbc depths = .ok out ∧
      List.Forall₂ (fun d e => (first ≤ d ∧ d < last) ∨ (last < d ∧ d ≤ first) →
        ∃ α, e.alpha = some α ∧ Reconstructs levels d e.idx α) depths out := by
  have h0' : levels[0]? = some first := by rw [← List.head?_eq_getElem?]; exact h0
  have h1' : levels[levels.length - 1]? = some last := by
    rw [← List.getLast?_eq_getElem?]; exact h1
  have hk : KeepsNonzero (fun x : K => x) := fun _ h => h
  rcases hs with hs | hs
  · obtain ⟨out, ho, hf⟩ := levelAlphas_asc hk hs hn h0' h1' shape0 hsh sbc bbc depths
    refine ⟨out, ho, hf.imp ?_⟩
    rintro d e ⟨_, _, hc⟩ hd
    have hfl : first < last := Np.pairwise_get?_lt hs (by omega) h0' h1'
    rcases hd with ⟨hlo, hhi⟩ | ⟨hlo, hhi⟩
    · obtain ⟨_, j, a, b, hj, ha, hb, had, hdb, hal⟩ := hc hlo hhi
      have hne : a ≠ b := ne_of_lt (lt_of_le_of_lt had hdb)
      obtain ⟨α, hα⟩ : ∃ α, ratio (fun x : K => x) d a b = some α := ⟨_, ratio_eq hne hk⟩
      refine ⟨α, by rw [hal, hα], ?_⟩
      intro j' a' b' hj' ha' hb'
      have : j' = j := by omega
      subst this
      rw [ha] at ha'; rw [hb] at hb'; cases ha'; cases hb'
      exact ratio_id hα
    · exact absurd (lt_of_lt_of_le hlo hhi) (not_lt.mpr (le_of_lt hfl))
  · obtain ⟨out, ho, hf⟩ := levelAlphas_desc hk hs hn h0' h1' shape0 hsh sbc bbc depths
    refine ⟨out, ho, hf.imp ?_⟩
    rintro d e ⟨_, _, hc⟩ hd
    have hfl : first > last := Np.pairwise_get?_lt hs (by omega) h0' h1'
    rcases hd with ⟨hlo, hhi⟩ | ⟨hlo, hhi⟩
    · exact absurd (lt_of_le_of_lt hlo hhi) (not_lt.mpr (le_of_lt hfl))
    · obtain ⟨_, j, a, b, hj, ha, hb, had, hdb, hal⟩ := hc hlo hhi
      have hne : a ≠ b := ne_of_gt (lt_of_lt_of_le had hdb)
      obtain ⟨α, hα⟩ : ∃ α, ratio (fun x : K => x) d a b = some α := ⟨_, ratio_eq hne hk⟩
      refine ⟨α, by rw [hal, hα], ?_⟩
      intro j' a' b' hj' ha' hb'
      have : j' = j := by omega
      subst this
      rw [ha] at ha'; rw [hb] at hb'; cases ha'; cases hb'
      exact ratio_id hα

/-- C12, levels listed from the surface down: masked exactly when above the first level under
surface condition 'mask' or at/below the last level under bottom condition 'mask'; beyond an end
the selected level is that end. -/
theorem C12_boundary_surface_first (rnd : K → K) (hk : KeepsNonzero rnd)
    (levels : List K) (hs : StrictIncr levels) (top bottom : K) (h0 : levels.head? = some top)
    (h1 : levels.getLast? = some bottom) (hn : 2 ≤ levels.length) (shape0 : Option Nat)
    (hsh : shape0 ≠ some 1) (sbc bbc : BC) (depths : List K) :
    ∃ out, levelAlphas rnd levels shape0 sbc bbc depths = .ok out ∧
      List.Forall₂ (fun d e =>
        (e.masked = true ↔ (d < top ∧ sbc = .mask) ∨ (bottom ≤ d ∧ bbc = .mask)) ∧
        (d < top → ∃ α, e.alpha = some α ∧ SelectsLevel e.idx α 0) ∧
        (bottom ≤ d → ∃ α, e.alpha = some α ∧ SelectsLevel e.idx α (levels.length - 1)))
        depths out := by
  have h0' : levels[0]? = some top := by rw [← List.head?_eq_getElem?]; exact h0
  have h1' : levels[levels.length - 1]? = some bottom := by
    rw [← List.getLast?_eq_getElem?]; exact h1
  have hfl : top < bottom := Np.pairwise_get?_lt hs (by omega) h0' h1'
  obtain ⟨out, ho, hf⟩ := levelAlphas_asc hk hs hn h0' h1' shape0 hsh sbc bbc depths
  refine ⟨out, ho, hf.imp ?_⟩
  rintro d e ⟨ha, hb, hc⟩
  refine ⟨?_, ?_, ?_⟩
  · rcases lt_or_ge d top with h | h
    · rw [(ha h).1]
      simp [h, not_le.mpr (lt_trans h hfl)]
    · rcases lt_or_ge d bottom with h' | h'
      · rw [(hc h h').1]
        simp [not_lt.mpr h, not_le.mpr h']
      · rw [(hb h').1]
        simp [not_lt.mpr h, h']
  · intro h
    exact ⟨1, (ha h).2.1, Or.inr ⟨rfl, by rw [(ha h).2.2]; simp⟩⟩
  · intro h
    exact ⟨0, (hb h).2.1, Or.inl ⟨rfl, by rw [(hb h).2.2]; omega⟩⟩

/-- C12, levels listed from the bottom up: at/above the last level counts as above the surface. -/
theorem C12_boundary_bottom_first (rnd : K → K) (hk : KeepsNonzero rnd)
    (levels : List K) (hs : StrictDecr levels) (top bottom : K) (h0 : levels.head? = some bottom)
    (h1 : levels.getLast? = some top) (hn : 2 ≤ levels.length) (shape0 : Option Nat)
    (hsh : shape0 ≠ some 1) (sbc bbc : BC) (depths : List K) :
    ∃ out, levelAlphas rnd levels shape0 sbc bbc depths = .ok out ∧
      List.Forall₂ (fun d e =>
        (e.masked = true ↔ (d ≤ top ∧ sbc = .mask) ∨ (bottom < d ∧ bbc = .mask)) ∧
        (d ≤ top → ∃ α, e.alpha = some α ∧ SelectsLevel e.idx α (levels.length - 1)) ∧
        (bottom < d → ∃ α, e.alpha = some α ∧ SelectsLevel e.idx α 0)) depths out := by
  have h0' : levels[0]? = some bottom := by rw [← List.head?_eq_getElem?]; exact h0
  have h1' : levels[levels.length - 1]? = some top := by
    rw [← List.getLast?_eq_getElem?]; exact h1
  have hfl : bottom > top := Np.pairwise_get?_lt hs (by omega) h0' h1'
  obtain ⟨out, ho, hf⟩ := levelAlphas_desc hk hs hn h0' h1' shape0 hsh sbc bbc depths
  refine ⟨out, ho, hf.imp ?_⟩
  rintro d e ⟨ha, hb, hc⟩
  refine ⟨?_, ?_, ?_⟩
  · rcases le_or_gt d top with h | h
    · rw [(ha h).1]
      simp [h, not_lt.mpr (le_trans h (le_of_lt hfl))]
    · rcases le_or_gt d bottom with h' | h'
      · rw [(hc h h').1]
        simp [not_le.mpr h, not_lt.mpr h']
      · rw [(hb h').1]
        simp [not_le.mpr h, h']
  · intro h
    exact ⟨0, (ha h).2.1, Or.inl ⟨rfl, by rw [(ha h).2.2]; omega⟩⟩
  · intro h
    exact ⟨1, (hb h).2.1, Or.inr ⟨rfl, by rw [(hb h).2.2]; simp⟩⟩

example : levelAlphas (fun x : ℚ => x) [0, 10, 30] (some 3) .extrapolate .mask [-1, 0, 5, 20, 30, 40]
    = .ok [⟨-1, some 1, false⟩, ⟨0, some 0, false⟩, ⟨0, some (1 / 2), false⟩,
      ⟨1, some (1 / 2), false⟩, ⟨2, some 0, true⟩, ⟨2, some 0, true⟩] := by decide +kernel
example : levelAlphas (fun x : ℚ => x) [30, 10, 0] none .mask .extrapolate [-1, 0, 5, 20, 30, 40]
    = .ok [⟨2, some 0, true⟩, ⟨2, some 0, true⟩, ⟨1, some (1 / 2), false⟩,
      ⟨0, some (1 / 2), false⟩, ⟨0, some 0, false⟩, ⟨-1, some 1, false⟩] := by decide +kernel
example : StrictIncr [(0 : ℚ), 10, 30] ∧ StrictDecr [(30 : ℚ), 10, 0] := by
  unfold StrictIncr StrictDecr; decide +kernel

/-! ## C13, C14: sigma depths -/

/-- C13, columns listed from the surface down: the call never fails, and every point between the
first level (included) and the last (excluded) of its own unmasked column gets two adjacent levels
of that column enclosing its depth and a weight in [0,1]. -/
theorem C13_own_column_surface_first (rnd : K → K) (hr : Rounding rnd) (hk : KeepsNonzero rnd)
    (n layers : Nat) (hn : 2 ≤ n) (pts : List (Pt K))
    (hcols : ∀ p ∈ pts, StrictIncr p.col ∧ p.col.length = n) (sbc bbc : BC) :
    ∃ out, sigmaAlphas rnd 0 ((n : Int) - 1) n layers n sbc bbc (pts.map Pt.d) (pts.map Pt.col)
        (pts.map Pt.cm) = .ok out ∧
      List.Forall₂ (fun p e => p.cm = false → ∀ top bottom, p.col.head? = some top →
        p.col.getLast? = some bottom → top ≤ p.d → p.d < bottom →
        e.masked = false ∧ ∃ α, e.alpha = some α ∧ Encloses p.col p.d e.idx α ∧
          ((∀ x, rnd x = x) → Reconstructs p.col p.d e.idx α)) pts out := by
  obtain ⟨out, ho, hf⟩ := sigmaAlphas_asc hr hk n layers hn pts hcols sbc bbc
  refine ⟨out, ho, hf.imp ?_⟩
  intro p e he hcm top bottom ht hb hlo hhi
  obtain ⟨_, _, hc⟩ := he top bottom (by rw [← List.head?_eq_getElem?]; exact ht)
    (by rw [← List.getLast?_eq_getElem?]; exact hb)
  obtain ⟨hm, j, a, b, hj, ha, hb, had, hdb, hal⟩ := hc hlo hhi
  have hab := lt_of_le_of_lt had hdb
  obtain ⟨α, q1, q2, q3⟩ := ratio_incr hr hk hab had (le_of_lt hdb)
  refine ⟨by rw [hm, hcm], α, by rw [hal hcm, q1], ⟨j, a, b, hj, ha, hb,
    by rw [min_eq_left (le_of_lt hab)]; exact had,
    by rw [max_eq_right (le_of_lt hab)]; exact le_of_lt hdb, q2, q3⟩, ?_⟩
  intro hid j' a' b' hj' ha' hb'
  have : j' = j := by omega
  subst this
  rw [ha] at ha'; rw [hb] at hb'; cases ha'; cases hb'
  have : rnd = fun x => x := funext hid
  subst this
  exact ratio_id q1

/-- C13, columns listed from the bottom up: from the last level (the surface, included) to the first
(excluded). -/
theorem C13_own_column_bottom_first (rnd : K → K) (hr : Rounding rnd) (hk : KeepsNonzero rnd)
    (n layers : Nat) (hn : 2 ≤ n) (pts : List (Pt K))
    (hcols : ∀ p ∈ pts, StrictDecr p.col ∧ p.col.length = n) (sbc bbc : BC) :
    ∃ out, sigmaAlphas rnd ((n : Int) - 1) 0 n layers n sbc bbc (pts.map Pt.d) (pts.map Pt.col)
        (pts.map Pt.cm) = .ok out ∧
      List.Forall₂ (fun p e => p.cm = false → ∀ top bottom, p.col.head? = some bottom →
        p.col.getLast? = some top → top ≤ p.d → p.d < bottom →
        e.masked = false ∧ ∃ α, e.alpha = some α ∧ Encloses p.col p.d e.idx α ∧
          ((∀ x, rnd x = x) → Reconstructs p.col p.d e.idx α)) pts out := by
  obtain ⟨out, ho, hf⟩ := sigmaAlphas_desc hr hk n layers hn pts hcols sbc bbc
  refine ⟨out, ho, hf.imp ?_⟩
  intro p e he hcm top bottom hb ht hlo hhi
  obtain ⟨_, _, hc⟩ := he bottom top (by rw [← List.head?_eq_getElem?]; exact hb)
    (by rw [← List.getLast?_eq_getElem?]; exact ht)
  obtain ⟨hm, j, a, b, hj, ha, hb, had, hdb, hal⟩ := hc hlo hhi
  have hab := lt_of_le_of_lt had hdb
  obtain ⟨α, q1, q2, q3⟩ := ratio_decr hr hk hab had (le_of_lt hdb)
  refine ⟨by rw [hm, hcm], α, by rw [hal hcm, q1], ⟨j, a, b, hj, ha, hb,
    by rw [min_eq_right (le_of_lt hab)]; exact had,
    by rw [max_eq_left (le_of_lt hab)]; exact le_of_lt hdb, q2, q3⟩, ?_⟩
  intro hid j' a' b' hj' ha' hb'
  have : j' = j := by omega
  subst this
  rw [ha] at ha'; rw [hb] at hb'; cases ha'; cases hb'
  have : rnd = fun x => x := funext hid
  subst this
  exact ratio_id q1

/-- C14, columns listed from the surface down. (A condition other than the two documented strings
acts as 'mask'.) -/
theorem C14_boundary_surface_first (rnd : K → K) (hr : Rounding rnd) (hk : KeepsNonzero rnd)
    (n layers : Nat) (hn : 2 ≤ n) (pts : List (Pt K))
    (hcols : ∀ p ∈ pts, StrictIncr p.col ∧ p.col.length = n) (sbc bbc : BC) :
    ∃ out, sigmaAlphas rnd 0 ((n : Int) - 1) n layers n sbc bbc (pts.map Pt.d) (pts.map Pt.col)
        (pts.map Pt.cm) = .ok out ∧
      List.Forall₂ (fun p e => ∀ top bottom, p.col.head? = some top →
        p.col.getLast? = some bottom →
        (e.masked = true ↔ p.cm = true ∨ (p.d < top ∧ sbc ≠ .extrapolate) ∨
          (bottom ≤ p.d ∧ bbc ≠ .extrapolate)) ∧
        (p.d < top → ∃ α, e.alpha = some α ∧ SelectsLevel e.idx α 0) ∧
        (bottom ≤ p.d → ∃ α, e.alpha = some α ∧ SelectsLevel e.idx α (n - 1))) pts out := by
  obtain ⟨out, ho, hf⟩ := sigmaAlphas_asc hr hk n layers hn pts hcols sbc bbc
  refine ⟨out, ho, ?_⟩
  have hf2 : List.Forall₂ (fun p e => p ∈ pts ∧ AscSigma rnd p.col p.cm
      (decide (sbc ≠ .extrapolate)) (decide (bbc ≠ .extrapolate)) p.d e) pts out := by
    rw [List.forall₂_iff_get] at hf ⊢
    exact ⟨hf.1, fun i h1 h2 => ⟨List.get_mem _ _, hf.2 i h1 h2⟩⟩
  refine hf2.imp ?_
  rintro p e ⟨hpm, he⟩ top bottom ht hb
  obtain ⟨hcs, hcl⟩ := hcols p hpm
  have ht' : p.col[0]? = some top := by rw [← List.head?_eq_getElem?]; exact ht
  have hb' : p.col[p.col.length - 1]? = some bottom := by
    rw [← List.getLast?_eq_getElem?]; exact hb
  have hfl : top < bottom := Np.pairwise_get?_lt hcs (by omega) ht' hb'
  obtain ⟨ha, hb, hc⟩ := he top bottom ht' hb'
  refine ⟨?_, ?_, ?_⟩
  · rcases lt_or_ge p.d top with h | h
    · rw [(ha h).1]
      simp [h, not_le.mpr (lt_trans h hfl)]
    · rcases lt_or_ge p.d bottom with h' | h'
      · rw [(hc h h').1]
        simp [not_lt.mpr h, not_le.mpr h']
      · rw [(hb h').1]
        simp [not_lt.mpr h, h']
  · intro h
    exact ⟨1, (ha h).2.1, Or.inr ⟨rfl, by rw [(ha h).2.2]; simp⟩⟩
  · intro h
    exact ⟨0, (hb h).2.1, Or.inl ⟨rfl, by rw [(hb h).2.2, hcl]; omega⟩⟩

/-- C14, columns listed from the bottom up. -/
theorem C14_boundary_bottom_first (rnd : K → K) (hr : Rounding rnd) (hk : KeepsNonzero rnd)
    (n layers : Nat) (hn : 2 ≤ n) (pts : List (Pt K))
    (hcols : ∀ p ∈ pts, StrictDecr p.col ∧ p.col.length = n) (sbc bbc : BC) :
    ∃ out, sigmaAlphas rnd ((n : Int) - 1) 0 n layers n sbc bbc (pts.map Pt.d) (pts.map Pt.col)
        (pts.map Pt.cm) = .ok out ∧
      List.Forall₂ (fun p e => ∀ top bottom, p.col.head? = some bottom →
        p.col.getLast? = some top →
        (e.masked = true ↔ p.cm = true ∨ (p.d < top ∧ sbc ≠ .extrapolate) ∨
          (bottom ≤ p.d ∧ bbc ≠ .extrapolate)) ∧
        (p.d < top → ∃ α, e.alpha = some α ∧ SelectsLevel e.idx α (n - 1)) ∧
        (bottom ≤ p.d → ∃ α, e.alpha = some α ∧ SelectsLevel e.idx α 0)) pts out := by
  obtain ⟨out, ho, hf⟩ := sigmaAlphas_desc hr hk n layers hn pts hcols sbc bbc
  refine ⟨out, ho, ?_⟩
  have hf2 : List.Forall₂ (fun p e => p ∈ pts ∧ DescSigma rnd p.col p.cm
      (decide (sbc ≠ .extrapolate)) (decide (bbc ≠ .extrapolate)) p.d e) pts out := by
    rw [List.forall₂_iff_get] at hf ⊢
    exact ⟨hf.1, fun i h1 h2 => ⟨List.get_mem _ _, hf.2 i h1 h2⟩⟩
  refine hf2.imp ?_
  rintro p e ⟨hpm, he⟩ top bottom hb ht
  obtain ⟨hcs, hcl⟩ := hcols p hpm
  have hb' : p.col[0]? = some bottom := by rw [← List.head?_eq_getElem?]; exact hb
  have ht' : p.col[p.col.length - 1]? = some top := by
    rw [← List.getLast?_eq_getElem?]; exact ht
  have hfl : bottom > top := Np.pairwise_get?_lt hcs (by omega) hb' ht'
  obtain ⟨ha, hb, hc⟩ := he bottom top hb' ht'
  refine ⟨?_, ?_, ?_⟩
  · rcases lt_or_ge p.d top with h | h
    · rw [(ha h).1]
      simp [h, not_le.mpr (lt_trans h hfl)]
    · rcases lt_or_ge p.d bottom with h' | h'
      · rw [(hc h h').1]
        simp [not_lt.mpr h, not_le.mpr h']
      · rw [(hb h').1]
        simp [not_lt.mpr h, h']
  · intro h
    exact ⟨0, (ha h).2.1, Or.inl ⟨rfl, by rw [(ha h).2.2, hcl]; omega⟩⟩
  · intro h
    exact ⟨1, (hb h).2.1, Or.inr ⟨rfl, by rw [(hb h).2.2]; simp⟩⟩

example : sigmaAlphas (fun x : ℚ => x) 2 0 3 2 3 .extrapolate .mask [5, 0, 20, -1, 3]
    [[20, 8, 0], [20, 8, 0], [20, 8, 0], [20, 8, 0], [4, 2, 0]] [false, false, false, false, true]
    = .ok [⟨1, some (3 / 8), false⟩, ⟨1, some 1, false⟩, ⟨-1, some 1, true⟩, ⟨2, some 0, false⟩,
      ⟨0, some (-1 / 16 * -8), true⟩] := by decide +kernel
example : sigmaAlphas (fun x : ℚ => x) 0 2 3 2 3 .extrapolate .mask [5, 0, 20, -1]
    [[0, 8, 20], [0, 1, 2], [0, 8, 20], [0, 8, 20]] [false, false, false, false]
    = .ok [⟨0, some (5 / 8), false⟩, ⟨0, some 0, false⟩, ⟨2, some 0, true⟩, ⟨-1, some 1, false⟩] := by
  decide +kernel

/-! ## C15, C16: water columns -/

omit [IsStrictOrderedRing K] in
private theorem map_head_last {α β : Type*} (f : α → β) (l : List α) (a b : α)
    (h0 : l.head? = some a) (h1 : l.getLast? = some b) :
    (l.map f).head? = some (f a) ∧ (l.map f).getLast? = some (f b) := by
  simp [List.head?_map, List.getLast?_map, h0, h1]

/-- C15. ROMS columns listed from the bottom up: strictly decreasing depths from `h + zeta` at the
bottom to 0 at the surface, for both vertical transforms. -/
theorem C15_roms_column (vt : Nat) (hc h zeta : K) (sc : List (K × K))
    (hvt : (vt = 1 ∧ hc ≤ h) ∨ vt = 2) (hhc : 0 ≤ hc) (hh : 0 < h) (hz : 0 < h + zeta)
    (hmono : sc.Pairwise fun p q => p.1 < q.1 ∧ p.2 < q.2)
    (h0 : sc.head? = some (-1, -1)) (h1 : sc.getLast? = some (0, 0)) :
    ∃ col, romsProfile vt hc h zeta sc = .ok col ∧ col.length = sc.length ∧ StrictDecr col ∧
      col.head? = some (h + zeta) ∧ col.getLast? = some 0 := by
  rcases hvt with ⟨rfl, hle⟩ | rfl
  · have hok : romsProfile 1 hc h zeta sc
        = .ok (sc.map fun p => -(hc * p.1 + (h - hc) * p.2) * ((h + zeta) / h)) := by
      unfold romsProfile
      apply mapE_ok
      intro p _
      simp only [romsS, if_true, ne_of_gt hh, if_false]
      congr 1
      field_simp
      ring
    refine ⟨_, hok, by simp, ?_, ?_, ?_⟩
    · unfold StrictDecr
      rw [List.pairwise_map]
      refine hmono.imp ?_
      rintro ⟨s, c⟩ ⟨s', c'⟩ ⟨hs, hc'⟩
      simp only at hs hc' ⊢
      have hpos : 0 < (h + zeta) / h := div_pos hz hh
      have : hc * s + (h - hc) * c < hc * s' + (h - hc) * c' := by
        rcases eq_or_lt_of_le hhc with e | e
        · rw [← e]; nlinarith
        · nlinarith [mul_pos e (sub_pos.mpr hs),
            mul_nonneg (sub_nonneg.mpr hle) (le_of_lt (sub_pos.mpr hc'))]
      nlinarith
    · rw [(map_head_last _ sc _ _ h0 h1).1]
      congr 1
      field_simp
      ring
    · rw [(map_head_last _ sc _ _ h0 h1).2]
      congr 1
      ring
  · have hpos : 0 < hc + h := by linarith
    have hok : romsProfile 2 hc h zeta sc
        = .ok (sc.map fun p => -((h + zeta) * ((hc * p.1 + h * p.2) / (hc + h)))) := by
      unfold romsProfile
      apply mapE_ok
      intro p _
      have : ¬ (2 : Nat) = 1 := by omega
      simp only [romsS, this, if_true, if_false, ne_of_gt hpos]
      congr 1
      ring
    refine ⟨_, hok, by simp, ?_, ?_, ?_⟩
    · unfold StrictDecr
      rw [List.pairwise_map]
      refine hmono.imp ?_
      rintro ⟨s, c⟩ ⟨s', c'⟩ ⟨hs, hc'⟩
      simp only at hs hc' ⊢
      have hS : (hc * s + h * c) / (hc + h) < (hc * s' + h * c') / (hc + h) := by
        apply div_lt_div_of_pos_right _ hpos
        nlinarith [mul_nonneg hhc (le_of_lt (sub_pos.mpr hs)), mul_pos hh (sub_pos.mpr hc')]
      nlinarith
    · rw [(map_head_last _ sc _ _ h0 h1).1]
      congr 1
      field_simp
      ring
    · rw [(map_head_last _ sc _ _ h0 h1).2]
      congr 1
      ring

/-- C15: any other vertical transform fails instead of producing numbers. -/
theorem C15_unknown_transform (vt : Nat) (hvt : vt ≠ 1 ∧ vt ≠ 2) (hc h zeta : K) (p : K × K)
    (sc : List (K × K)) : romsProfile vt hc h zeta (p :: sc) = .error .unboundLocal := by
  simp [romsProfile, mapE, romsS, hvt.1, hvt.2]

example : romsProfile 1 (5 : ℚ) 20 1 [(-1, -1), (-1 / 2, -1 / 4), (0, 0)]
      = .ok [21, 105 / 16, 0] ∧
    romsProfile 2 (5 : ℚ) 20 1 [(-1, -1), (-1 / 2, -1 / 4), (0, 0)] = .ok [21, 63 / 10, 0] := by
  decide +kernel

/-- C16. FVCOM columns listed from the surface down: strictly increasing depths from 0 at the surface
to `h + zeta` at the bottom. -/
theorem C16_fvcom_column (h zeta : K) (hz : 0 < h + zeta) (sigma : List K) (hs : StrictDecr sigma)
    (h0 : sigma.head? = some 0) (h1 : sigma.getLast? = some (-1)) :
    (fvcomProfile h zeta sigma).length = sigma.length ∧ StrictIncr (fvcomProfile h zeta sigma) ∧
      (fvcomProfile h zeta sigma).head? = some 0 ∧
      (fvcomProfile h zeta sigma).getLast? = some (h + zeta) := by
  unfold fvcomProfile
  refine ⟨by simp, ?_, ?_, ?_⟩
  · unfold StrictIncr
    rw [List.pairwise_map]
    refine hs.imp ?_
    intro a b hab
    unfold fvcomS
    nlinarith
  · rw [(map_head_last _ sigma _ _ h0 h1).1]; simp [fvcomS]
  · rw [(map_head_last _ sigma _ _ h0 h1).2]; simp [fvcomS, add_comm]

example : fvcomProfile (20 : ℚ) 1 [0, -1 / 3, -1] = [0, 7, 21] := by decide +kernel

/-- C13 for a whole ROMS depth object: with surface and bottom index taken from the s levels and
columns computed from each point's own bathymetry and free surface, the call succeeds and every
point from the surface down to (not including) its own seafloor is enclosed by two adjacent levels
of its own column. -/
theorem C13_roms (rnd : K → K) (hr : Rounding rnd) (hk : KeepsNonzero rnd) (vt : Nat) (hc : K)
    (sc : List (K × K)) (layers : Nat) (hhc : 0 ≤ hc)
    (hmono : sc.Pairwise fun p q => p.1 < q.1 ∧ p.2 < q.2)
    (h0 : sc.head? = some (-1, -1)) (h1 : sc.getLast? = some (0, 0)) (sbc bbc : BC)
    (pts : List (K × K × K × Bool))
    (hp : ∀ p ∈ pts, 0 < p.2.1 ∧ 0 < p.2.1 + p.2.2.1 ∧ ((vt = 1 ∧ hc ≤ p.2.1) ∨ vt = 2)) :
    ∃ out, romsAlphas rnd vt hc sc layers sbc bbc pts = .ok out ∧
      List.Forall₂ (fun p e => p.2.2.2 = false → 0 ≤ p.1 → p.1 < p.2.1 + p.2.2.1 →
        e.masked = false ∧ ∃ col α, romsProfile vt hc p.2.1 p.2.2.1 sc = .ok col ∧
          e.alpha = some α ∧ Encloses col p.1 e.idx α ∧
          ((∀ x, rnd x = x) → Reconstructs col p.1 e.idx α)) pts out := by
  have hne : sc ≠ [] := by rintro rfl; simp at h0
  have hn : 2 ≤ sc.length := by
    rcases sc with _ | ⟨a, _ | ⟨b, t⟩⟩
    · exact absurd rfl hne
    · exfalso
      simp only [List.head?_cons, Option.some.injEq, List.getLast?_singleton] at h0 h1
      rw [h0] at h1
      have := congrArg Prod.fst h1
      simp at this
    · simp
  have hs : (sc.map Prod.fst).Pairwise (· < ·) := by
    rw [List.pairwise_map]; exact hmono.imp fun h => h.1
  have hne' : sc.map Prod.fst ≠ [] := by simpa using hne
  have hcol : ∀ p ∈ pts, ∃ col, romsProfile vt hc p.2.1 p.2.2.1 sc = .ok col ∧
      col.length = sc.length ∧ StrictDecr col ∧ col.head? = some (p.2.1 + p.2.2.1) ∧
      col.getLast? = some 0 := fun p hpm =>
    C15_roms_column vt hc p.2.1 p.2.2.1 sc (hp p hpm).2.2 hhc (hp p hpm).1 (hp p hpm).2.1 hmono h0 h1
  obtain ⟨profiles, hprof, hpf⟩ := mapE_rel
    (f := fun p : K × K × K × Bool => romsProfile vt hc p.2.1 p.2.2.1 sc)
    (R := fun p col => romsProfile vt hc p.2.1 p.2.2.1 sc = .ok col ∧
      col.length = sc.length ∧ StrictDecr col ∧ col.head? = some (p.2.1 + p.2.2.1) ∧
      col.getLast? = some 0) (l := pts) (fun p hpm => by
        obtain ⟨c, hc1, hc2⟩ := hcol p hpm
        exact ⟨c, hc1, hc1, hc2⟩)
  -- the points together with their columns
  let qs : List (Pt K) := List.zipWith (fun (p : K × K × K × Bool) col => ⟨p.1, col, p.2.2.2⟩)
    pts profiles
  have hlen : pts.length = profiles.length := hpf.length_eq
  have hq : qs.map Pt.d = pts.map (·.1) ∧ qs.map Pt.col = profiles ∧
      qs.map Pt.cm = pts.map (·.2.2.2) ∧ (∀ q ∈ qs, StrictDecr q.col ∧ q.col.length = sc.length) ∧
      List.Forall₂ (fun (p : K × K × K × Bool) q => q.d = p.1 ∧ q.cm = p.2.2.2 ∧
        romsProfile vt hc p.2.1 p.2.2.1 sc = .ok q.col ∧ q.col.head? = some (p.2.1 + p.2.2.1) ∧
        q.col.getLast? = some 0) pts qs := by
    clear hcol hprof hlen hp
    induction hpf with
    | nil => simp [qs]
    | cons h _ ih =>
      obtain ⟨i1, i2, i3, i4, i5⟩ := ih
      obtain ⟨c1, c2, c3, c4, c5⟩ := h
      refine ⟨by simpa [qs] using i1, by simpa [qs] using i2, by simpa [qs] using i3, ?_, ?_⟩
      · intro q hq
        simp only [qs, List.zipWith_cons_cons, List.mem_cons] at hq
        rcases hq with rfl | hq
        · exact ⟨c3, c2⟩
        · exact i4 q hq
      · exact List.Forall₂.cons ⟨rfl, rfl, c1, c4, c5⟩ i5
  obtain ⟨i1, i2, i3, i4, i5⟩ := hq
  obtain ⟨out, ho, hf⟩ := C13_own_column_bottom_first rnd hr hk sc.length layers hn qs i4 sbc bbc
  refine ⟨out, ?_, ?_⟩
  · unfold romsAlphas
    rw [argmax_incr hs hne', argmin_incr hs hne']
    simp only
    rw [hprof]
    simp only [List.length_map]
    rw [i1, i2, i3] at ho
    rw [← ho]
    congr 1
    omega
  · have : ∀ {A B C : Type _} {R : A → B → Prop} {S : B → C → Prop} {a : List A} {b : List B}
        {c : List C}, List.Forall₂ R a b → List.Forall₂ S b c →
        List.Forall₂ (fun x z => ∃ y, R x y ∧ S y z) a c := by
      intro A B C R S a b c h
      induction h generalizing c with
      | nil => intro h; cases h; exact List.Forall₂.nil
      | cons h _ ih =>
        intro h'
        cases h' with
        | cons h1 h2 => exact List.Forall₂.cons ⟨_, h, h1⟩ (ih h2)
    refine (this i5 hf).imp ?_
    rintro p e ⟨q, ⟨r1, r2, r3, r4, r5⟩, hcl⟩ hcm hlo hhi
    obtain ⟨m, α, hα, henc, hrec⟩ := hcl (r2.trans hcm) 0 (p.2.1 + p.2.2.1) r4 r5
      (by rw [r1]; exact hlo) (by rw [r1]; exact hhi)
    exact ⟨m, q.col, α, r3, hα, by rw [← r1]; exact henc, by rw [← r1]; exact hrec⟩

/-- C13 for a whole FVCOM depth object: indices from the sigma list of the first node, columns from
each point's own sigma list, bathymetry and free surface. -/
theorem C13_fvcom (rnd : K → K) (hr : Rounding rnd) (hk : KeepsNonzero rnd) (node0 : List K)
    (hn0 : StrictDecr node0) (hn : 2 ≤ node0.length) (layers : Nat) (sbc bbc : BC)
    (pts : List (K × K × K × Bool × List K))
    (hp : ∀ p ∈ pts, 0 < p.2.1 + p.2.2.1 ∧ StrictDecr p.2.2.2.2 ∧
      p.2.2.2.2.length = node0.length ∧ p.2.2.2.2.head? = some 0 ∧
      p.2.2.2.2.getLast? = some (-1)) :
    ∃ out, fvcomAlphas rnd node0 layers sbc bbc pts = .ok out ∧
      List.Forall₂ (fun p e => p.2.2.2.1 = false → 0 ≤ p.1 → p.1 < p.2.1 + p.2.2.1 →
        e.masked = false ∧ ∃ α, e.alpha = some α ∧
          Encloses (fvcomProfile p.2.1 p.2.2.1 p.2.2.2.2) p.1 e.idx α ∧ ((∀ x, rnd x = x) →
          Reconstructs (fvcomProfile p.2.1 p.2.2.1 p.2.2.2.2) p.1 e.idx α)) pts out := by
  have hne : node0 ≠ [] := by rintro rfl; simp at hn
  let f : K × K × K × Bool × List K → Pt K := fun p =>
    ⟨p.1, fvcomProfile p.2.1 p.2.2.1 p.2.2.2.2, p.2.2.2.1⟩
  have hc : ∀ q ∈ pts.map f, StrictIncr q.col ∧ q.col.length = node0.length := by
    intro q hq
    obtain ⟨p, hpm, rfl⟩ := List.mem_map.mp hq
    obtain ⟨p1, p2, p3, p4, p5⟩ := hp p hpm
    obtain ⟨c1, c2, _, _⟩ := C16_fvcom_column p.2.1 p.2.2.1 p1 p.2.2.2.2 p2 p4 p5
    exact ⟨c2, c1.trans p3⟩
  obtain ⟨out, ho, hf⟩ := C13_own_column_surface_first rnd hr hk node0.length layers hn
    (pts.map f) hc sbc bbc
  refine ⟨out, ?_, ?_⟩
  · unfold fvcomAlphas
    rw [argmax_decr hn0 hne, argmin_decr hn0 hne]
    simp only [List.map_map] at ho
    simp only
    rw [← ho]
    congr 1
    omega
  · rw [List.forall₂_map_left_iff] at hf
    rw [List.forall₂_iff_get] at hf ⊢
    refine ⟨hf.1, fun i i1 i2 hcm hlo hhi => ?_⟩
    obtain ⟨p1, p2, p3, p4, p5⟩ := hp _ (List.get_mem pts ⟨i, i1⟩)
    obtain ⟨_, _, c3, c4⟩ := C16_fvcom_column _ _ p1 _ p2 p4 p5
    obtain ⟨m, α, hα, henc, hrec⟩ := hf.2 i i1 i2 hcm _ _ c3 c4 hlo hhi
    exact ⟨m, α, hα, henc, hrec⟩

example : romsAlphas (fun x : ℚ => x) 2 5 [(-1, -1), (-1 / 2, -1 / 4), (0, 0)] 2 .extrapolate .mask
    [(3, 20, 1, false), (21, 20, 1, false), (0, 40, 0, false)]
    = .ok [⟨1, some (11 / 21), false⟩, ⟨-1, some 1, true⟩, ⟨1, some 1, false⟩] := by decide +kernel
example : fvcomAlphas (fun x : ℚ => x) [0, -1 / 2, -1] 2 .extrapolate .mask
    [(3, 20, 1, false, [0, -1 / 3, -1])] = .ok [⟨0, some (3 / 7), false⟩] := by decide +kernel

/-! ## C65: loading level depths -/

/-- C65. Loading sets the shallowest level to zero and keeps the others; with the remaining levels
strictly below the surface the order stays strict, so C11 and C12 apply to the loaded levels. -/
theorem C65_top_level_zero (levels : List K) (top : K) :
    (StrictIncr (top :: levels) → ∃ out, zeroTop (top :: levels) = .ok out ∧ out = 0 :: levels ∧
      ((∀ x ∈ levels, 0 < x) → StrictIncr out)) ∧
    (StrictDecr (levels ++ [top]) → ∃ out, zeroTop (levels ++ [top]) = .ok out ∧
      out = levels ++ [0] ∧ ((∀ x ∈ levels, 0 < x) → StrictDecr out)) := by
  constructor
  · intro h
    refine ⟨0 :: levels, ?_, rfl, ?_⟩
    · unfold zeroTop
      rw [argmin_incr h (by simp)]
      rfl
    · intro hp
      exact List.pairwise_cons.mpr ⟨hp, (List.pairwise_cons.mp h).2⟩
  · intro h
    refine ⟨levels ++ [0], ?_, rfl, ?_⟩
    · unfold zeroTop
      rw [argmin_decr h (by simp)]
      simp
    · intro hp
      obtain ⟨h1, _, _⟩ := List.pairwise_append.mp h
      refine List.pairwise_append.mpr ⟨h1, by simp, ?_⟩
      intro a ha b hb
      rw [List.mem_singleton] at hb
      subst hb
      exact hp a ha

/-- C65 is about a shallowest level that need not be first in general: for every list, the level
that is zeroed is a smallest one. -/
theorem C65_zeroed_is_smallest (levels : List K) (out : List K) (h : zeroTop levels = .ok out) :
    ∃ (s : Nat) (a : K), levels[s]? = some a ∧ (∀ x ∈ levels, a ≤ x) ∧ out = levels.set s 0 := by
  have key : ∀ (l pre : List K) (best : K) (bi : Nat), pre[bi]? = some best →
      (∀ x ∈ pre, best ≤ x) → ∃ a, (pre ++ l)[argminFrom best bi pre.length l]? = some a ∧
        ∀ x ∈ pre ++ l, a ≤ x := by
    intro l
    induction l with
    | nil => intro pre best bi h1 h2; exact ⟨best, by simpa [argminFrom] using h1, by simpa using h2⟩
    | cons y t ih =>
      intro pre best bi h1 h2
      have hl : (pre ++ [y]).length = pre.length + 1 := by simp
      rw [argminFrom]
      split
      · rename_i hy
        obtain ⟨a, ha, hb⟩ := ih (pre ++ [y]) y pre.length (by simp) (by
          intro x hx
          rcases List.mem_append.mp hx with hx | hx
          · exact le_of_lt (lt_of_lt_of_le hy (h2 x hx))
          · rw [List.mem_singleton] at hx; exact le_of_eq hx.symm)
        rw [hl] at ha
        exact ⟨a, by simpa using ha, by simpa using hb⟩
      · rename_i hy
        have hbi : bi < pre.length := (List.getElem?_eq_some_iff.mp h1).1
        obtain ⟨a, ha, hb⟩ := ih (pre ++ [y]) best bi (by
          rw [List.getElem?_append_left hbi]; exact h1) (by
          intro x hx
          rcases List.mem_append.mp hx with hx | hx
          · exact h2 x hx
          · rw [List.mem_singleton] at hx; rw [hx]; exact not_lt.mp hy)
        rw [hl] at ha
        exact ⟨a, by simpa using ha, by simpa using hb⟩
  rcases levels with _ | ⟨x, t⟩
  · simp [zeroTop, argmin] at h
  · obtain ⟨a, ha, hb⟩ := key t [x] x 0 (by simp) (by simp)
    simp only [zeroTop, argmin] at h
    cases h
    exact ⟨_, a, by simpa using ha, by simpa using hb, rfl⟩

example : zeroTop [(5 : ℚ), 10, 30] = .ok [0, 10, 30] ∧ zeroTop [(30 : ℚ), 10, 5] = .ok [30, 10, 0] := by
  decide +kernel

/-! ## C17, C64: the factory -/

/-- C17. No match gives the surface-only depth; exactly one match gives that class; more than one
raises. -/
theorem C17_factory (avail : List Bool) :
    ((∀ k : Nat, avail[k]? ≠ some true) → factory avail = .ok .surface) ∧
    (∀ k : Nat, avail[k]? = some true → (∀ j : Nat, avail[j]? = some true → j = k) →
      factory avail = .ok (.cls k)) ∧
    (∀ j k : Nat, j ≠ k → avail[j]? = some true → avail[k]? = some true →
      factory avail = .error .valueError) := by
  have hany : avail.any id = true ↔ ∃ k : Nat, avail[k]? = some true := by
    rw [List.any_eq_true]
    constructor
    · rintro ⟨x, hx, h⟩
      obtain ⟨k, hk⟩ := List.getElem?_of_mem hx
      simp only [id] at h
      exact ⟨k, by rw [hk, h]⟩
    · rintro ⟨k, hk⟩
      exact ⟨true, List.mem_of_getElem? hk, rfl⟩
  -- the number of matches
  have hone : ∀ (l : List Bool) (k : Nat), l[k]? = some true →
      (∀ j : Nat, l[j]? = some true → j = k) →
      (l.filter id).length = 1 ∧ argmaxBool l = k := by
    intro l
    induction l with
    | nil => intro k h; simp at h
    | cons b t ih =>
      intro k hk hu
      cases b with
      | true =>
        have hk0 : k = 0 := (hu 0 (by simp)).symm
        subst hk0
        refine ⟨?_, rfl⟩
        have : t.filter id = [] := by
          rw [List.filter_eq_nil_iff]
          intro x hx hxt
          obtain ⟨j, hj⟩ := List.getElem?_of_mem hx
          simp only [id] at hxt
          have := hu (j + 1) (by simp [hj, hxt])
          omega
        simp [this]
      | false =>
        cases k with
        | zero => simp at hk
        | succ k =>
          obtain ⟨h1, h2⟩ := ih k (by simpa using hk) (fun j hj => by
            have := hu (j + 1) (by simpa using hj); omega)
          have hta : t.any id = true := by
            rw [List.any_eq_true]
            exact ⟨true, List.mem_of_getElem? (by simpa using hk), rfl⟩
          refine ⟨by simpa using h1, ?_⟩
          simp only [argmaxBool, hta, if_true, h2]
  have hpos : ∀ (l : List Bool) (k : Nat), l[k]? = some true → 1 ≤ (l.filter id).length := by
    intro l k hk
    have : true ∈ l.filter id := List.mem_filter.mpr ⟨List.mem_of_getElem? hk, rfl⟩
    exact List.length_pos_of_mem this
  have htwo : ∀ (l : List Bool) (j k : Nat), j < k → l[j]? = some true → l[k]? = some true →
      1 < (l.filter id).length := by
    intro l
    induction l with
    | nil => intro j k _ h; simp at h
    | cons b t ih =>
      intro j k hjk hj hk
      obtain ⟨k, rfl⟩ : ∃ k', k = k' + 1 := ⟨k - 1, by omega⟩
      have hk' : t[k]? = some true := by simpa using hk
      cases j with
      | zero =>
        have hb : b = true := by simpa using hj
        subst hb
        have := hpos t k hk'
        simp only [List.filter_cons, id, if_true, List.length_cons]
        exact Nat.lt_succ_of_le this
      | succ j =>
        have := ih j k (by omega) (by simpa using hj) hk'
        cases b
        · simpa using this
        · simp only [List.filter_cons, id, if_true, List.length_cons]
          exact Nat.lt_succ_of_lt this
  refine ⟨?_, ?_, ?_⟩
  · intro h
    have : ¬ avail.any id = true := fun hc => by
      obtain ⟨k, hk⟩ := hany.mp hc
      exact h k hk
    simp [factory, this]
  · intro k hk hu
    obtain ⟨h1, h2⟩ := hone avail k hk hu
    have ha := hany.mpr ⟨k, hk⟩
    simp [factory, ha, h1, h2]
  · intro j k hne hj hk
    have ha := hany.mpr ⟨k, hk⟩
    have h2 : 1 < (avail.filter id).length := by
      rcases Nat.lt_or_gt_of_ne hne with h | h
      · exact htwo avail j k h hj hk
      · exact htwo avail k j h hk hj
    simp [factory, ha, h2]

example : factory [false, true, false] = .ok (.cls 1) ∧ factory [false, false, false] = .ok .surface ∧
    factory [true, false, true] = .error .valueError := by decide

/-- C64 as listed: a surface-only depth loaded with a given surface index has that surface index. -/
def C64_statement : Prop := ∀ s : Int, (baseFromNetCDF (some s)).2 = s

/-- C64 is false: the index ends up as the object's name and -1 is used. -/
theorem C64_refuted : ¬ C64_statement := by
  intro h
  have := h 0
  revert this
  decide

/-- C64 holds for the default surface index only. Missing: every other index. -/
theorem C64_default_partial (s : Int) : (baseFromNetCDF (some s)).2 = s ↔ s = -1 := by
  simp [baseFromNetCDF, baseInit, eq_comm]

/-- C64. The index asked for becomes the name; without one the name is -1. -/
theorem C64_name : (∀ s : Int, (baseFromNetCDF (some s)).1 = some s) ∧ baseFromNetCDF none = (some (-1), -1) :=
  ⟨fun _ => rfl, rfl⟩

/-! ## C63: layer-centred data -/

/-- C63 as listed: for data on layers (one fewer than levels) with strictly decreasing mid-layer
depths the call succeeds for every depth when both conditions are 'extrapolate'. -/
def C63_statement : Prop :=
  ∀ (n : Nat) (d : ℚ) (col : List ℚ), 3 ≤ n → col.length = n - 1 → StrictDecr col →
    ∃ out, sigmaAlphas (fun x => x) ((n : Int) - 1) 0 n (n - 1) (n - 1) .extrapolate .extrapolate
      [d] [col] [false] = .ok out

/-- C63 is false: a point between the surface and the uppermost layer centre raises. -/
theorem C63_refuted : ¬ C63_statement := by
  intro h
  obtain ⟨out, ho⟩ := h 3 1 [10, 3] (by decide) rfl (by unfold StrictDecr; decide +kernel)
  have : sigmaAlphas (fun x : ℚ => x) 2 0 3 2 2 .extrapolate .extrapolate [1] [[10, 3]] [false]
      = .error .valueError := by decide +kernel
  rw [show (((3 : Nat) : Int) - 1) = 2 by norm_num, show (3 - 1 : Nat) = 2 by norm_num, this] at ho
  cases ho

/-- C63 holds for points from the uppermost layer centre down, bottom-first columns. Missing: points
above the uppermost layer centre, for which the call raises. -/
theorem C63_below_top_layer_partial (rnd : K → K) (hr : Rounding rnd) (hk : KeepsNonzero rnd)
    (n : Nat) (hn : 3 ≤ n) (sbc bbc : BC) (d : K) (col : List K) (hl : col.length = n - 1)
    (hs : StrictDecr col) (top : K) (ht : col.getLast? = some top) (hd : top ≤ d) :
    ∃ e, sigmaAlphas rnd ((n : Int) - 1) 0 n (n - 1) (n - 1) sbc bbc [d] [col] [false] = .ok [e] ∧
      (∀ bottom, col.head? = some bottom → d < bottom → e.masked = false ∧
        ∃ α, e.alpha = some α ∧ Encloses col d e.idx α) := by
  obtain ⟨k, hkk, hkn, hlo, hhi⟩ := Np.digitize_decr hs (by omega) d false
  simp only [Bool.false_eq_true, if_false] at hlo hhi
  have ht' : col[col.length - 1]? = some top := by
    rw [← List.getLast?_eq_getElem?]; exact ht
  have hk1 : k ≤ col.length - 1 := by
    by_contra hcon
    exact absurd (hlo (col.length - 1) top (by omega) ht') (not_lt.mpr hd)
  have hs0 : ¬ ((n : Int) - 1 = 0) := by omega
  have hone : ¬ (n - 1 = 1 ∨ n = 1) := by omega
  unfold sigmaAlphas
  rw [if_neg hone, if_neg (by simp)]
  simp only [List.zip_cons_cons, List.zip_nil_right, mapE, hkk, List.map_cons, List.map_nil]
  rcases Nat.eq_zero_or_pos k with rfl | hkpos
  · have hd0 : col[0]'(by omega) ≤ d := hhi 0 _ (Nat.le_refl _) (List.getElem?_eq_getElem (by omega))
    have hent : applyBC ((n : Int) - 1) 0 sbc bbc
        ({ idx := ((0 : Nat) : Int) - 1, alpha := none, masked := false } : Entry K)
        = { idx := -1, alpha := some 1, masked := decide (bbc ≠ .extrapolate) } := by
      have : ¬ ((n : Int) - 1 ≤ -1) := by omega
      cases sbc <;> cases bbc <;> simp [applyBC, this, hs0]
    rw [hent]
    obtain ⟨l0, l1, r0, r1⟩ := row_reads (row := col) (by omega)
      ({ idx := -1, alpha := some 1, masked := decide (bbc ≠ .extrapolate) } : Entry K)
    simp only at r0 r1
    simp only [sigmaWithin]
    rw [r0, r1]
    refine ⟨{ idx := -1, alpha := some 1, masked := decide (bbc ≠ .extrapolate) }, ?_, ?_⟩
    · simp
    · intro bottom hb hlt
      have : col[0]? = some bottom := by rw [← List.head?_eq_getElem?]; exact hb
      rw [List.getElem?_eq_getElem (by omega)] at this
      cases this
      exact absurd hlt (not_lt.mpr hd0)
  · obtain ⟨j, rfl⟩ : ∃ j, k = j + 1 := ⟨k - 1, by omega⟩
    have ha : col[j]? = some col[j] := List.getElem?_eq_getElem (by omega)
    have hb : col[j + 1]? = some col[j + 1] := List.getElem?_eq_getElem (by omega)
    have had : d < col[j] := hlo j _ (by omega) ha
    have hdb : col[j + 1] ≤ d := hhi (j + 1) _ (Nat.le_refl _) hb
    have hab : col[j + 1] < col[j] := lt_of_le_of_lt hdb had
    have g1 : ¬ ((j : Int) < 0) := by omega
    have g2 : ¬ ((n : Int) - 1 ≤ (j : Int)) := by omega
    have hent : applyBC ((n : Int) - 1) 0 sbc bbc
        ({ idx := ((j + 1 : Nat) : Int) - 1, alpha := none, masked := false } : Entry K)
        = { idx := (j : Int), alpha := none, masked := false } := by
      rw [show (((j + 1 : Nat) : Int) - 1) = (j : Int) by push_cast; ring]
      cases sbc <;> cases bbc <;> simp [applyBC, g1, g2, hs0]
    rw [hent]
    obtain ⟨α, q1, q2, q3⟩ := ratio_decr hr hk hab hdb (le_of_lt had)
    have hc : min (max (if false = true then 0 else (j : Int)) 0) ((col.length : Int) - 2)
        = (j : Int) := by
      simp only [Bool.false_eq_true, if_false]; omega
    have p0 : Np.pyGet col (j : Int) = .ok col[j] := Np.pyGet_nonneg ha
    have p1 : Np.pyGet col ((j : Int) + 1) = .ok col[j + 1] := by
      exact_mod_cast Np.pyGet_nonneg (i := j + 1) hb
    simp only [sigmaWithin]
    rw [hc, p0, p1]
    refine ⟨{ idx := (j : Int), alpha := some α, masked := false }, ?_, ?_⟩
    · simp [q1, not_lt.mpr q2, not_lt.mpr q3]
    · intro bottom _ _
      exact ⟨rfl, α, rfl, j, _, _, rfl, ha, hb, by rw [min_eq_right (le_of_lt hab)]; exact hdb,
        by rw [max_eq_left (le_of_lt hab)]; exact le_of_lt had, q2, q3⟩

example : sigmaAlphas (fun x : ℚ => x) 2 0 3 2 2 .extrapolate .extrapolate [5] [[10, 3]] [false]
    = .ok [⟨0, some (5 / 7), false⟩] := by decide +kernel

end Verif
