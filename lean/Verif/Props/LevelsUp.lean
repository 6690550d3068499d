import Verif.Model.LevelsUp
import Verif.Props.Depth
import Verif.Lemmas.Depth
import Mathlib.Algebra.Order.Ring.Rat
import Mathlib.Data.List.Nodup

/-!
# C208: level depths that count upwards
-/

set_option autoImplicit false

namespace Verif
open LevelsUp Spec DepthM

section C208
variable {K : Type} [Field K] [LinearOrder K] [IsStrictOrderedRing K]

/-- The depths below the surface that the values of a variable stand for. -/
def depthsStated (v : LevelVar K) : List K :=
  if v.positive = some "up" then v.values.map (fun x => -x) else v.values

/-- The shallowest of some depths is put at the surface and the others are kept. -/
def SurfacePut (depths out : List K) : Prop :=
  out.length = depths.length ∧ ∀ (i : Nat) (d : K), depths[i]? = some d →
    ((∀ x ∈ depths, d ≤ x) → out[i]? = some 0) ∧ ((∃ x ∈ depths, x < d) → out[i]? = some d)

/-- C208 as stated: the loaded levels are the depths the file states, the shallowest at the surface. -/
def C208_statement : Prop :=
  ∀ v : LevelVar ℚ, v.values ≠ [] → (StrictIncr v.values ∨ StrictDecr v.values) →
    (∀ d ∈ depthsStated v, 0 ≤ d) → ∃ out, loadVar v = .ok out ∧ SurfacePut (depthsStated v) out

theorem loadVar_zeroTop (v : LevelVar K) : loadVar v = zeroTop v.values := by
  unfold loadVar DepthFile.makeLevels
  cases h : zeroTop v.values <;> simp only [h]

theorem zeroTop_nonempty (l : List K) (h : l ≠ []) : ∃ out, zeroTop l = .ok out := by
  cases l with
  | nil => exact absurd rfl h
  | cons x t => exact ⟨_, rfl⟩

/-- C208, for levels that are not declared to count upwards. Missing: levels that are. -/
theorem C208_partial (v : LevelVar K) (hn : v.values ≠ []) (hm : StrictIncr v.values ∨ StrictDecr v.values)
    (hp : v.positive ≠ some "up") :
    ∃ out, loadVar v = .ok out ∧ SurfacePut (depthsStated v) out := by
  obtain ⟨out, ho⟩ := zeroTop_nonempty v.values hn
  refine ⟨out, by rw [loadVar_zeroTop, ho], ?_⟩
  rw [depthsStated, if_neg hp]
  obtain ⟨s, a, hs, hle, rfl⟩ := C65_zeroed_is_smallest v.values out ho
  refine ⟨by simp, ?_⟩
  intro i d hd
  have hnd : v.values.Nodup := by
    rcases hm with hm | hm
    · exact List.Pairwise.imp (fun h => ne_of_lt h) hm
    · exact List.Pairwise.imp (fun h => ne_of_gt h) hm
  obtain ⟨hsl, hse⟩ := List.getElem?_eq_some_iff.mp hs
  obtain ⟨hil, hie⟩ := List.getElem?_eq_some_iff.mp hd
  constructor
  · intro hall
    have had : a = d := le_antisymm (hle d (List.mem_of_getElem? hd)) (hall a (List.mem_of_getElem? hs))
    have his : s = i := (List.Nodup.getElem_inj_iff hnd).mp (by rw [hse, hie, had])
    subst his
    simp [hsl]
  · rintro ⟨x, hx, hxd⟩
    have his : s ≠ i := by
      rintro rfl
      have : a = d := Option.some.inj (hs.symm.trans hd)
      exact absurd (hle x hx) (not_le.mpr (this ▸ hxd))
    rw [List.getElem?_set_ne his, hd]

theorem mapE_first_error {α β : Type} (f : α → Except Err β) (a : α) (l : List α) (e : Err)
    (h : f a = .error e) : mapE f (a :: l) = .error e := by
  rw [mapE, h]

/-- Three or more levels of which the first two and one at the far end disagree on the direction cannot
be searched. -/
theorem levelAlphas_not_monotone (rnd : K → K) (levels : List K) (shape0 : Option Nat) (sbc bbc : BC)
    (depths : List K) (hd : depths ≠ []) (h1 : levels.length ≠ 1) (h0 : levels ≠ []) (hs : shape0 ≠ some 1)
    (hni : ¬ levels.Pairwise (· ≤ ·)) (hnd : ¬ levels.Pairwise (· ≥ ·)) :
    levelAlphas rnd levels shape0 sbc bbc depths = .error .valueError := by
  obtain ⟨d, ds, rfl⟩ := List.exists_cons_of_ne_nil hd
  obtain ⟨x, t, rfl⟩ := List.exists_cons_of_ne_nil h0
  have e1 : Np.pyGet (x :: t) 0 = .ok x := by simp [Np.pyGet]
  have e2 : ∃ y, Np.pyGet (x :: t) (-1) = .ok y := by
    refine ⟨(x :: t)[t.length]'(by simp), ?_⟩
    simp [Np.pyGet]
  obtain ⟨y, e2⟩ := e2
  have hdig : ∀ r, Np.digitize d (x :: t) r = .error .valueError := by
    intro r
    unfold Np.digitize
    rw [if_neg (by rw [Np.nondecreasing_iff]; exact hni), if_neg (by rw [Np.nonincreasing_iff]; exact hnd)]
  unfold levelAlphas
  rw [if_neg (by rintro (h | h); exacts [hs h, h1 h]), e1, e2]
  simp only
  rw [mapE_first_error (fun d => Np.digitize d (x :: t) !decide (x < y)) d ds _ (hdig _)]

/-- C208, what happens to levels that count upwards: heights up to the surface, three or more of them. They load,
the deepest of them is taken for the surface and put at zero, and every question for
levels of some points is refused. -/
theorem C208_upwards (v : LevelVar K) (h3 : 3 ≤ v.values.length)
    (hm : StrictIncr v.values ∨ StrictDecr v.values) (hneg : ∀ x ∈ v.values, x ≤ 0) :
    ∃ out, loadVar v = .ok out ∧
      (∃ (s : Nat) (a : K), v.values[s]? = some a ∧ (∀ x ∈ v.values, a ≤ x) ∧ out = v.values.set s 0) ∧
      ∀ (rnd : K → K) (shape0 : Option Nat) (sbc bbc : BC) (depths : List K), depths ≠ [] →
        shape0 ≠ some 1 → levelAlphas rnd out shape0 sbc bbc depths = .error .valueError := by
  have hn : v.values ≠ [] := by rintro h; rw [h] at h3; simp at h3
  obtain ⟨out, ho⟩ := zeroTop_nonempty v.values hn
  refine ⟨out, by rw [loadVar_zeroTop, ho], C65_zeroed_is_smallest v.values out ho, ?_⟩
  have hlen : out.length = v.values.length := by
    obtain ⟨s, a, _, _, rfl⟩ := C65_zeroed_is_smallest v.values out ho
    simp
  have key : ¬ out.Pairwise (· ≤ ·) ∧ ¬ out.Pairwise (· ≥ ·) := by
    rcases hm with hm | hm
    · obtain ⟨x, y, z, t, hv⟩ : ∃ x y z t, v.values = x :: y :: z :: t := by
        match h : v.values, h3 with
        | x :: y :: z :: t, _ => exact ⟨x, y, z, t, rfl⟩
      have ho' : out = 0 :: y :: z :: t := by
        have : zeroTop v.values = .ok (v.values.set 0 0) := by
          unfold zeroTop
          rw [argmin_incr hm hn]
        rw [ho, hv] at this
        injection this
      have hyz : y < z := by
        have := hm
        rw [StrictIncr, hv] at this
        exact (List.pairwise_cons.mp (List.pairwise_cons.mp this).2).1 z (by simp)
      have hz : z ≤ 0 := hneg z (by simp [hv])
      subst ho'
      constructor
      · intro h
        exact absurd ((List.pairwise_cons.mp h).1 y (by simp)) (not_le.mpr (lt_of_lt_of_le hyz hz))
      · intro h
        exact absurd ((List.pairwise_cons.mp (List.pairwise_cons.mp h).2).1 z (by simp)) (not_le.mpr hyz)
    · obtain ⟨l, b, hv⟩ : ∃ l b, v.values = l ++ [b] := ⟨_, _, (List.dropLast_append_getLast hn).symm⟩
      have ho' : out = l ++ [0] := by
        have : zeroTop v.values = .ok (v.values.set (v.values.length - 1) 0) := by
          unfold zeroTop
          rw [argmin_decr hm hn]
        rw [ho, hv] at this
        injection this with this
        rw [this]
        simp
      obtain ⟨x, y, t, rfl⟩ : ∃ x y t, l = x :: y :: t := by
        rw [hv] at h3
        match l, h3 with
        | x :: y :: t, _ => exact ⟨x, y, t, rfl⟩
      have hxy : y < x := by
        have := hm
        rw [StrictDecr, hv] at this
        exact (List.pairwise_cons.mp this).1 y (by simp)
      have hx : x ≤ 0 := hneg x (by simp [hv])
      subst ho'
      constructor
      · intro h
        exact absurd ((List.pairwise_cons.mp h).1 y (by simp)) (not_le.mpr hxy)
      · intro h
        have := (List.pairwise_cons.mp (List.pairwise_cons.mp h).2).1 0 (by simp)
        exact absurd this (not_le.mpr (lt_of_lt_of_le hxy hx))
  intro rnd shape0 sbc bbc depths hd hs
  exact levelAlphas_not_monotone rnd out shape0 sbc bbc depths hd (by omega)
    (by rintro h; rw [h] at hlen; simp at hlen; omega) hs key.1 key.2

/-- C208 fails: levels at the surface and at heights of -10 and -50, declared to count upwards. The
one at the bottom is put at the surface. -/
theorem C208_refuted : ¬ C208_statement := by
  intro h
  obtain ⟨out, ho, hp⟩ := h ⟨[0, -10, -50], some "up"⟩ (by simp) (Or.inr (by unfold StrictDecr; decide +kernel))
    (by decide +kernel)
  have : out = [0, -10, 0] := by
    have e : loadVar (⟨[0, -10, -50], some "up"⟩ : LevelVar ℚ) = .ok [0, -10, 0] := by decide +kernel
    rw [ho] at e
    injection e
  subst this
  have := (hp.2 1 10 (by decide +kernel)).2 ⟨0, by decide +kernel, by decide +kernel⟩
  exact absurd this (by decide +kernel)

/-- Levels counting downwards meet the hypotheses of `C208_partial`, in either order. -/
example : StrictIncr [(2 : ℚ), 10, 50] ∧ StrictDecr [(50 : ℚ), 10, 2] ∧
    loadVar (⟨[2, 10, 50], some "down"⟩ : LevelVar ℚ) = .ok [0, 10, 50] ∧
    loadVar (⟨[50, 10, 2], none⟩ : LevelVar ℚ) = .ok [50, 10, 0] := by
  refine ⟨by unfold StrictIncr; decide +kernel, by unfold StrictDecr; decide +kernel, ?_, ?_⟩ <;> decide +kernel

/-- Heights meet those of `C208_upwards`, and a question is refused. -/
example : StrictIncr [(-50 : ℚ), -10, 0] ∧ (∀ x ∈ [(-50 : ℚ), -10, 0], x ≤ 0) ∧
    loadVar (⟨[-50, -10, 0], some "up"⟩ : LevelVar ℚ) = .ok [0, -10, 0] ∧
    levelAlphas (fun x : ℚ => x) [0, -10, 0] (some 3) .extrapolate .mask [5] = .error .valueError := by
  refine ⟨by unfold StrictIncr; decide +kernel, ?_, ?_, ?_⟩ <;> decide +kernel

end C208

end Verif
