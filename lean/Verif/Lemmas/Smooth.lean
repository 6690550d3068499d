import Verif.Lemmas.Locality
import Verif.Props.Comparison

/-!
# How fast results vary with time and depth
-/

set_option autoImplicit false

namespace Verif
open Spec Verif.DepthM Verif.TimeM Verif.At

section
variable {K : Type} [Field K] [LinearOrder K] [IsStrictOrderedRing K]

/-- The slices the time stage reads, also when it fails. -/
theorem timeStage_reads {times : List Int} (hs : StrictIncr times) (hne : times ≠ []) (t : Int)
    (e : Bool) (hr : e = true ∨ times.length = 1 ∨
      ∃ lo hi, times.head? = some lo ∧ times.getLast? = some hi ∧ lo ≤ t ∧ t ≤ hi) :
    ∃ (i j : Nat) (α : K), TimeWeights times t e i j α ∧
      ((i = j ∧ α = 0 ∧ ∃ z : Int, (z = (i : Int) ∨ (z = -1 ∧ i + 1 = times.length)) ∧
        ∀ val : Int → Except Err (List (Cell K)), timeStage times val t e = val z) ∨
       (∃ z : Int, (z = (i : Int) ∨ (z = -1 ∧ i + 1 = times.length)) ∧
        ∀ (val : Int → Except Err (List (Cell K))), timeStage times val t e =
          match val z, val (j : Int) with
          | .ok v0, .ok v1 => .ok (List.zipWith (fun x y => mixCell x y (some α)) v0 v1)
          | .error x, _ => .error x
          | _, .error x => .error x)) := by
  obtain ⟨lo, h0⟩ : ∃ lo, times.head? = some lo := by
    cases times with
    | nil => exact absurd rfl hne
    | cons x _ => exact ⟨x, rfl⟩
  obtain ⟨hi, h1⟩ : ∃ hi, times.getLast? = some hi := ⟨_, List.getLast?_eq_some_getLast hne⟩
  have h0' : times[0]? = some lo := by rw [← List.head?_eq_getElem?]; exact h0
  have hpos : 0 < times.length := List.length_pos_iff.mpr hne
  have h1' : times[times.length - 1]? = some hi := by
    rw [← List.getLast?_eq_getElem?]; exact h1
  have hlohi : lo ≤ hi := head_le_last hs h0 h1
  have hmin : ∀ x ∈ times, lo ≤ x := by
    intro x hx
    obtain ⟨k, hk⟩ := List.getElem?_of_mem hx
    rcases Nat.eq_zero_or_pos k with rfl | hp
    · rw [hk] at h0'; cases h0'; exact le_refl _
    · exact le_of_lt (Np.pairwise_get?_lt hs hp h0' hk)
  have hmax : ∀ x ∈ times, x ≤ hi := by
    intro x hx
    obtain ⟨k, hk⟩ := List.getElem?_of_mem hx
    have hkl : k < times.length := (List.getElem?_eq_some_iff.mp hk).1
    rcases Nat.lt_or_eq_of_le (show k ≤ times.length - 1 by omega) with h | h
    · exact le_of_lt (Np.pairwise_get?_lt hs h hk h1')
    · rw [← h, hk] at h1'; cases h1'; exact le_refl _
  by_cases c1 : t = lo ∨ (e = true ∧ t < lo)
  · refine ⟨0, 0, 0, ⟨le_refl _, zero_le_one, hpos, hpos, ?_⟩, Or.inl ⟨rfl, rfl, 0, Or.inl rfl, ?_⟩⟩
    · rcases c1 with rfl | ⟨he, hlt⟩
      · exact Or.inl ⟨le_refl _, by omega, t, t, h0', h0', by ring⟩
      · exact Or.inr (Or.inr ⟨he, rfl, Or.inl ⟨rfl, fun x hx => lt_of_lt_of_le hlt (hmin x hx)⟩⟩)
    · intro val
      unfold timeStage
      rw [minTime_of_head h0]
      simp only [if_pos c1]
  by_cases c2 : t = hi ∨ (e = true ∧ hi < t)
  · refine ⟨times.length - 1, times.length - 1, 0, ⟨le_refl _, zero_le_one, by omega, by omega, ?_⟩,
      Or.inl ⟨rfl, rfl, -1, Or.inr ⟨rfl, by omega⟩, ?_⟩⟩
    · rcases c2 with rfl | ⟨he, hlt⟩
      · exact Or.inl ⟨le_refl _, by omega, t, t, h1', h1', by ring⟩
      · exact Or.inr (Or.inr ⟨he, rfl, Or.inr ⟨by omega, fun x hx =>
          lt_of_le_of_lt (hmax x hx) hlt⟩⟩)
    · intro val
      unfold timeStage
      rw [minTime_of_head h0, maxTime_of_last h1]
      simp only [if_neg c1, if_pos c2]
  by_cases c3 : times.length = 1
  · obtain ⟨x, rfl⟩ : ∃ x, times = [x] := List.length_eq_one_iff.mp c3
    refine ⟨0, 0, 0, ⟨le_refl _, zero_le_one, hpos, hpos, Or.inr (Or.inl rfl)⟩,
      Or.inr ⟨-1, Or.inr ⟨rfl, rfl⟩, ?_⟩⟩
    intro val
    unfold timeStage
    rw [minTime_of_head h0, maxTime_of_last h1]
    have hα : interpAlpha (fun x : K => x) [x] t e = .ok 0 := by
      simp [interpAlpha, indexOf, alphaFrom]
    simp only [if_neg c1, if_neg c2, C02_index_single, hα, Nat.cast_zero, zero_sub]
    rcases val (-1) with x | v0 <;> rcases val 0 with y | v1 <;> rfl
  · have hin : lo < t ∧ t < hi := by
      rcases hr with he | hl | ⟨lo', hi', h0'', h1'', ha, hb⟩
      · subst he
        simp only [true_and, not_or, not_lt] at c1 c2
        exact ⟨lt_of_le_of_ne c1.2 (fun h => c1.1 h.symm), lt_of_le_of_ne c2.2 c2.1⟩
      · exact absurd hl c3
      · rw [h0] at h0''; rw [h1] at h1''; cases h0''; cases h1''
        simp only [not_or] at c1 c2
        exact ⟨lt_of_le_of_ne ha (fun h => c1.1 h.symm), lt_of_le_of_ne hb c2.1⟩
    obtain ⟨ind, b, hind, hbi, htb, hz, hprev⟩ := C02_index_neighbours times hs c3 lo hi t h0 h1
      ⟨le_of_lt hin.1, le_of_lt hin.2⟩ false
    have hindl : ind < times.length := (List.getElem?_eq_some_iff.mp hbi).1
    have hi0 : ind ≠ 0 := fun h => by
      have := hz.mp h
      omega
    obtain ⟨k, rfl⟩ : ∃ k, ind = k + 1 := ⟨ind - 1, by omega⟩
    have hk : times[k]? = some times[k] := List.getElem?_eq_getElem (by omega)
    have hkt := hprev times[k] (by omega) hk
    obtain ⟨α, hα⟩ : ∃ α, interpAlpha (fun x : K => x) times t e = .ok α :=
      ⟨_, C04_alpha_interval (fun x : K => x) Rounding.id (by norm_num) times hs k _ b t e hk hbi hkt
        htb⟩
    have hrec := C04_alpha_reconstructs_time times hs k _ b t e α hk hbi hkt htb hα
    obtain ⟨hα0, hα1⟩ := C04_alpha_in_unit_interval (fun x : K => x) Rounding.id (by norm_num) times
      hs hne t e α hα
    refine ⟨k, k + 1, α, ⟨hα0, hα1, by omega, hindl, Or.inl ⟨by omega, le_refl _, _, b, hk, hbi, hrec⟩⟩,
      Or.inr ⟨(k : Int), Or.inl rfl, ?_⟩⟩
    intro val
    unfold timeStage
    rw [minTime_of_head h0, maxTime_of_last h1]
    have e1 : (((k + 1 : Nat) : Int) - 1) = (k : Int) := by push_cast; ring
    simp only [if_neg c1, if_neg c2, hind, e1, hα]
    rcases val (k : Int) with x | v0 <;> rcases val ((k + 1 : Nat) : Int) with y | v1 <;> rfl


/-- What the time stage read when it gave a result. -/
theorem timeStage_inv {times : List Int} (hs : StrictIncr times) {t : Int} {e : Bool}
    {val : Int → Except Err (List (Cell K))} {l : List (Cell K)} (h : timeStage times val t e = .ok l) :
    ∃ (i j : Nat) (α : K), TimeWeights times t e i j α ∧
      ((i = j ∧ α = 0 ∧ ∃ z : Int, (z = (i : Int) ∨ (z = -1 ∧ i + 1 = times.length)) ∧ val z = .ok l) ∨
       ∃ (z : Int) (v0 v1 : List (Cell K)), (z = (i : Int) ∨ (z = -1 ∧ i + 1 = times.length)) ∧
        val z = .ok v0 ∧ val (j : Int) = .ok v1 ∧
        l = List.zipWith (fun x y => mixCell x y (some α)) v0 v1) := by
  by_cases hne : times = []
  · subst hne; cases h
  obtain ⟨lo, h0⟩ : ∃ lo, times.head? = some lo := by
    cases times with
    | nil => exact absurd rfl hne
    | cons x _ => exact ⟨x, rfl⟩
  obtain ⟨hi, h1⟩ : ∃ hi, times.getLast? = some hi := ⟨_, List.getLast?_eq_some_getLast hne⟩
  by_cases hr : e = true ∨ times.length = 1 ∨
      ∃ lo hi, times.head? = some lo ∧ times.getLast? = some hi ∧ lo ≤ t ∧ t ≤ hi
  · obtain ⟨i, j, α, hw, hc⟩ := timeStage_reads (K := K) hs hne t e hr
    refine ⟨i, j, α, hw, ?_⟩
    rcases hc with ⟨hij, hα, z, hz, hv⟩ | ⟨z, hz, hv⟩
    · exact Or.inl ⟨hij, hα, z, hz, (hv val).symm.trans h⟩
    · refine Or.inr ?_
      rw [hv] at h
      rcases hz0 : val z with x | v0
      · rw [hz0] at h; cases h
      rcases hj0 : val (j : Int) with x | v1
      · rw [hz0, hj0] at h; cases h
      rw [hz0, hj0] at h
      simp only [Except.ok.injEq] at h
      exact ⟨z, v0, v1, hz, hz0, rfl, h.symm⟩
  · exfalso
    simp only [not_or, Bool.not_eq_true] at hr
    obtain ⟨he, hl, hn⟩ := hr
    have hc : ¬ (lo ≤ t ∧ t ≤ hi) := fun g => hn ⟨lo, hi, h0, h1, g⟩
    subst he
    unfold timeStage at h
    rw [minTime_of_head h0, maxTime_of_last h1, indexOf_eq t false h0 h1, if_pos ⟨rfl, hl, hc⟩] at h
    have hlh := head_le_last hs h0 h1
    simp only [Bool.false_eq_true, false_and, or_false] at h
    rw [if_neg (by rintro rfl; exact hc ⟨le_rfl, hlh⟩),
      if_neg (by rintro rfl; exact hc ⟨hlh, le_rfl⟩)] at h
    cases h

/-- Two means over neighbouring times, the first before the second. -/
theorem lip_apart {M a b a' b' α α' x y x' y' : K} (ha : a ≤ b) (hb : b ≤ a') (ha' : a' ≤ b')
    (h0 : 0 ≤ α) (h1 : α ≤ 1) (h0' : 0 ≤ α') (h1' : α' ≤ 1) (e1 : |y - x| ≤ M * |b - a|)
    (e2 : |x' - y| ≤ M * |a' - b|) (e3 : |y' - x'| ≤ M * |b' - a'|) :
    |((1 - α') * x' + α' * y') - ((1 - α) * x + α * y)| ≤
      M * |(a' + α' * (b' - a')) - (a + α * (b - a))| := by
  rw [abs_of_nonneg (sub_nonneg.mpr ha)] at e1
  rw [abs_of_nonneg (sub_nonneg.mpr hb)] at e2
  rw [abs_of_nonneg (sub_nonneg.mpr ha')] at e3
  have p1 := mul_nonneg h0' (sub_nonneg.mpr ha')
  have p2 := mul_nonneg (sub_nonneg.mpr h1) (sub_nonneg.mpr ha)
  rw [abs_of_nonneg (show 0 ≤ (a' + α' * (b' - a')) - (a + α * (b - a)) by nlinarith)]
  obtain ⟨l1, u1⟩ := abs_le.mp e1
  obtain ⟨l2, u2⟩ := abs_le.mp e2
  obtain ⟨l3, u3⟩ := abs_le.mp e3
  have q1 := mul_le_mul_of_nonneg_left u3 h0'
  have q2 := mul_le_mul_of_nonneg_left l3 h0'
  have q3 := mul_le_mul_of_nonneg_left u1 (sub_nonneg.mpr h1)
  have q4 := mul_le_mul_of_nonneg_left l1 (sub_nonneg.mpr h1)
  rw [abs_le]
  constructor <;> nlinarith

/-- Two means over the same two times. -/
theorem lip_same {M a b α α' x y : K} (e1 : |y - x| ≤ M * |b - a|) :
    |((1 - α') * x + α' * y) - ((1 - α) * x + α * y)| ≤
      M * |(a + α' * (b - a)) - (a + α * (b - a))| := by
  have h1 : ((1 - α') * x + α' * y) - ((1 - α) * x + α * y) = (α' - α) * (y - x) := by ring
  have h2 : (a + α' * (b - a)) - (a + α * (b - a)) = (α' - α) * (b - a) := by ring
  rw [h1, h2, abs_mul, abs_mul]
  have := mul_le_mul_of_nonneg_left e1 (abs_nonneg (α' - α))
  linarith

/-- The time a result stands for: the time asked for, or the nearest end of the time axis. -/
def Standing (times : List Int) (t : Int) (i j : Nat) (α : K) : Prop :=
  0 ≤ α ∧ α ≤ 1 ∧ i ≤ j ∧ j ≤ i + 1 ∧ ∃ a b lo hi : Int, times[i]? = some a ∧ times[j]? = some b ∧
    times.head? = some lo ∧ times.getLast? = some hi ∧ lo ≤ a ∧ a ≤ b ∧ b ≤ hi ∧
    ((a : K) + α * ((b : K) - (a : K)) = (t : K) ∨ (a = lo ∧ b = lo ∧ t ≤ lo) ∨
      (a = hi ∧ b = hi ∧ hi ≤ t) ∨ lo = hi)

theorem TimeWeights.standing {times : List Int} (hs : StrictIncr times) {t : Int} {e : Bool} {i j : Nat}
    {α : K} (h : TimeWeights times t e i j α) : Standing times t i j α := by
  obtain ⟨h0, h1, hi, hj, h⟩ := h
  have hne : times ≠ [] := by rintro rfl; simp at hi
  obtain ⟨lo, g0⟩ : ∃ lo, times.head? = some lo := by
    cases times with
    | nil => exact absurd rfl hne
    | cons x _ => exact ⟨x, rfl⟩
  obtain ⟨hi', g1⟩ : ∃ hi, times.getLast? = some hi := ⟨_, List.getLast?_eq_some_getLast hne⟩
  have g0' : times[0]? = some lo := by rw [← List.head?_eq_getElem?]; exact g0
  have g1' : times[times.length - 1]? = some hi' := by
    rw [← List.getLast?_eq_getElem?]; exact g1
  have hmin : ∀ (k : Nat) x, times[k]? = some x → lo ≤ x := by
    intro k x hk
    rcases Nat.eq_zero_or_pos k with rfl | hp
    · rw [hk] at g0'; cases g0'; exact le_refl _
    · exact le_of_lt (Np.pairwise_get?_lt hs hp g0' hk)
  have hmax : ∀ (k : Nat) x, times[k]? = some x → x ≤ hi' := by
    intro k x hk
    have hkl : k < times.length := (List.getElem?_eq_some_iff.mp hk).1
    rcases Nat.lt_or_eq_of_le (show k ≤ times.length - 1 by omega) with h | h
    · exact le_of_lt (Np.pairwise_get?_lt hs h hk g1')
    · rw [← h, hk] at g1'; cases g1'; exact le_refl _
  rcases h with ⟨hij, hji, a, b, ha, hb, hab⟩ | hl | ⟨_, rfl, hh⟩
  · refine ⟨h0, h1, hij, hji, a, b, lo, hi', ha, hb, g0, g1, hmin _ _ ha, ?_, hmax _ _ hb, Or.inl hab⟩
    rcases Nat.lt_or_eq_of_le hij with g | rfl
    · exact le_of_lt (Np.pairwise_get?_lt hs g ha hb)
    · rw [ha] at hb; cases hb; exact le_rfl
  · obtain ⟨x, rfl⟩ : ∃ x, times = [x] := List.length_eq_one_iff.mp hl
    obtain rfl : i = 0 := by simpa using hi
    obtain rfl : j = 0 := by simpa using hj
    cases g0; cases g1
    exact ⟨h0, h1, le_rfl, by omega, _, _, _, _, rfl, rfl, rfl, rfl, le_rfl, le_rfl, le_rfl,
      Or.inr (Or.inr (Or.inr rfl))⟩
  · rcases hh with ⟨rfl, hx⟩ | ⟨hl, hx⟩
    · exact ⟨h0, h1, le_rfl, by omega, lo, lo, lo, hi', g0', g0', g0, g1, le_rfl, le_rfl,
        hmax _ _ g0', Or.inr (Or.inl ⟨rfl, rfl, le_of_lt (hx lo (List.mem_of_getElem? g0'))⟩)⟩
    · have : i = times.length - 1 := by omega
      subst this
      exact ⟨h0, h1, le_rfl, by omega, hi', hi', lo, hi', g1', g1', g0, g1, hmin _ _ g1', le_rfl,
        le_rfl, Or.inr (Or.inr (Or.inl ⟨rfl, rfl, le_of_lt (hx hi' (List.mem_of_getElem? g1'))⟩))⟩

theorem clamp_lip {lo hi t t' τ τ' : K} (s1 : lo ≤ τ) (s2 : τ ≤ hi) (s1' : lo ≤ τ') (s2' : τ' ≤ hi)
    (c : τ = t ∨ (τ = lo ∧ t ≤ lo) ∨ (τ = hi ∧ hi ≤ t) ∨ lo = hi)
    (c' : τ' = t' ∨ (τ' = lo ∧ t' ≤ lo) ∨ (τ' = hi ∧ hi ≤ t') ∨ lo = hi) : |τ' - τ| ≤ |t' - t| := by
  have k1 := le_abs_self (t' - t)
  have k2 := neg_abs_le (t' - t)
  have k3 := abs_nonneg (t' - t)
  rw [abs_le]
  rcases c with g | ⟨g, g2⟩ | ⟨g, g2⟩ | g <;> rcases c' with g' | ⟨g', g2'⟩ | ⟨g', g2'⟩ | g' <;>
    constructor <;> linarith

/-- Means of values that vary no faster than `M` vary no faster than `M`. -/
theorem Standing.lip {times : List Int} (hs : StrictIncr times) {t t' : Int} {i j i' j' : Nat} {α α' : K}
    (h : Standing times t i j α) (h' : Standing times t' i' j' α') {M : K} (hM : 0 ≤ M)
    (X : Nat → K) (hX : ∀ (k l : Nat) (a b : Int), times[k]? = some a → times[l]? = some b →
      (k = i ∨ k = j ∨ k = i' ∨ k = j') → (l = i ∨ l = j ∨ l = i' ∨ l = j') →
      |X l - X k| ≤ M * |(b : K) - (a : K)|) :
    |((1 - α') * X i' + α' * X j') - ((1 - α) * X i + α * X j)| ≤ M * |(t' : K) - (t : K)| := by
  obtain ⟨h0, h1, hij, hji, a, b, lo, hi, ha, hb, g0, g1, hloa, hab, hbhi, hτ⟩ := h
  obtain ⟨h0', h1', hij', hji', a', b', lo', hi', ha', hb', g0', g1', hloa', hab', hbhi', hτ'⟩ := h'
  rw [g0] at g0'; cases g0'
  rw [g1] at g1'; cases g1'
  have cab : (a : K) ≤ b := Int.cast_le.mpr hab
  have cab' : (a' : K) ≤ b' := Int.cast_le.mpr hab'
  have main : |((1 - α') * X i' + α' * X j') - ((1 - α) * X i + α * X j)| ≤
      M * |((a' : K) + α' * (b' - a')) - ((a : K) + α * (b - a))| := by
    have before : ∀ {k l : Nat} {x y : Int}, k ≤ l → times[k]? = some x → times[l]? = some y →
        (x : K) ≤ y := by
      intro k l x y hkl hx hy
      rcases Nat.lt_or_eq_of_le hkl with g | rfl
      · exact Int.cast_le.mpr (le_of_lt (Np.pairwise_get?_lt hs g hx hy))
      · rw [hx] at hy; cases hy; exact le_rfl
    have apart : j ≤ i' → _ := fun g => lip_apart (M := M) cab (before g hb ha') cab' h0 h1 h0' h1'
      (hX i j a b ha hb (by simp) (by simp)) (hX j i' b a' hb ha' (by simp) (by simp))
      (hX i' j' a' b' ha' hb' (by simp) (by simp))
    have apart' : j' ≤ i → _ := fun g => lip_apart (M := M) cab' (before g hb' ha) cab h0' h1' h0 h1
      (hX i' j' a' b' ha' hb' (by simp) (by simp)) (hX j' i b' a hb' ha (by simp) (by simp))
      (hX i j a b ha hb (by simp) (by simp))
    by_cases c1 : j ≤ i'
    · exact apart c1
    by_cases c2 : j' ≤ i
    · have := apart' c2
      rwa [abs_sub_comm, abs_sub_comm (a := (a : K) + α * (b - a))] at this
    obtain rfl : i = i' := by omega
    obtain rfl : j = j' := by omega
    rw [ha] at ha'; cases ha'
    rw [hb] at hb'; cases hb'
    exact lip_same (hX i j a b ha hb (by simp) (by simp))
  refine le_trans main (mul_le_mul_of_nonneg_left ?_ hM)
  have p : (lo : K) ≤ a := Int.cast_le.mpr hloa
  have q : (b : K) ≤ hi := Int.cast_le.mpr hbhi
  have p' : (lo : K) ≤ a' := Int.cast_le.mpr hloa'
  have q' : (b' : K) ≤ hi := Int.cast_le.mpr hbhi'
  have r1 := mul_nonneg h0 (sub_nonneg.mpr cab)
  have r2 := mul_nonneg (sub_nonneg.mpr h1) (sub_nonneg.mpr cab)
  have r1' := mul_nonneg h0' (sub_nonneg.mpr cab')
  have r2' := mul_nonneg (sub_nonneg.mpr h1') (sub_nonneg.mpr cab')
  have s1 : (lo : K) ≤ (a : K) + α * (b - a) := by linarith
  have s2 : (a : K) + α * (b - a) ≤ hi := by linarith
  have s1' : (lo : K) ≤ (a' : K) + α' * (b' - a') := by linarith
  have s2' : (a' : K) + α' * (b' - a') ≤ hi := by linarith
  have c1 : (a : K) + α * (b - a) = t ∨ ((a : K) + α * (b - a) = lo ∧ (t : K) ≤ lo) ∨
      ((a : K) + α * (b - a) = hi ∧ (hi : K) ≤ t) ∨ (lo : K) = hi := by
    rcases hτ with g | ⟨rfl, rfl, g⟩ | ⟨rfl, rfl, g⟩ | rfl
    · exact Or.inl g
    · exact Or.inr (Or.inl ⟨by ring, Int.cast_le.mpr g⟩)
    · exact Or.inr (Or.inr (Or.inl ⟨by ring, Int.cast_le.mpr g⟩))
    · exact Or.inr (Or.inr (Or.inr rfl))
  have c2 : (a' : K) + α' * (b' - a') = t' ∨ ((a' : K) + α' * (b' - a') = lo ∧ (t' : K) ≤ lo) ∨
      ((a' : K) + α' * (b' - a') = hi ∧ (hi : K) ≤ t') ∨ (lo : K) = hi := by
    rcases hτ' with g | ⟨rfl, rfl, g⟩ | ⟨rfl, rfl, g⟩ | rfl
    · exact Or.inl g
    · exact Or.inr (Or.inl ⟨by ring, Int.cast_le.mpr g⟩)
    · exact Or.inr (Or.inr (Or.inl ⟨by ring, Int.cast_le.mpr g⟩))
    · exact Or.inr (Or.inr (Or.inr rfl))
  exact clamp_lip s1 s2 s1' s2' c1 c2

/-- Results of two queries with the same masks whose values are at most `B` apart. -/
def Within (B : K) (r r' : Except Err (List (Cell K))) : Prop :=
  ∀ l l', r = .ok l → r' = .ok l' → l.length = l'.length ∧ ∀ (n : Nat) (c c' : Cell K),
    l[n]? = some c → l'[n]? = some c' → c.masked = c'.masked ∧
      ∀ x y, c.value = some x → c'.value = some y → |y - x| ≤ B

theorem within_of_paired {B : K} {r r' : Except Err (List (Cell K))}
    (h : Paired (fun x y => |y - x| ≤ B) r r') : Within B r r' := by
  intro l l' h1 h2
  rcases h with ⟨x, h, _⟩ | ⟨rs, e1, e2, h⟩
  · rw [h1] at h; cases h
  rw [h1] at e1; rw [h2] at e2
  cases e1; cases e2
  refine ⟨by simp, ?_⟩
  intro n c c' hc hc'
  rw [List.getElem?_map] at hc hc'
  rcases hr : rs[n]? with _ | q
  · rw [hr] at hc; cases hc
  rw [hr] at hc hc'
  cases hc; cases hc'
  exact h q (List.mem_of_getElem? hr)

/-- A result as the mean of two slices. -/
def MeanOf (val : Int → Except Err (List (Cell K))) (i j : Nat) (α : K) (l : List (Cell K)) : Prop :=
  ∃ v0 v1 : List (Cell K), val i = .ok v0 ∧ val j = .ok v1 ∧
    ∀ (n : Nat) (c : Cell K), l[n]? = some c → ∃ c0 c1, v0[n]? = some c0 ∧ v1[n]? = some c1 ∧
      c.masked = (c0.masked || c1.masked) ∧ ∀ x, c.value = some x → ∃ x0 x1, c0.value = some x0 ∧
        c1.value = some x1 ∧ x = (1 - α) * x0 + α * x1

theorem timeStage_mean {times : List Int} (hs : StrictIncr times) {t : Int} {e : Bool}
    {val : Int → Except Err (List (Cell K))}
    (hneg : ∀ n, times.length = n + 1 → val (-1) = val (n : Int))
    {N : Nat} (hN : ∀ k : Nat, k < times.length → ∀ v, val k = .ok v → v.length = N)
    {l : List (Cell K)} (h : timeStage times val t e = .ok l) :
    l.length = N ∧ ∃ (i j : Nat) (α : K), Standing times t i j α ∧ MeanOf val i j α l := by
  obtain ⟨i, j, α, hw, hc⟩ := timeStage_inv hs h
  have hval : ∀ z : Int, (z = (i : Int) ∨ (z = -1 ∧ i + 1 = times.length)) → val z = val i := by
    rintro z (rfl | ⟨rfl, hl⟩)
    · rfl
    · exact hneg i hl.symm
  have hi := hw.2.2.1
  have hj := hw.2.2.2.1
  rcases hc with ⟨rfl, rfl, z, hz, hv⟩ | ⟨z, v0, v1, hz, hv0, hv1, rfl⟩
  · rw [hval z hz] at hv
    refine ⟨hN i hi l hv, i, i, 0, TimeWeights.standing hs hw, l, l, hv, hv, ?_⟩
    intro n c hn
    exact ⟨c, c, hn, hn, by simp, fun x hx => ⟨x, x, hx, hx, by ring⟩⟩
  · rw [hval z hz] at hv0
    refine ⟨by rw [List.length_zipWith, hN i hi _ hv0, hN j hj _ hv1, min_self], i, j, α,
      TimeWeights.standing hs hw, v0, v1, hv0, hv1, ?_⟩
    intro n c hn
    rw [List.getElem?_zipWith] at hn
    rcases h0 : v0[n]? with _ | c0
    · rw [h0] at hn; cases hn
    rcases h1 : v1[n]? with _ | c1
    · rw [h0, h1] at hn; cases hn
    rw [h0, h1] at hn
    simp only [Option.some.injEq] at hn
    subst hn
    refine ⟨c0, c1, rfl, rfl, rfl, ?_⟩
    intro x hx
    unfold mixCell at hx
    simp only at hx
    rcases hx0 : c0.value with _ | x0
    · rw [hx0] at hx; cases hx
    rcases hx1 : c1.value with _ | x1
    · rw [hx0, hx1] at hx; cases hx
    rw [hx0, hx1] at hx
    simp only [Option.some.injEq] at hx
    exact ⟨x0, x1, rfl, rfl, by rw [← hx]; ring⟩

/-- If the slices vary no faster than `M` with time, so do the results. -/
theorem timeStage_lip {times : List Int} (hs : StrictIncr times) {val : Int → Except Err (List (Cell K))}
    (hneg : ∀ n, times.length = n + 1 → val (-1) = val (n : Int)) {M : K} (hM : 0 ≤ M)
    (hv : ∀ (i j : Nat) (a b : Int), times[i]? = some a → times[j]? = some b →
      Within (M * |(b : K) - (a : K)|) (val i) (val j)) (t t' : Int) (e e' : Bool) :
    Within (M * |(t' : K) - (t : K)|) (timeStage times val t e) (timeStage times val t' e') := by
  intro l l' h1 h2
  -- all slices that can be read have the same length and masks
  have hN : ∀ (N k : Nat) (v : List (Cell K)), k < times.length → val k = .ok v → v.length = N →
      ∀ k' : Nat, k' < times.length → ∀ v', val k' = .ok v' → v'.length = N := by
    intro N k v hk hvk hl k' hk' v' hv'
    rw [← hl]
    exact ((hv k k' _ _ (List.getElem?_eq_getElem hk) (List.getElem?_eq_getElem hk') v v' hvk hv').1).symm
  obtain ⟨N, hNN⟩ : ∃ N, ∀ k' : Nat, k' < times.length → ∀ v', val k' = .ok v' → v'.length = N := by
    by_cases hex : ∃ (k : Nat) (v : List (Cell K)), k < times.length ∧ val k = .ok v
    · obtain ⟨k, v, hk, hvk⟩ := hex
      exact ⟨v.length, hN _ k v hk hvk rfl⟩
    · exact ⟨0, fun k' hk' v' hv' => absurd ⟨k', v', hk', hv'⟩ hex⟩
  obtain ⟨e1, i, j, α, hst, v0, v1, hv0, hv1, hm⟩ := timeStage_mean hs hneg hNN h1
  obtain ⟨e2, i', j', α', hst', v0', v1', hv0', hv1', hm'⟩ := timeStage_mean hs hneg hNN h2
  refine ⟨by rw [e1, e2], ?_⟩
  intro n c c' hc hc'
  obtain ⟨c0, c1, g0, g1, gm, gx⟩ := hm n c hc
  obtain ⟨c0', c1', g0', g1', gm', gx'⟩ := hm' n c' hc'
  -- the lists read, by index
  let read : Nat → List (Cell K) := fun k => if k = i then v0 else if k = j then v1 else
    if k = i' then v0' else v1'
  have hread : ∀ k, (k = i ∨ k = j ∨ k = i' ∨ k = j') → val (k : Int) = .ok (read k) := by
    intro k hk
    show val (k : Int) = .ok (if k = i then v0 else if k = j then v1 else if k = i' then v0' else v1')
    split
    · rename_i g; rw [g]; exact hv0
    split
    · rename_i g; rw [g]; exact hv1
    split
    · rename_i g; rw [g]; exact hv0'
    · obtain rfl : k = j' := by tauto
      exact hv1'
  have ri : read i = v0 := by have := hread i (by simp); rw [hv0] at this; exact (Except.ok.inj this).symm
  have rj : read j = v1 := by have := hread j (by simp); rw [hv1] at this; exact (Except.ok.inj this).symm
  have ri' : read i' = v0' := by have := hread i' (by simp); rw [hv0'] at this; exact (Except.ok.inj this).symm
  have rj' : read j' = v1' := by have := hread j' (by simp); rw [hv1'] at this; exact (Except.ok.inj this).symm
  have hlt : ∀ k, (k = i ∨ k = j ∨ k = i' ∨ k = j') → ∃ a, times[k]? = some a := by
    obtain ⟨_, _, _, _, a, b, _, _, ha, hb, _⟩ := hst
    obtain ⟨_, _, _, _, a', b', _, _, ha', hb', _⟩ := hst'
    rintro k (rfl | rfl | rfl | rfl)
    exacts [⟨_, ha⟩, ⟨_, hb⟩, ⟨_, ha'⟩, ⟨_, hb'⟩]
  have pair : ∀ (k l : Nat) (a b : Int), times[k]? = some a → times[l]? = some b →
      (k = i ∨ k = j ∨ k = i' ∨ k = j') → (l = i ∨ l = j ∨ l = i' ∨ l = j') →
      ∀ c c', (read k)[n]? = some c → (read l)[n]? = some c' → c.masked = c'.masked ∧
        ∀ x y, c.value = some x → c'.value = some y → |y - x| ≤ M * |(b : K) - (a : K)| := by
    intro k l a b ha hb hk hl c c' hc hc'
    exact (hv k l a b ha hb _ _ (hread k hk) (hread l hl)).2 n c c' hc hc'
  rw [← ri] at g0; rw [← rj] at g1; rw [← ri'] at g0'; rw [← rj'] at g1'
  obtain ⟨ai, hai⟩ := hlt i (by simp)
  obtain ⟨aj, haj⟩ := hlt j (by simp)
  obtain ⟨ai', hai'⟩ := hlt i' (by simp)
  obtain ⟨aj', haj'⟩ := hlt j' (by simp)
  constructor
  · rw [gm, gm', (pair i i' _ _ hai hai' (by simp) (by simp) _ _ g0 g0').1,
      (pair j j' _ _ haj haj' (by simp) (by simp) _ _ g1 g1').1]
  · intro x y hx hy
    obtain ⟨x0, x1, hx0, hx1, rfl⟩ := gx x hx
    obtain ⟨y0, y1, hy0, hy1, rfl⟩ := gx' y hy
    let X : Nat → K := fun k => match ((read k)[n]?).bind Cell.value with
      | some x => x
      | none => 0
    have hX : ∀ k c x, (read k)[n]? = some c → c.value = some x → X k = x := by
      intro k c x hc hx
      show (match ((read k)[n]?).bind Cell.value with
        | some x => x
        | none => 0) = x
      rw [hc, Option.bind_some, hx]
    have hcell : ∀ k, (k = i ∨ k = j ∨ k = i' ∨ k = j') → ∃ c x, (read k)[n]? = some c ∧
        c.value = some x ∧ X k = x := by
      rintro k (rfl | rfl | rfl | rfl)
      exacts [⟨c0, x0, g0, hx0, hX _ _ _ g0 hx0⟩, ⟨c1, x1, g1, hx1, hX _ _ _ g1 hx1⟩,
        ⟨c0', y0, g0', hy0, hX _ _ _ g0' hy0⟩, ⟨c1', y1, g1', hy1, hX _ _ _ g1' hy1⟩]
    have := Standing.lip hs hst hst' hM X (by
      intro k l a b ha hb hk hl
      obtain ⟨ck, xk, q1, q2, q3⟩ := hcell k hk
      obtain ⟨cl, xl, r1, r2, r3⟩ := hcell l hl
      rw [q3, r3]
      exact (pair k l a b ha hb hk hl ck cl q1 r1).2 xk xl q2 r2)
    rwa [hX i _ _ g0 hx0, hX j _ _ g1 hx1, hX i' _ _ g0' hy0, hX j' _ _ g1' hy1] at this

theorem paired_of_within {B : K} {l l' : List (Cell K)} (h : Within B (.ok l) (.ok l')) :
    Paired (fun x y => |y - x| ≤ B) (.ok l) (.ok l') := by
  obtain ⟨hl, hn⟩ := h l l' rfl rfl
  refine Or.inr ⟨l.zip l', by rw [List.map_fst_zip (le_of_eq hl)],
    by rw [List.map_snd_zip (le_of_eq hl.symm)], ?_⟩
  intro r hr
  obtain ⟨n, hr⟩ := List.getElem?_of_mem hr
  rw [List.getElem?_zip_eq_some] at hr
  exact hn n r.1 r.2 hr.1 hr.2

/-- The same with exceptions: when both times can be served, both queries fail alike or both
succeed. -/
theorem timeStage_lip_paired {times : List Int} (hs : StrictIncr times)
    {val : Int → Except Err (List (Cell K))}
    (hneg : ∀ n, times.length = n + 1 → val (-1) = val (n : Int)) {M : K} (hM : 0 ≤ M)
    (hv : ∀ (i j : Nat) (a b : Int), times[i]? = some a → times[j]? = some b →
      Paired (fun x y => |y - x| ≤ M * |(b : K) - (a : K)|) (val i) (val j)) (t t' : Int) (e e' : Bool)
    (ht : Served times t e) (ht' : Served times t' e') :
    Paired (fun x y => |y - x| ≤ M * |(t' : K) - (t : K)|) (timeStage times val t e)
      (timeStage times val t' e') := by
  by_cases hne : times = []
  · subst hne
    exact Or.inl ⟨_, rfl, rfl⟩
  have hpos : 0 < times.length := List.length_pos_iff.mpr hne
  have outcome : (∃ x, ∀ k : Nat, k < times.length → val k = .error x) ∨
      ∀ k : Nat, k < times.length → ∃ v, val k = .ok v := by
    rcases h0 : val ((0 : Nat) : Int) with x | v
    · refine Or.inl ⟨x, fun k hk => ?_⟩
      rcases hv 0 k _ _ (List.getElem?_eq_getElem hpos) (List.getElem?_eq_getElem hk) with
        ⟨y, h1, h2⟩ | ⟨rs, h1, _⟩
      · rw [h0] at h1; cases h1; exact h2
      · rw [h0] at h1; cases h1
    · refine Or.inr fun k hk => ?_
      rcases hv 0 k _ _ (List.getElem?_eq_getElem hpos) (List.getElem?_eq_getElem hk) with
        ⟨y, h1, h2⟩ | ⟨rs, _, h2, _⟩
      · rw [h0] at h1; cases h1
      · exact ⟨_, h2⟩
  have read : ∀ (t : Int) (e : Bool), Served times t e →
      (∀ x, (∀ k : Nat, k < times.length → val k = .error x) → timeStage times val t e = .error x) ∧
      ((∀ k : Nat, k < times.length → ∃ v, val k = .ok v) → ∃ l, timeStage times val t e = .ok l) := by
    intro t e ht
    obtain ⟨i, j, α, hw, hc⟩ := timeStage_reads (K := K) hs hne t e ht
    have hz : ∀ z : Int, (z = (i : Int) ∨ (z = -1 ∧ i + 1 = times.length)) → val z = val i := by
      rintro z (rfl | ⟨rfl, hl⟩)
      · rfl
      · exact hneg i hl.symm
    rcases hc with ⟨_, _, z, hzz, hval⟩ | ⟨z, hzz, hval⟩
    · refine ⟨fun x hx => ?_, fun hx => ?_⟩
      · rw [hval, hz z hzz]; exact hx i hw.2.2.1
      · rw [hval, hz z hzz]; exact hx i hw.2.2.1
    · refine ⟨fun x hx => ?_, fun hx => ?_⟩
      · rw [hval, hz z hzz, hx i hw.2.2.1]
      · obtain ⟨v0, h0⟩ := hx i hw.2.2.1
        obtain ⟨v1, h1⟩ := hx j hw.2.2.2.1
        exact ⟨_, by rw [hval, hz z hzz, h0, h1]⟩
  rcases outcome with ⟨x, hx⟩ | hx
  · exact Or.inl ⟨x, (read t e ht).1 x hx, (read t' e' ht').1 x hx⟩
  · obtain ⟨l, hl⟩ := (read t e ht).2 hx
    obtain ⟨l', hl'⟩ := (read t' e' ht').2 hx
    have := timeStage_lip hs hneg hM (fun i j a b ha hb => within_of_paired (hv i j a b ha hb)) t t' e e'
    rw [hl, hl'] at this ⊢
    exact paired_of_within this

/-! ## Depth -/

/-- Means over neighbouring places of a series whose values vary no faster than `M`. -/
theorem mean_lip {M : K} {j j' n : Nat} {α α' : K} (X Z : Nat → K) (h0 : 0 ≤ α) (h1 : α ≤ 1)
    (h0' : 0 ≤ α') (h1' : α' ≤ 1) (hj : j + 1 < n) (hj' : j' + 1 < n)
    (hZ : ∀ k l, k ≤ l → l < n → Z k ≤ Z l)
    (hX : ∀ k l, k < n → l < n → |X l - X k| ≤ M * |Z l - Z k|) :
    |((1 - α') * X j' + α' * X (j' + 1)) - ((1 - α) * X j + α * X (j + 1))| ≤
      M * |(Z j' + α' * (Z (j' + 1) - Z j')) - (Z j + α * (Z (j + 1) - Z j))| := by
  rcases Nat.lt_trichotomy j j' with g | rfl | g
  · exact lip_apart (hZ _ _ (by omega) hj) (hZ _ _ (by omega) (by omega)) (hZ _ _ (by omega) hj') h0 h1
      h0' h1' (hX _ _ (by omega) hj) (hX _ _ hj (by omega)) (hX _ _ (by omega) hj')
  · exact lip_same (hX _ _ (by omega) hj)
  · have := lip_apart (hZ j' (j' + 1) (by omega) hj') (hZ (j' + 1) j (by omega) (by omega))
      (hZ j (j + 1) (by omega) hj) h0' h1' h0 h1 (hX _ _ (by omega) hj') (hX _ _ hj' (by omega)) (hX _ _ (by omega) hj)
    rwa [abs_sub_comm, abs_sub_comm (a := Z j + α * (Z (j + 1) - Z j))] at this

/-- Means over two neighbouring levels each, listed from the surface or from the bottom. -/
theorem level_lip {M : K} {levels : List K} (hs : StrictIncr levels ∨ StrictDecr levels) {j j' : Nat}
    {α α' a b a' b' : K} (X : Nat → K) (h0 : 0 ≤ α) (h1 : α ≤ 1) (h0' : 0 ≤ α') (h1' : α' ≤ 1)
    (ha : levels[j]? = some a) (hb : levels[j + 1]? = some b) (ha' : levels[j']? = some a')
    (hb' : levels[j' + 1]? = some b')
    (hX : ∀ k l x y, levels[k]? = some x → levels[l]? = some y → |X l - X k| ≤ M * |y - x|) :
    |((1 - α') * X j' + α' * X (j' + 1)) - ((1 - α) * X j + α * X (j + 1))| ≤
      M * |(a' + (b' - a') * α') - (a + (b - a) * α)| := by
  have hj := (List.getElem?_eq_some_iff.mp hb).1
  have hj' := (List.getElem?_eq_some_iff.mp hb').1
  let Z : Nat → K := fun k => levels.getD k 0
  have hZ : ∀ k x, levels[k]? = some x → Z k = x := by
    intro k x hx
    show levels.getD k 0 = x
    rw [List.getD_eq_getElem?_getD, hx]; rfl
  have hget : ∀ k, k < levels.length → levels[k]? = some (Z k) := by
    intro k hk
    rw [List.getElem?_eq_getElem hk]
    congr 1
    exact (hZ k _ (List.getElem?_eq_getElem hk)).symm
  have hX' : ∀ k l, k < levels.length → l < levels.length → |X l - X k| ≤ M * |Z l - Z k| :=
    fun k l hk hl => hX k l _ _ (hget k hk) (hget l hl)
  rw [← hZ j a ha, ← hZ _ b hb, ← hZ j' a' ha', ← hZ _ b' hb']
  rcases hs with hs | hs
  · have := mean_lip X Z h0 h1 h0' h1' hj hj' (by
      intro k l hkl hl
      rcases Nat.lt_or_eq_of_le hkl with g | rfl
      · exact le_of_lt (Np.pairwise_get?_lt hs g (hget k (by omega)) (hget l hl))
      · exact le_rfl) hX'
    rwa [mul_comm (Z (j' + 1) - Z j') α', mul_comm (Z (j + 1) - Z j) α]
  · have := mean_lip (M := M) X (fun k => - Z k) h0 h1 h0' h1' hj hj' (by
      intro k l hkl hl
      rcases Nat.lt_or_eq_of_le hkl with g | rfl
      · exact neg_le_neg (le_of_lt (Np.pairwise_get?_lt hs g (hget k (by omega)) (hget l hl)))
      · exact le_rfl) (by
      intro k l hk hl
      have := hX' k l hk hl
      rwa [show -Z l - -Z k = -(Z l - Z k) by ring, abs_neg])
    rw [show (-Z j' + α' * (-Z (j' + 1) - -Z j')) - (-Z j + α * (-Z (j + 1) - -Z j)) =
      -((Z j' + (Z (j' + 1) - Z j') * α') - (Z j + (Z (j + 1) - Z j) * α)) by ring, abs_neg] at this
    exact this

/-- Data over times and levels, any horizontal stage: results vary with depth no faster than the
columns. -/
theorem slow_levels {P σ : Type} (xy : σ → List P → Except Err (List (Cell K))) (times : List Int)
    (hs : StrictIncr times) (hne : times ≠ []) (z : P → K) (levels : List K)
    (hlv : StrictIncr levels ∨ StrictDecr levels) (hn : 2 ≤ levels.length) (sbc bbc : BC)
    (data : List (List σ)) (Q : P → Prop) (g : Nat → Nat → P → K)
    (hserve : ServedBy xy times levels.length data Q g) {M : K} (t : Int) (e : Bool)
    (ht : Served times t e) (pts : List (P × P))
    (hpts : ∀ q ∈ pts, Q q.1 ∧ Q q.2 ∧ WithinLevels levels (z q.1) ∧ WithinLevels levels (z q.2) ∧
      ∀ i k, g i k q.1 = g i k q.2)
    (hg : ∀ q ∈ pts, ∀ i, i < times.length → ∀ k l x y, levels[k]? = some x → levels[l]? = some y →
      |g i l q.1 - g i k q.1| ≤ M * |y - x|) :
    ∃ out out', eval xy times (levelSys z levels sbc bbc) (.timeDepth data) (pts.map fun q => q.1) t e =
        .ok out ∧
      eval xy times (levelSys z levels sbc bbc) (.timeDepth data) (pts.map fun q => q.2) t e = .ok out' ∧
      out.length = pts.length ∧ out'.length = pts.length ∧
      ∀ (n : Nat) (q : P × P), pts[n]? = some q → ∃ x y, out[n]? = some ⟨some x, false⟩ ∧
        out'[n]? = some ⟨some y, false⟩ ∧ |y - x| ≤ M * |z q.2 - z q.1| := by
  obtain ⟨i, j, θ, hw, hall⟩ := C113_levels_partial xy times hs hne levels.length hn data Q g hserve t e ht
  have pick : ∀ ps : List P, (∀ p ∈ ps, Q p ∧ WithinLevels levels (z p)) →
      ∃ out, eval xy times (levelSys z levels sbc bbc) (.timeDepth data) ps t e = .ok out ∧
        out.length = ps.length ∧ ∀ (n : Nat) (p : P), ps[n]? = some p →
          ∃ (α : K) (k : Nat) (a b : K), 0 ≤ α ∧ α ≤ 1 ∧ levels[k]? = some a ∧
            levels[k + 1]? = some b ∧ a + (b - a) * α = z p ∧
            out[n]? = some ⟨some ((1 - θ) * ((1 - α) * g i k p + α * g i (k + 1) p) +
              θ * ((1 - α) * g j k p + α * g j (k + 1) p)), false⟩ := by
    intro ps hps
    obtain ⟨ents, he, hbl, hp⟩ := levelSys_picks z levels hlv hn sbc bbc ps fun p hp => (hps p hp).2
    obtain ⟨out, ho, hol, hall⟩ := hall (levelSys z levels sbc bbc) ps ents (fun p hp => (hps p hp).1)
      (by show levels.length ≠ levels.length - 1; omega) he hbl
    refine ⟨out, ho, hol, ?_⟩
    intro n p hn'
    obtain ⟨ent, hent⟩ : ∃ ent, ents[n]? = some ent := by
      have := (List.getElem?_eq_some_iff.mp hn').1
      exact ⟨_, List.getElem?_eq_getElem (by rw [hbl.1]; exact this)⟩
    obtain ⟨hm, α, k, a, b, hα, hk, ha, hb, hab⟩ := hp n p ent hn' hent
    obtain ⟨_, α2, hα2, a0, a1, _⟩ := hbl.2 ent (List.mem_of_getElem? hent) hm
    rw [hα] at hα2; cases hα2
    obtain ⟨c, hc, hcm, hcv⟩ := hall n p ent hn' hent
    obtain ⟨β, v, w, hβ, hv, hw', hcval⟩ := hcv hm
    rw [hα] at hβ; cases hβ
    have mixes : ∀ (f : Nat → K) (v : K), LevelMix levels.length f ent.idx α v →
        v = (1 - α) * f k + α * f (k + 1) := by
      intro f v hv
      have hkl := (List.getElem?_eq_some_iff.mp hb).1
      rcases hv with ⟨j, hj, _, hv⟩ | ⟨hj, _⟩ | ⟨hj, _⟩
      · obtain rfl : j = k := by omega
        exact hv
      · omega
      · omega
    refine ⟨α, k, a, b, a0, a1, ha, hb, hab, ?_⟩
    rw [hc, ← mixes _ v hv, ← mixes _ w hw']
    obtain ⟨cv, cm⟩ := c
    simp only at hcm hcval
    rw [hcval, hcm, hm]
  obtain ⟨out, ho, hol, h1⟩ := pick (pts.map fun q => q.1) (by
    intro p hp
    obtain ⟨q, hq, rfl⟩ := List.mem_map.mp hp
    exact ⟨(hpts q hq).1, (hpts q hq).2.2.1⟩)
  obtain ⟨out', ho', hol', h2⟩ := pick (pts.map fun q => q.2) (by
    intro p hp
    obtain ⟨q, hq, rfl⟩ := List.mem_map.mp hp
    exact ⟨(hpts q hq).2.1, (hpts q hq).2.2.2.1⟩)
  refine ⟨out, out', ho, ho', by simpa using hol, by simpa using hol', ?_⟩
  intro n q hq
  have hmem := List.mem_of_getElem? hq
  obtain ⟨α, k, a, b, a0, a1, ha, hb, hab, hx⟩ := h1 n q.1 (by rw [List.getElem?_map, hq]; rfl)
  obtain ⟨α', k', a', b', a0', a1', ha', hb', hab', hy⟩ := h2 n q.2 (by rw [List.getElem?_map, hq]; rfl)
  refine ⟨_, _, hx, hy, ?_⟩
  have same := (hpts q hmem).2.2.2.2
  simp only [← same]
  have e1 := level_lip (M := M) hlv (fun l => g i l q.1) a0 a1 a0' a1' ha hb ha' hb'
    (fun k l x y hx hy => hg q hmem i hw.2.2.1 k l x y hx hy)
  have e2 := level_lip (M := M) hlv (fun l => g j l q.1) a0 a1 a0' a1' ha hb ha' hb'
    (fun k l x y hx hy => hg q hmem j hw.2.2.2.1 k l x y hx hy)
  rw [hab, hab'] at e1 e2
  obtain ⟨l1, u1⟩ := abs_le.mp e1
  obtain ⟨l2, u2⟩ := abs_le.mp e2
  have t0 := hw.1
  have t1 := hw.2.1
  rw [abs_le]
  constructor
  · have q1 := mul_le_mul_of_nonneg_left l1 (sub_nonneg.mpr t1)
    have q2 := mul_le_mul_of_nonneg_left l2 t0
    linarith
  · have q1 := mul_le_mul_of_nonneg_left u1 (sub_nonneg.mpr t1)
    have q2 := mul_le_mul_of_nonneg_left u2 t0
    linarith

end
end Verif
