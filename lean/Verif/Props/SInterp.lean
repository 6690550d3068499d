import Verif.Lemmas.SInterp
import Verif.Lemmas.SCelltree
import Mathlib.Algebra.Order.Ring.Rat
import Mathlib.Algebra.Field.Rat
import Mathlib.Tactic.NormNum
import Mathlib.Tactic.IntervalCases
import Mathlib.Tactic.Linarith

/-!
# Properties of interpolation on structured grids: C45, C46, C47, C48, C49, C70, C71
-/

set_option autoImplicit false

namespace Verif
open Verif.Spec Verif.SIndex Verif.SInterp Verif.DepthM

section
variable {K : Type*} [Field K] [LinearOrder K] [IsStrictOrderedRing K]

/-- What is asked of the square root. -/
def SqrtOk (sqrt : K → K) : Prop := ∀ k, 0 ≤ k → sqrt k * sqrt k = k

/-- The values of an array at the corners of the cell in row `i` and column `j`. -/
def IsCorners {α : Type*} (A : List (List α)) (i j : Nat) (v : α × α × α × α) : Prop :=
  entry A i j = some v.1 ∧ entry A (i + 1) j = some v.2.1 ∧ entry A (i + 1) (j + 1) = some v.2.2.1 ∧
    entry A i (j + 1) = some v.2.2.2

theorem byIndex_corners {α : Type*} (c : Nat) (A : List (List α)) (hr : Rectangular c A) (i j : Nat)
    (v : α × α × α × α) (h : IsCorners A i j v) : byIndex A ((i : Int), (j : Int)) = .ok v :=
  byIndex_eq c A hr i j _ _ _ _ h.1 h.2.1 h.2.2.1 h.2.2.2

theorem offset_eq (sqrt : K → K) (g : Grid K) (c : Nat) (hlon : Rectangular c g.lon)
    (hlat : Rectangular c g.lat) (i j : Nat) (px py : K × K × K × K)
    (hx : IsCorners g.lon i j px) (hy : IsCorners g.lat i j py) (p : K × K) :
    offset sqrt g p ((i : Int), (j : Int)) = .ok (xToL sqrt p.1 p.2 (coeffs px) (coeffs py)) := by
  unfold offset
  rw [byIndex_corners c _ hlon i j px hx]
  simp only
  rw [byIndex_corners c _ hlat i j py hy]

theorem cellOffset_eq (sqrt : K → K) (g : Grid K) (p : K × K) (ij : Int × Int)
    (o : Option (K × K)) (h : offset sqrt g p ij = .ok o) : cellOffset sqrt g p ij = .ok o := by
  unfold cellOffset geoToLogical
  rw [h]
  cases o with
  | none => rfl
  | some lm => simp

/-! ## C45 -/

theorem xToL_maps (sqrt : K → K) (hs : SqrtOk sqrt) (x y : K) (a b : Coeffs K) (l m : K)
    (h : xToL sqrt x y a b = some (l, m)) : evalC a l m = x ∧ evalC b l m = y := by
  unfold xToL at h
  simp only at h
  split at h
  · rename_i haa
    split at h
    · exact absurd h (by simp)
    · rename_i m' hm'
      rw [quot_some] at hm'
      obtain ⟨hbb, hm'⟩ := hm'
      rw [Option.map_eq_some_iff] at h
      obtain ⟨l', hl', h⟩ := h
      simp only [Prod.mk.injEq] at h
      obtain ⟨rfl, rfl⟩ := h
      rw [quot_some] at hl'
      obtain ⟨hd, rfl⟩ := hl'
      refine root_maps x y _ a b hd ?_
      rw [haa, hm', mul_div_cancel₀ _ hbb]
      ring
  · rename_i haa
    split at h
    · exact absurd h (by simp)
    · rename_i hk
      have hk' := hs _ (not_lt.1 hk)
      have hroots := quad_roots _ _ _ _ haa hk'
      rw [Option.map_eq_some_iff] at h
      obtain ⟨l', hl', h⟩ := h
      simp only [Prod.mk.injEq] at h
      obtain ⟨rfl, hm⟩ := h
      rw [quot_some] at hl'
      obtain ⟨hd, rfl⟩ := hl'
      rw [hm] at hd ⊢
      refine root_maps x y _ a b hd ?_
      split at hm
      · rw [← hm]; exact hroots.2
      · rw [← hm]; exact hroots.1

/-- C45. The logical coordinates found for a point map back to it under the cell's bilinear map:
the first is the fraction of the way to the next column, the second to the next row. -/
theorem C45_maps_back (sqrt : K → K) (hs : SqrtOk sqrt) (g : Grid K) (c : Nat)
    (hlon : Rectangular c g.lon) (hlat : Rectangular c g.lat) (i j : Nat) (px py : K × K × K × K)
    (hx : IsCorners g.lon i j px) (hy : IsCorners g.lat i j py) (p : K × K) (l m : K)
    (h : offset sqrt g p ((i : Int), (j : Int)) = .ok (some (l, m))) :
    bilinear px l m = p.1 ∧ bilinear py l m = p.2 := by
  rw [offset_eq sqrt g c hlon hlat i j px py hx hy] at h
  have := xToL_maps sqrt hs p.1 p.2 _ _ l m (Except.ok.inj h)
  rwa [eval_coeffs, eval_coeffs] at this

theorem inside_not_outside (n d l : K) (hd : d ≠ 0) (h : n = l * d) (h0 : 0 ≤ l) (h1 : l ≤ 1) :
    quotOutside n d = false := by
  have : n / d = l := by rw [h]; exact mul_div_cancel_right₀ _ hd
  unfold quotOutside
  rw [if_neg hd, this]
  simp [not_lt.2 h0, not_lt.2 h1]

theorem quot_inside (n d : K) (h : quotOutside n d = false) (hd : d ≠ 0) :
    0 ≤ n / d ∧ n / d ≤ 1 := by
  unfold quotOutside at h
  rw [if_neg hd] at h
  simp only [Bool.or_eq_false_iff, decide_eq_false_iff_not, not_lt] at h
  exact h

theorem xToL_unit (sqrt : K → K) (hs : SqrtOk sqrt) (x y : K) (a b : Coeffs K) (l m l0 m0 : K)
    (h : xToL sqrt x y a b = some (l, m)) (h0 : InUnit (l0, m0)) (hx : evalC a l0 m0 = x)
    (hy : evalC b l0 m0 = y) (hden : a.c2 + a.c4 * m0 ≠ 0) : InUnit (l, m) := by
  have hroot := maps_root x y l0 m0 a b hx hy
  have hnum := maps_num x l0 m0 a hx
  obtain ⟨u1, u2, u3, u4⟩ := h0
  unfold xToL at h
  simp only at h
  split at h
  · rename_i haa
    split at h
    · exact absurd h (by simp)
    · rename_i m' hm'
      rw [quot_some] at hm'
      obtain ⟨hbb, hm'⟩ := hm'
      rw [Option.map_eq_some_iff] at h
      obtain ⟨l', hl', h⟩ := h
      simp only [Prod.mk.injEq] at h
      obtain ⟨rfl, rfl⟩ := h
      rw [quot_some] at hl'
      obtain ⟨hd, rfl⟩ := hl'
      rw [haa, zero_mul, zero_add] at hroot
      have : m' = m0 := by
        rw [hm', div_eq_iff hbb]; linear_combination -hroot
      subst this
      rw [hnum, mul_div_cancel_right₀ _ hd]
      exact ⟨u1, u2, u3, u4⟩
  · rename_i haa
    split at h
    · exact absurd h (by simp)
    · rename_i hk
      have hk' := hs _ (not_lt.1 hk)
      have hcomp := quad_complete _ _ _ _ m0 haa hk' hroot
      rw [Option.map_eq_some_iff] at h
      obtain ⟨l', hl', h⟩ := h
      simp only [Prod.mk.injEq] at h
      obtain ⟨rfl, hm⟩ := h
      rw [quot_some] at hl'
      obtain ⟨hd, rfl⟩ := hl'
      rw [hm] at hd ⊢
      split at hm
      · rename_i ht
        -- the second root was chosen, so the first is not the preimage
        have : m0 = m := by
          rcases hcomp with hc | hc
          · exfalso
            rw [← hc] at ht
            rw [inside_not_outside _ _ l0 hden hnum u1 u2] at ht
            simp [not_lt.2 u3, not_lt.2 u4] at ht
          · rw [hc]; exact hm
        subst this
        rw [hnum, mul_div_cancel_right₀ _ hd]
        exact ⟨u1, u2, u3, u4⟩
      · rename_i ht
        rw [hm] at ht
        simp only [Bool.not_eq_true, Bool.or_eq_false_iff, decide_eq_false_iff_not, not_lt] at ht
        obtain ⟨ha, hb⟩ := quot_inside _ _ ht.1 hd
        exact ⟨ha, hb, ht.2.1, ht.2.2⟩

/-- C45. If the point is the image of a position in the unit square (at which the denominator does
not vanish), the logical coordinates found are in the unit square. -/
theorem C45_unit_square (sqrt : K → K) (hs : SqrtOk sqrt) (g : Grid K) (c : Nat)
    (hlon : Rectangular c g.lon) (hlat : Rectangular c g.lat) (i j : Nat) (px py : K × K × K × K)
    (hx : IsCorners g.lon i j px) (hy : IsCorners g.lat i j py) (p : K × K) (l m l0 m0 : K)
    (h : offset sqrt g p ((i : Int), (j : Int)) = .ok (some (l, m))) (h0 : InUnit (l0, m0))
    (h1 : bilinear px l0 m0 = p.1) (h2 : bilinear py l0 m0 = p.2)
    (hden : bilinear px 1 m0 ≠ bilinear px 0 m0) : InUnit (l, m) := by
  rw [offset_eq sqrt g c hlon hlat i j px py hx hy] at h
  refine xToL_unit sqrt hs p.1 p.2 _ _ l m l0 m0 (Except.ok.inj h) h0
    (by rw [eval_coeffs]; exact h1) (by rw [eval_coeffs]; exact h2) ?_
  intro hz
  apply hden
  have : (coeffs px).c2 + (coeffs px).c4 * m0 = bilinear px 1 m0 - bilinear px 0 m0 := by
    simp only [coeffs, bilinear]; ring
  rw [this] at hz
  exact sub_eq_zero.1 hz

/-- C45. In a cell whose bilinear map is one to one on the unit square, the very position is
recovered. -/
theorem C45_recovers (sqrt : K → K) (hs : SqrtOk sqrt) (g : Grid K) (c : Nat)
    (hlon : Rectangular c g.lon) (hlat : Rectangular c g.lat) (i j : Nat) (px py : K × K × K × K)
    (hx : IsCorners g.lon i j px) (hy : IsCorners g.lat i j py) (l m l0 m0 : K)
    (hinj : ∀ u v : K × K, InUnit u → InUnit v → bilinear px u.1 u.2 = bilinear px v.1 v.2 →
      bilinear py u.1 u.2 = bilinear py v.1 v.2 → u = v)
    (h0 : InUnit (l0, m0)) (hden : bilinear px 1 m0 ≠ bilinear px 0 m0)
    (h : offset sqrt g (bilinear px l0 m0, bilinear py l0 m0) ((i : Int), (j : Int)) =
      .ok (some (l, m))) : (l, m) = (l0, m0) := by
  have hu := C45_unit_square sqrt hs g c hlon hlat i j px py hx hy _ l m l0 m0 h h0 rfl rfl hden
  obtain ⟨e1, e2⟩ := C45_maps_back sqrt hs g c hlon hlat i j px py hx hy _ l m h
  exact hinj _ _ hu h0 e1 e2

/-! ## C71 -/

/-- C71 in full: in a cell whose bilinear map is one to one on the unit square, every point of the
cell gets logical coordinates. -/
def C71_statement : Prop :=
  ∀ (sqrt : ℚ → ℚ), (∀ k : ℚ, sqrt (k * k) = |k|) → ∀ (px py : ℚ × ℚ × ℚ × ℚ),
    (∀ u v : ℚ × ℚ, InUnit u → InUnit v → bilinear px u.1 u.2 = bilinear px v.1 v.2 →
      bilinear py u.1 u.2 = bilinear py v.1 v.2 → u = v) →
    ∀ u : ℚ × ℚ, InUnit u →
      xToL sqrt (bilinear px u.1 u.2) (bilinear py u.1 u.2) (coeffs px) (coeffs py) ≠ none

/-- C71: no point of a cell whose rows have constant longitude (the first index runs east) gets
logical coordinates, whatever the cell's size. -/
theorem C71_rows_north (sqrt : K → K) (w e s n : K) (l m : K) :
    xToL sqrt (bilinear (w, e, e, w) l m) (bilinear (s, s, n, n) l m) (coeffs (w, e, e, w))
      (coeffs (s, s, n, n)) = none := by
  have ha : (coeffs (w, e, e, w)).c2 = 0 := by simp [coeffs]
  have ha4 : (coeffs (w, e, e, w)).c4 = 0 := by simp [coeffs]
  have hb4 : (coeffs (s, s, n, n)).c4 = 0 := by simp [coeffs]
  unfold xToL
  simp only [ha, ha4, hb4, mul_zero, zero_mul, sub_zero, add_zero, if_true]
  split
  · rfl
  · simp [quot]

/-- C71 is false. -/
theorem C71_refuted : ¬ C71_statement := by
  classical
  intro h
  have hm : ∀ u : ℚ × ℚ, bilinear ((0, 1, 1, 0) : ℚ × ℚ × ℚ × ℚ) u.1 u.2 = u.2 ∧
      bilinear ((0, 0, 1, 1) : ℚ × ℚ × ℚ × ℚ) u.1 u.2 = u.1 := by
    intro u
    constructor <;> simp only [bilinear] <;> ring
  refine h (fun x => |if x = 0 then 0 else (if h : ∃ k : ℚ, k * k = x then h.choose else 0)|) ?_
    (0, 1, 1, 0) (0, 0, 1, 1) ?_ (1 / 2, 1 / 2) (by unfold InUnit; norm_num) ?_
  · intro k
    by_cases hk : k * k = 0
    · have : k = 0 := by simpa using hk
      simp [this]
    · rw [if_neg hk]
      have hex : ∃ q : ℚ, q * q = k * k := ⟨k, rfl⟩
      rw [dif_pos hex]
      exact abs_eq_abs.2 (mul_self_eq_mul_self_iff.1 hex.choose_spec)
  · intro u v _ _ e1 e2
    rw [(hm u).1, (hm v).1] at e1
    rw [(hm u).2, (hm v).2] at e2
    exact Prod.ext e2 e1
  · exact C71_rows_north _ 0 1 0 1 _ _

private theorem mapE_error_of_mem {α β : Type*} {f : α → Except Err β} : ∀ {l : List α} {a : α}, a ∈ l →
    (∃ e, f a = .error e) → ∃ e, mapE f l = .error e
  | x :: l, a, h, ⟨e, he⟩ => by
    unfold mapE
    rcases List.mem_cons.1 h with rfl | h
    · rw [he]
      exact ⟨e, rfl⟩
    · cases f x with
      | error e => exact ⟨e, rfl⟩
      | ok b =>
        obtain ⟨e', h'⟩ := mapE_error_of_mem h ⟨e, he⟩
        simp only [h']
        exact ⟨e', rfl⟩

/-- C71: one point found in such a cell makes a whole call on node data fail. -/
theorem C71_rows_north_call (sqrt : K → K) (g : Grid K) (c : Nat) (hlon : Rectangular c g.lon)
    (hlat : Rectangular c g.lat) (var : List (List (MV K))) (i j : Nat) (w e s n l m : K)
    (hpx : IsCorners g.lon i j (w, e, e, w)) (hpy : IsCorners g.lat i j (s, s, n, n))
    (pts : List ((K × K) × Option (Int × Int)))
    (hq : ((bilinear (w, e, e, w) l m, bilinear (s, s, n, n) l m), some ((i : Int), (j : Int))) ∈ pts) :
    ∃ err, interpolate sqrt g (some .node) false var pts = .error err := by
  unfold interpolate
  have hall : ¬ (pts.all fun q => q.2.isNone) = true := by
    intro h
    have := List.all_eq_true.1 h _ hq
    simp at this
  rw [if_neg hall]
  simp only [Bool.false_eq_true, if_false]
  refine mapE_error_of_mem hq ?_
  unfold nodeValue
  simp only
  rw [cellOffset_eq sqrt g _ _ none (by
    rw [offset_eq sqrt g c hlon hlat i j _ _ hpx hpy]
    exact congrArg _ (C71_rows_north sqrt w e s n l m))]
  simp only
  split
  · exact ⟨_, rfl⟩
  · exact ⟨_, rfl⟩

/-- C71 for cells whose rows keep going east or west (missing: cells some row of which, at some
height, has no extent in longitude) and points at which the map is locally invertible: coordinates
are found, lie in the unit square and map back to the point. -/
theorem C71_partial (sqrt : K → K) (hs : SqrtOk sqrt) (px py : K × K × K × K) (l0 m0 : K)
    (h0 : InUnit (l0, m0))
    (hrow : ∀ m, 0 ≤ m → m ≤ 1 → bilinear px 1 m ≠ bilinear px 0 m)
    (hjac : (bilinear px 1 m0 - bilinear px 0 m0) * (bilinear py l0 1 - bilinear py l0 0) ≠
      (bilinear px l0 1 - bilinear px l0 0) * (bilinear py 1 m0 - bilinear py 0 m0)) :
    ∃ l m, xToL sqrt (bilinear px l0 m0) (bilinear py l0 m0) (coeffs px) (coeffs py) = some (l, m) ∧
      InUnit (l, m) ∧ bilinear px l m = bilinear px l0 m0 ∧ bilinear py l m = bilinear py l0 m0 := by
  have hden : ∀ m, (coeffs px).c2 + (coeffs px).c4 * m = bilinear px 1 m - bilinear px 0 m := by
    intro m; simp only [coeffs, bilinear]; ring
  have hnz : ∀ m, 0 ≤ m → m ≤ 1 → (coeffs px).c2 + (coeffs px).c4 * m ≠ 0 := by
    intro m hm0 hm1 hz
    rw [hden] at hz
    exact hrow m hm0 hm1 (sub_eq_zero.1 hz)
  have hx : evalC (coeffs px) l0 m0 = bilinear px l0 m0 := eval_coeffs px l0 m0
  have hy : evalC (coeffs py) l0 m0 = bilinear py l0 m0 := eval_coeffs py l0 m0
  have hroot := maps_root _ _ l0 m0 _ _ hx hy
  generalize hX : bilinear px l0 m0 = X at *
  generalize hY : bilinear py l0 m0 = Y at *
  have hJ : 2 * ((coeffs px).c4 * (coeffs py).c3 - (coeffs px).c3 * (coeffs py).c4) * m0 +
      ((coeffs px).c4 * (coeffs py).c1 - (coeffs px).c1 * (coeffs py).c4 +
        (coeffs px).c2 * (coeffs py).c3 - (coeffs px).c3 * (coeffs py).c2 + X * (coeffs py).c4 -
        Y * (coeffs px).c4) =
      (bilinear px 1 m0 - bilinear px 0 m0) * (bilinear py l0 1 - bilinear py l0 0) -
      (bilinear px l0 1 - bilinear px l0 0) * (bilinear py 1 m0 - bilinear py 0 m0) := by
    rw [← hX, ← hY]
    simp only [coeffs, bilinear]; ring
  have hsome : ∃ q, xToL sqrt X Y (coeffs px) (coeffs py) = some q := by
    unfold xToL
    simp only
    split
    · rename_i haa
      rw [haa, mul_zero, zero_mul, zero_add] at hJ
      rw [haa, zero_mul, zero_add] at hroot
      have hbb : (coeffs px).c4 * (coeffs py).c1 - (coeffs px).c1 * (coeffs py).c4 +
          (coeffs px).c2 * (coeffs py).c3 - (coeffs px).c3 * (coeffs py).c2 +
          X * (coeffs py).c4 - Y * (coeffs px).c4 ≠ 0 := by
        rw [hJ]; exact sub_ne_zero.2 hjac
      rw [(quot_some _ _ _).2 ⟨hbb, rfl⟩]
      simp only
      have hm : -((coeffs px).c2 * (coeffs py).c1 - (coeffs px).c1 * (coeffs py).c2 +
          X * (coeffs py).c2 - Y * (coeffs px).c2) /
          ((coeffs px).c4 * (coeffs py).c1 - (coeffs px).c1 * (coeffs py).c4 +
          (coeffs px).c2 * (coeffs py).c3 - (coeffs px).c3 * (coeffs py).c2 +
          X * (coeffs py).c4 - Y * (coeffs px).c4) = m0 := by
        rw [div_eq_iff hbb]; linear_combination -hroot
      rw [hm, (quot_some _ _ _).2 ⟨hnz m0 h0.2.2.1 h0.2.2.2, rfl⟩]
      exact ⟨_, rfl⟩
    · rename_i haa
      generalize (coeffs px).c4 * (coeffs py).c3 - (coeffs px).c3 * (coeffs py).c4 = aa at *
      generalize (coeffs px).c4 * (coeffs py).c1 - (coeffs px).c1 * (coeffs py).c4 +
        (coeffs px).c2 * (coeffs py).c3 - (coeffs px).c3 * (coeffs py).c2 +
        X * (coeffs py).c4 - Y * (coeffs px).c4 = bb at *
      generalize (coeffs px).c2 * (coeffs py).c1 - (coeffs px).c1 * (coeffs py).c2 +
        X * (coeffs py).c2 - Y * (coeffs px).c2 = cc at *
      have hk0 : 0 ≤ bb * bb - 4 * aa * cc := by
        have : bb * bb - 4 * aa * cc = (2 * aa * m0 + bb) * (2 * aa * m0 + bb) := by
          linear_combination -4 * aa * hroot
        rw [this]; exact mul_self_nonneg _
      rw [if_neg (not_lt.2 hk0)]
      have hcomp := quad_complete aa bb cc _ m0 haa (hs _ hk0) hroot
      have hnum := maps_num X l0 m0 (coeffs px) hx
      generalize sqrt (bb * bb - 4 * aa * cc) = d at *
      by_cases ht : (quotOutside (X - (coeffs px).c1 - (coeffs px).c3 * ((-bb - d) / (2 * aa)))
          ((coeffs px).c2 + (coeffs px).c4 * ((-bb - d) / (2 * aa))) ||
          (decide ((-bb - d) / (2 * aa) < 0) || decide (1 < (-bb - d) / (2 * aa)))) = true
      · have : m0 = (-bb + d) / (2 * aa) := by
          rcases hcomp with hc | hc
          · exfalso
            rw [← hc] at ht
            rw [inside_not_outside _ _ l0 (hnz m0 h0.2.2.1 h0.2.2.2) hnum h0.1 h0.2.1] at ht
            simp [not_lt.2 h0.2.2.1, not_lt.2 h0.2.2.2] at ht
          · exact hc
        simp only [ht, if_true]
        rw [← this, (quot_some _ _ _).2 ⟨hnz m0 h0.2.2.1 h0.2.2.2, rfl⟩]
        exact ⟨_, rfl⟩
      · simp only [ht, if_false, Bool.false_eq_true]
        simp only [Bool.not_eq_true, Bool.or_eq_false_iff, decide_eq_false_iff_not,
          not_lt] at ht
        rw [(quot_some _ _ _).2 ⟨hnz _ ht.2.1 ht.2.2, rfl⟩]
        exact ⟨_, rfl⟩
  obtain ⟨⟨l, m⟩, hq⟩ := hsome
  have hmaps := xToL_maps sqrt hs X Y _ _ l m hq
  rw [eval_coeffs, eval_coeffs] at hmaps
  exact ⟨l, m, hq, xToL_unit sqrt hs X Y _ _ l m l0 m0 hq h0 hx hy
    (hnz m0 h0.2.2.1 h0.2.2.2), hmaps.1, hmaps.2⟩

/-- A cell that is no parallelogram, for which the quadratic is solved: the position half way along
both directions is found again (49 is the discriminant). -/
example : xToL (fun k : ℚ => if k = 49 then 7 else 0)
    (bilinear (0, 0, 4, 2) (1 / 2) (1 / 2)) (bilinear (0, 2, 3, 0) (1 / 2) (1 / 2))
    (coeffs (0, 0, 4, 2)) (coeffs (0, 2, 3, 0)) = some (1 / 2, 1 / 2) := by decide +kernel

/-- The same cell meets the conditions of `C71_partial`. -/
example : (∀ m : ℚ, 0 ≤ m → m ≤ 1 →
      bilinear ((0, 0, 4, 2) : ℚ × ℚ × ℚ × ℚ) 1 m ≠ bilinear (0, 0, 4, 2) 0 m) ∧
    (bilinear ((0, 0, 4, 2) : ℚ × ℚ × ℚ × ℚ) 1 (1 / 2) - bilinear (0, 0, 4, 2) 0 (1 / 2)) *
        (bilinear (0, 2, 3, 0) (1 / 2) 1 - bilinear (0, 2, 3, 0) (1 / 2) 0) ≠
      (bilinear ((0, 0, 4, 2) : ℚ × ℚ × ℚ × ℚ) (1 / 2) 1 - bilinear (0, 0, 4, 2) (1 / 2) 0) *
        (bilinear (0, 2, 3, 0) 1 (1 / 2) - bilinear (0, 2, 3, 0) 0 (1 / 2)) := by
  constructor
  · intro m h0 h1 h
    simp only [bilinear] at h
    linarith
  · simp only [bilinear]; norm_num

/-! ## C46 -/

/-- An array without masked values. -/
def plain (A : List (List K)) : List (List (MV K)) := A.map (List.map (fun v => ⟨v, false⟩))

omit [IsStrictOrderedRing K] [LinearOrder K] [Field K] in
theorem plain_corners (A : List (List K)) (i j : Nat) (v : K × K × K × K)
    (h : IsCorners A i j v) : IsCorners (plain A) i j
      ((⟨v.1, false⟩, ⟨v.2.1, false⟩, ⟨v.2.2.1, false⟩, ⟨v.2.2.2, false⟩) :
        MV K × MV K × MV K × MV K) := by
  have he : ∀ i j x, entry A i j = some x → entry (plain A) i j = some (⟨x, false⟩ : MV K) := by
    intro i j x hx
    unfold entry plain at *
    rw [List.getElem?_map]
    cases hA : A[i]? with
    | none => rw [hA] at hx; exact absurd hx (by simp)
    | some r =>
      rw [hA] at hx
      simp only [Option.bind_some] at hx
      simp [hx]
  exact ⟨he _ _ _ h.1, he _ _ _ h.2.1, he _ _ _ h.2.2.1, he _ _ _ h.2.2.2⟩

omit [IsStrictOrderedRing K] [LinearOrder K] [Field K] in
theorem plain_rect (c : Nat) (A : List (List K)) (h : Rectangular c A) :
    Rectangular c (plain A) := by
  intro r hr
  simp only [plain, List.mem_map] at hr
  obtain ⟨a, ha, rfl⟩ := hr
  simpa using h a ha

/-- C46. The four weights at a position in the unit square are non-negative and sum to 1. -/
theorem C46_weights (lm : K × K) (h : InUnit lm) :
    (∀ w ∈ nodeWeights lm, 0 ≤ w) ∧ (nodeWeights lm).sum = 1 := by
  obtain ⟨l, m⟩ := lm
  obtain ⟨h1, h2, h3, h4⟩ := h
  simp only at h1 h2 h3 h4
  have e1 := mul_nonneg (sub_nonneg.2 h2) (sub_nonneg.2 h4)
  have e2 := mul_nonneg (sub_nonneg.2 h2) h3
  have e3 := mul_nonneg h1 h3
  have e4 := mul_nonneg h1 (sub_nonneg.2 h4)
  constructor
  · intro w hw
    simp only [nodeWeights, List.mem_cons, List.not_mem_nil, or_false] at hw
    rcases hw with rfl | rfl | rfl | rfl
    · linarith
    · linarith
    · exact e3
    · linarith
  · simp only [nodeWeights, List.sum_cons, List.sum_nil]; ring

example : InUnit ((1 / 3, 1 / 4) : ℚ × ℚ) := by unfold InUnit; norm_num

theorem applyPadding_ok (p : Pad × Pad) (h0 : p.1 ≠ .other) (h1 : p.2 ≠ .other) (i j : Nat) :
    applyPadding p ((i : Int), (j : Int)) =
      .ok (((i + lowPads p.1 : Nat) : Int), ((j + lowPads p.2 : Nat) : Int)) := by
  unfold applyPadding
  simp only [shift_ok _ h0, shift_ok _ h1]
  push_cast
  rfl

/-- C46. The value at a point whose position in the cell is `(l, m)` is the bilinear value of the
four node values of the cell, the nodes being shifted by the padding of node data. -/
theorem C46_value (sqrt : K → K) (g : Grid K) (A : List (List K)) (c : Nat)
    (hA : Rectangular c A) (p : K × K) (i j : Nat) (l m : K) (v : K × K × K × K)
    (hoff : offset sqrt g p ((i : Int), (j : Int)) = .ok (some (l, m)))
    (hk0 : (g.pads .node).1 ≠ .other) (hk1 : (g.pads .node).2 ≠ .other)
    (hv : IsCorners A (i + lowPads (g.pads .node).1) (j + lowPads (g.pads .node).2) v) :
    nodeValue sqrt g (plain A) p ((i : Int), (j : Int)) = .ok (some (bilinear v l m)) := by
  unfold nodeValue
  rw [cellOffset_eq sqrt g p _ _ hoff]
  simp only
  rw [applyPadding_ok _ hk0 hk1]
  simp only
  rw [byIndex_corners c _ (plain_rect c A hA) _ _ _ (plain_corners A _ _ v hv)]
  simp only [Option.bind_some, maskedDot, filledZero, nodeWeights, dot, bilinear]
  simp
  ring

theorem bilinear_between (v : K × K × K × K) (l m lo hi : K) (h : InUnit (l, m))
    (h0 : lo ≤ v.1 ∧ v.1 ≤ hi) (h1 : lo ≤ v.2.1 ∧ v.2.1 ≤ hi) (h2 : lo ≤ v.2.2.1 ∧ v.2.2.1 ≤ hi)
    (h3 : lo ≤ v.2.2.2 ∧ v.2.2.2 ≤ hi) : lo ≤ bilinear v l m ∧ bilinear v l m ≤ hi := by
  obtain ⟨a1, a2, a3, a4⟩ := h
  simp only at a1 a2 a3 a4
  have e1 := mul_nonneg (sub_nonneg.2 a2) (sub_nonneg.2 a4)
  have e2 := mul_nonneg (sub_nonneg.2 a2) a3
  have e3 := mul_nonneg a1 a3
  have e4 := mul_nonneg a1 (sub_nonneg.2 a4)
  constructor
  · have := add_nonneg (add_nonneg (mul_nonneg e1 (sub_nonneg.2 h0.1))
      (mul_nonneg e2 (sub_nonneg.2 h1.1))) (add_nonneg (mul_nonneg e3 (sub_nonneg.2 h2.1))
      (mul_nonneg e4 (sub_nonneg.2 h3.1)))
    simp only [bilinear]
    linarith
  · have := add_nonneg (add_nonneg (mul_nonneg e1 (sub_nonneg.2 h0.2))
      (mul_nonneg e2 (sub_nonneg.2 h1.2))) (add_nonneg (mul_nonneg e3 (sub_nonneg.2 h2.2))
      (mul_nonneg e4 (sub_nonneg.2 h3.2)))
    simp only [bilinear]
    linarith

/-- C46. At a position in the unit square the value lies between bounds of the four node values; so
constants are reproduced and there is no overshoot. -/
theorem C46_between (sqrt : K → K) (g : Grid K) (A : List (List K)) (c : Nat)
    (hA : Rectangular c A) (p : K × K) (i j : Nat) (l m : K) (v : K × K × K × K)
    (hoff : offset sqrt g p ((i : Int), (j : Int)) = .ok (some (l, m))) (hu : InUnit (l, m))
    (hk0 : (g.pads .node).1 ≠ .other) (hk1 : (g.pads .node).2 ≠ .other)
    (hv : IsCorners A (i + lowPads (g.pads .node).1) (j + lowPads (g.pads .node).2) v)
    (lo hi : K) (h0 : lo ≤ v.1 ∧ v.1 ≤ hi) (h1 : lo ≤ v.2.1 ∧ v.2.1 ≤ hi)
    (h2 : lo ≤ v.2.2.1 ∧ v.2.2.1 ≤ hi) (h3 : lo ≤ v.2.2.2 ∧ v.2.2.2 ≤ hi) :
    ∃ r, nodeValue sqrt g (plain A) p ((i : Int), (j : Int)) = .ok (some r) ∧ lo ≤ r ∧ r ≤ hi :=
  ⟨_, C46_value sqrt g A c hA p i j l m v hoff hk0 hk1 hv, bilinear_between v l m lo hi hu h0 h1 h2 h3⟩

/-- C46. At each corner of the unit square the value of that node is returned. -/
theorem C46_corner (sqrt : K → K) (g : Grid K) (A : List (List K)) (c : Nat)
    (hA : Rectangular c A) (p : K × K) (i j di dj : Nat) (v : K × K × K × K)
    (hdi : di = 0 ∨ di = 1) (hdj : dj = 0 ∨ dj = 1)
    (hoff : offset sqrt g p ((i : Int), (j : Int)) = .ok (some ((dj : K), (di : K))))
    (hk0 : (g.pads .node).1 ≠ .other) (hk1 : (g.pads .node).2 ≠ .other)
    (hv : IsCorners A (i + lowPads (g.pads .node).1) (j + lowPads (g.pads .node).2) v) :
    ∃ r, nodeValue sqrt g (plain A) p ((i : Int), (j : Int)) = .ok (some r) ∧
      entry A (i + lowPads (g.pads .node).1 + di) (j + lowPads (g.pads .node).2 + dj) = some r := by
  refine ⟨_, C46_value sqrt g A c hA p i j _ _ v hoff hk0 hk1 hv, ?_⟩
  obtain ⟨e0, e1, e2, e3⟩ := hv
  rcases hdi with rfl | rfl <;> rcases hdj with rfl | rfl <;>
    simp [bilinear, e0, e1, e2, e3]

/-- C46. A field that is linear in longitude and latitude at the four nodes is interpolated
exactly. -/
theorem C46_linear (sqrt : K → K) (hs : SqrtOk sqrt) (g : Grid K) (A : List (List K)) (c c' : Nat)
    (hA : Rectangular c A) (hlon : Rectangular c' g.lon) (hlat : Rectangular c' g.lat) (p : K × K)
    (i j : Nat) (l m α β γ : K) (px py v : K × K × K × K)
    (hx : IsCorners g.lon i j px) (hy : IsCorners g.lat i j py)
    (hoff : offset sqrt g p ((i : Int), (j : Int)) = .ok (some (l, m)))
    (hk0 : (g.pads .node).1 ≠ .other) (hk1 : (g.pads .node).2 ≠ .other)
    (hv : IsCorners A (i + lowPads (g.pads .node).1) (j + lowPads (g.pads .node).2) v)
    (f0 : v.1 = α + β * px.1 + γ * py.1) (f1 : v.2.1 = α + β * px.2.1 + γ * py.2.1)
    (f2 : v.2.2.1 = α + β * px.2.2.1 + γ * py.2.2.1)
    (f3 : v.2.2.2 = α + β * px.2.2.2 + γ * py.2.2.2) :
    nodeValue sqrt g (plain A) p ((i : Int), (j : Int)) =
      .ok (some (α + β * p.1 + γ * p.2)) := by
  rw [C46_value sqrt g A c hA p i j l m v hoff hk0 hk1 hv]
  obtain ⟨b1, b2⟩ := C45_maps_back sqrt hs g c' hlon hlat i j px py hx hy p l m hoff
  rw [← b1, ← b2]
  congr 2
  simp only [bilinear, f0, f1, f2, f3]
  ring

/-- C46. The whole call on node data: every located point gets the value of the linear field there,
points off the grid are masked. -/
theorem C46_call (sqrt : K → K) (hs : SqrtOk sqrt) (g : Grid K) (A : List (List K)) (c c' : Nat)
    (hA : Rectangular c A) (hlon : Rectangular c' g.lon) (hlat : Rectangular c' g.lat)
    (hk0 : (g.pads .node).1 ≠ .other) (hk1 : (g.pads .node).2 ≠ .other) (α β γ : K)
    (pts : List ((K × K) × Option (Int × Int)))
    (h : ∀ q ∈ pts, ∀ ij, q.2 = some ij → ∃ (i j : Nat) (l m : K) (px py v : K × K × K × K),
      ij = ((i : Int), (j : Int)) ∧ IsCorners g.lon i j px ∧ IsCorners g.lat i j py ∧
      offset sqrt g q.1 ((i : Int), (j : Int)) = .ok (some (l, m)) ∧
      IsCorners A (i + lowPads (g.pads .node).1) (j + lowPads (g.pads .node).2) v ∧
      v.1 = α + β * px.1 + γ * py.1 ∧ v.2.1 = α + β * px.2.1 + γ * py.2.1 ∧
      v.2.2.1 = α + β * px.2.2.1 + γ * py.2.2.1 ∧ v.2.2.2 = α + β * px.2.2.2 + γ * py.2.2.2) :
    interpolate sqrt g (some .node) false (plain A) pts =
      .ok (pts.map (fun q => q.2.map (fun _ => α + β * q.1.1 + γ * q.1.2))) := by
  unfold interpolate
  split
  · rename_i hall
    rw [List.all_eq_true] at hall
    refine congrArg Except.ok (List.map_congr_left ?_)
    intro q hq
    have := hall q hq
    cases hq2 : q.2 with
    | none => rfl
    | some ij => rw [hq2] at this; simp at this
  · simp only [Bool.false_eq_true, if_false]
    refine mapE_ok ?_
    intro q hq
    cases hq2 : q.2 with
    | none => rfl
    | some ij =>
      obtain ⟨i, j, l, m, px, py, v, rfl, hx, hy, ho, hv, f0, f1, f2, f3⟩ := h q hq ij hq2
      simp only [Option.map_some]
      exact C46_linear sqrt hs g A c c' hA hlon hlat q.1 i j l m α β γ px py v hx hy ho hk0 hk1 hv
        f0 f1 f2 f3

/-- C46. Masked nodes count as 0, and a cell of masked nodes gives a masked value. -/
theorem C46_masked (sqrt : K → K) (g : Grid K) (A : List (List (MV K))) (c : Nat)
    (hA : Rectangular c A) (p : K × K) (i j : Nat) (l m : K) (v : MV K × MV K × MV K × MV K)
    (hoff : offset sqrt g p ((i : Int), (j : Int)) = .ok (some (l, m)))
    (hk0 : (g.pads .node).1 ≠ .other) (hk1 : (g.pads .node).2 ≠ .other)
    (hv : IsCorners A (i + lowPads (g.pads .node).1) (j + lowPads (g.pads .node).2) v) :
    nodeValue sqrt g A p ((i : Int), (j : Int)) =
      .ok (if v.1.masked ∧ v.2.1.masked ∧ v.2.2.1.masked ∧ v.2.2.2.masked then none else
        some (bilinear (if v.1.masked then 0 else v.1.val, if v.2.1.masked then 0 else v.2.1.val,
          if v.2.2.1.masked then 0 else v.2.2.1.val,
          if v.2.2.2.masked then 0 else v.2.2.2.val) l m)) := by
  unfold nodeValue
  rw [cellOffset_eq sqrt g p _ _ hoff]
  simp only
  rw [applyPadding_ok _ hk0 hk1]
  simp only
  rw [byIndex_corners c _ hA _ _ _ hv]
  obtain ⟨v0, v1, v2, v3⟩ := v
  simp only [Option.bind_some, maskedDot, filledZero, nodeWeights, dot, bilinear, List.all_cons,
    List.all_nil, Bool.and_true, Bool.and_eq_true]
  congr 1
  split
  · rfl
  · simp only [List.map_cons, List.map_nil, List.zipWith_cons_cons, List.zipWith_nil_left,
      List.sum_cons, List.sum_nil, Option.some.injEq]
    ring

/-- A grid of 2 by 2 cells over the rationals. -/
def grid2 : Grid ℚ where
  lon := [[0, 1, 2], [0, 1, 2], [0, 1, 2]]
  lat := [[0, 0, 0], [1, 1, 1], [2, 2, 2]]
  pads := fun _ => (.none, .none)
  centerMask := none
  behavior := "zero"

/-- A linear field on it at two points, one of them off the grid. -/
example : interpolate (fun _ => (0 : ℚ)) grid2 (some .node) false
    (plain [[5, 6, 7], [7, 8, 9], [9, 10, 11]]) [((5 / 4, 1 / 2), some (0, 1)), ((9, 9), none)] =
    .ok [some (5 + 5 / 4 + 1), none] := by decide +kernel

/-! ## C47 -/

/-- One point of a call on edge data: its cell, its position in the cell, the two edge values of the
cell, and whether the cell, the cell before and the cell after it are land. The edges differ in the
row by `di` and in the column by `dj`. -/
structure EdgeAt (sqrt : K → K) (g : Grid K) (loc : Loc) (di dj : Nat) (var : List (List (MV K)))
    (q : (K × K) × Option (Int × Int)) (l m : K) (u1 u2 : MV K) (here before after : Bool) :
    Prop where
  cell : ∃ i j : Nat, q.2 = some ((i : Int), (j : Int)) ∧
    offset sqrt g q.1 ((i : Int), (j : Int)) = .ok (some (l, m)) ∧
    entry var (i + lowPads (g.pads loc).1) (j + lowPads (g.pads loc).2) = some u1 ∧
    entry var (i + lowPads (g.pads loc).1 + di) (j + lowPads (g.pads loc).2 + dj) = some u2 ∧
    match g.centerMask with
    | none => here = false ∧ before = false ∧ after = false
    | some cm => ∃ c, Rectangular c cm ∧
      entry cm (i + lowPads (g.pads .center).1) (j + lowPads (g.pads .center).2) = some here ∧
      entry cm (beside cm.length (i + lowPads (g.pads .center).1) (-di))
        (beside c (j + lowPads (g.pads .center).2) (-dj)) = some before ∧
      entry cm (beside cm.length (i + lowPads (g.pads .center).1) di)
        (beside c (j + lowPads (g.pads .center).2) dj) = some after

omit [IsStrictOrderedRing K] in
theorem edgeValues_eq (sqrt : K → K) (g : Grid K) (loc : Loc) (di dj c : Nat) (hdi : di ≤ 1)
    (hdj : dj ≤ 1) (hstep : edgeStep loc = ((di : Int), (dj : Int))) (var : List (List (MV K)))
    (hr : Rectangular c var) (hl0 : (g.pads loc).1 ≠ .other) (hl1 : (g.pads loc).2 ≠ .other)
    (hc0 : (g.pads .center).1 ≠ .other) (hc1 : (g.pads .center).2 ≠ .other)
    (q : (K × K) × Option (Int × Int)) (l m : K) (u1 u2 : MV K) (here before after : Bool)
    (h : EdgeAt sqrt g loc di dj var q l m u1 u2 here before after) :
    ∃ i j : Nat, q.2 = some ((i : Int), (j : Int)) ∧
      offset sqrt g q.1 ((i : Int), (j : Int)) = .ok (some (l, m)) ∧
      edgeValues g loc var ((i : Int), (j : Int)) =
        .ok [⟨u1.val, u1.masked || (here ^^ before)⟩, ⟨u2.val, u2.masked || (here ^^ after)⟩] := by
  obtain ⟨i, j, hq, hoff, hu1, hu2, hm⟩ := h.cell
  refine ⟨i, j, hq, hoff, ?_⟩
  have hmask : maskAt g (((i + lowPads (g.pads .center).1 : Nat) : Int),
        ((j + lowPads (g.pads .center).2 : Nat) : Int)) = .ok here ∧
      maskAt g (((i + lowPads (g.pads .center).1 : Nat) : Int) + -(di : Int),
        ((j + lowPads (g.pads .center).2 : Nat) : Int) + -(dj : Int)) = .ok before ∧
      maskAt g (((i + lowPads (g.pads .center).1 : Nat) : Int) + (di : Int),
        ((j + lowPads (g.pads .center).2 : Nat) : Int) + (dj : Int)) = .ok after := by
    unfold maskAt
    cases hcm : g.centerMask with
    | none =>
      rw [hcm] at hm
      obtain ⟨rfl, rfl, rfl⟩ := hm
      exact ⟨rfl, rfl, rfl⟩
    | some cm =>
      rw [hcm] at hm
      obtain ⟨w, hw, e0, e1, e2⟩ := hm
      obtain ⟨hi, hj⟩ := entry_lt w cm hw _ _ _ e0
      refine ⟨atIndex_eq w cm hw _ _ _ e0, ?_, ?_⟩
      · exact atIndex_beside w cm hw _ _ hi hj _ _ (by omega) (by omega) (by omega) (by omega) _ e1
      · exact atIndex_beside w cm hw _ _ hi hj _ _ (by omega) (by omega) (by omega) (by omega) _ e2
  have hv2 := atIndex_eq c var hr _ _ _ hu2
  rw [Nat.cast_add (i + lowPads (g.pads loc).1) di, Nat.cast_add (j + lowPads (g.pads loc).2) dj] at hv2
  unfold edgeValues
  rw [applyPadding_ok _ hc0 hc1, applyPadding_ok _ hl0 hl1]
  simp only [plus, minus, hstep, sub_eq_add_neg]
  rw [atIndex_eq c var hr _ _ _ hu1, hmask.1, hmask.2.1, hmask.2.2, hv2]

/-- What an edge contributes under the 'zero' land condition: nothing if it is masked itself or lies
between land and water. -/
def edgeContribution (u : MV K) (side other : Bool) : K :=
  if u.masked = true ∨ side ≠ other then 0 else u.val

omit [IsStrictOrderedRing K] in
theorem contribution_eq (u : MV K) (a b : Bool) :
    (if (u.masked || (a ^^ b)) = true then 0 else u.val) = edgeContribution u a b := by
  unfold edgeContribution
  cases u.masked <;> cases a <;> cases b <;> simp

theorem edge_call (sqrt : K → K) (g : Grid K) (loc : Loc) (di dj c : Nat) (hdi : di ≤ 1)
    (hdj : dj ≤ 1) (hloc : loc = .edge1 ∨ loc = .edge2)
    (hstep : edgeStep loc = ((di : Int), (dj : Int))) (w : K × K → K)
    (hw : ∀ lm, edgeWeights loc lm = [1 - w lm, w lm]) (var : List (List (MV K)))
    (hr : Rectangular c var) (hl0 : (g.pads loc).1 ≠ .other) (hl1 : (g.pads loc).2 ≠ .other)
    (hc0 : (g.pads .center).1 ≠ .other) (hc1 : (g.pads .center).2 ≠ .other)
    (hb : g.behavior = "zero") (pts : List ((K × K) × Option (Int × Int)))
    (h : ∀ q ∈ pts, q.2 ≠ none →
      ∃ l m u1 u2 here before after, EdgeAt sqrt g loc di dj var q l m u1 u2 here before after) :
    ∃ out, interpolate sqrt g (some loc) false var pts = .ok out ∧
      List.Forall₂ (fun q o => (q.2 = none → o = none) ∧
        ∀ l m u1 u2 here before after,
          EdgeAt sqrt g loc di dj var q l m u1 u2 here before after →
          o = some ((1 - w (l, m)) * edgeContribution u1 here before +
            w (l, m) * edgeContribution u2 here after)) pts out := by
  have hnone : ∀ q : (K × K) × Option (Int × Int), q.2 = none → ∀ l m u1 u2 here before after,
      ¬ EdgeAt sqrt g loc di dj var q l m u1 u2 here before after := by
    intro q hq l m u1 u2 a b d hE
    obtain ⟨i, j, hq', _⟩ := hE.cell
    rw [hq] at hq'; exact absurd hq' (by simp)
  by_cases hall : (pts.all (fun q => q.2.isNone)) = true
  · refine ⟨pts.map (fun _ => none), by unfold interpolate; rw [if_pos hall], ?_⟩
    rw [List.all_eq_true] at hall
    clear h
    induction pts with
    | nil => exact .nil
    | cons q t ih =>
      have hq : q.2 = none := by simpa using hall q (by simp)
      refine .cons ⟨fun _ => rfl, fun l m u1 u2 a b d hE =>
        absurd hE (hnone q hq l m u1 u2 a b d)⟩ (ih (fun x hx => hall x (by simp [hx])))
  · have hrows : ∃ rows, mapE (edgeRow sqrt g loc var) pts = .ok rows ∧
        List.Forall₂ (fun (q : (K × K) × Option (Int × Int))
            (r : List (MV K) × Option (List K)) =>
          (q.2 = none → r.2 = none) ∧ ∀ l m u1 u2 here before after,
            EdgeAt sqrt g loc di dj var q l m u1 u2 here before after →
            r = ([⟨u1.val, u1.masked || (here ^^ before)⟩, ⟨u2.val, u2.masked || (here ^^ after)⟩],
              some [1 - w (l, m), w (l, m)])) pts rows := by
      refine mapE_rel ?_
      intro q hq
      cases hq2 : q.2 with
      | none =>
        refine ⟨_, by unfold edgeRow; rw [hq2], fun _ => rfl, fun l m u1 u2 a b d hE =>
          absurd hE (hnone q hq2 l m u1 u2 a b d)⟩
      | some ij =>
        obtain ⟨l, m, u1, u2, a, b, d, hE⟩ := h q hq (by rw [hq2]; simp)
        have key : ∀ l m u1 u2 here before after,
            EdgeAt sqrt g loc di dj var q l m u1 u2 here before after →
            edgeRow sqrt g loc var q = .ok ([⟨u1.val, u1.masked || (here ^^ before)⟩,
              ⟨u2.val, u2.masked || (here ^^ after)⟩], some [1 - w (l, m), w (l, m)]) := by
          intro l m u1 u2 here before after hE
          obtain ⟨i, j, e1, e2, e3⟩ := edgeValues_eq sqrt g loc di dj c hdi hdj hstep var hr hl0 hl1
            hc0 hc1 q l m u1 u2 here before after hE
          unfold edgeRow
          rw [e1]
          simp only
          rw [cellOffset_eq sqrt g _ _ _ e2, e3]
          simp only [Option.map_some, hw]
        refine ⟨_, key l m u1 u2 a b d hE, fun hx => absurd hx (by simp), ?_⟩
        intro l' m' u1' u2' a' b' d' hE'
        have k1 := key l m u1 u2 a b d hE
        rw [key l' m' u1' u2' a' b' d' hE'] at k1
        exact (Except.ok.inj k1).symm
    obtain ⟨rows, hrows, hF⟩ := hrows
    have hi : interpolate sqrt g (some loc) false var pts =
        computeInterpolant g.behavior (rows.map (·.1)) (rows.map (·.2)) := by
      unfold interpolate
      rw [if_neg hall]
      rcases hloc with rfl | rfl <;> simp only [Bool.false_eq_true, if_false] <;> rw [hrows]
    rw [hi]
    unfold computeInterpolant
    rw [hb]
    simp only [(by decide : ("zero" : String) ≠ "mirror"), false_and, if_false, if_true]
    refine ⟨_, rfl, ?_⟩
    clear hi hrows h hall
    induction hF with
    | nil => exact .nil
    | cons hR _ ih =>
      simp only [List.map_cons, List.zipWith_cons_cons]
      refine .cons ⟨fun hq => by rw [hR.1 hq]; rfl, ?_⟩ ih
      intro l m u1 u2 a b d hE
      rw [hR.2 l m u1 u2 a b d hE]
      simp only [Option.map_some, filledZero, List.map_cons, List.map_nil, contribution_eq, dot,
        List.zipWith_cons_cons, List.zipWith_nil_left, List.sum_cons, List.sum_nil]
      congr 1
      ring

/-- C47. Data on the sides between columns: every located point gets the values of the two sides of
its cell, which differ in the column, weighted with the fraction of the way to the next column; a
masked side or a side between land and water counts as 0. Points off the grid are masked. -/
theorem C47_edge1 (sqrt : K → K) (g : Grid K) (c : Nat) (var : List (List (MV K)))
    (hr : Rectangular c var) (hl0 : (g.pads .edge1).1 ≠ .other) (hl1 : (g.pads .edge1).2 ≠ .other)
    (hc0 : (g.pads .center).1 ≠ .other) (hc1 : (g.pads .center).2 ≠ .other)
    (hb : g.behavior = "zero") (pts : List ((K × K) × Option (Int × Int)))
    (h : ∀ q ∈ pts, q.2 ≠ none →
      ∃ l m u1 u2 here before after, EdgeAt sqrt g .edge1 0 1 var q l m u1 u2 here before after) :
    ∃ out, interpolate sqrt g (some .edge1) false var pts = .ok out ∧
      List.Forall₂ (fun q o => (q.2 = none → o = none) ∧
        ∀ l m u1 u2 here before after,
          EdgeAt sqrt g .edge1 0 1 var q l m u1 u2 here before after →
          o = some ((1 - l) * edgeContribution u1 here before +
            l * edgeContribution u2 here after)) pts out :=
  edge_call sqrt g .edge1 0 1 c (by omega) (by omega) (Or.inl rfl) rfl (fun lm => lm.1)
    (fun _ => rfl) var hr hl0 hl1 hc0 hc1 hb pts h

/-- C47. The same for data on the sides between rows, with the fraction of the way to the next
row. -/
theorem C47_edge2 (sqrt : K → K) (g : Grid K) (c : Nat) (var : List (List (MV K)))
    (hr : Rectangular c var) (hl0 : (g.pads .edge2).1 ≠ .other) (hl1 : (g.pads .edge2).2 ≠ .other)
    (hc0 : (g.pads .center).1 ≠ .other) (hc1 : (g.pads .center).2 ≠ .other)
    (hb : g.behavior = "zero") (pts : List ((K × K) × Option (Int × Int)))
    (h : ∀ q ∈ pts, q.2 ≠ none →
      ∃ l m u1 u2 here before after, EdgeAt sqrt g .edge2 1 0 var q l m u1 u2 here before after) :
    ∃ out, interpolate sqrt g (some .edge2) false var pts = .ok out ∧
      List.Forall₂ (fun q o => (q.2 = none → o = none) ∧
        ∀ l m u1 u2 here before after,
          EdgeAt sqrt g .edge2 1 0 var q l m u1 u2 here before after →
          o = some ((1 - m) * edgeContribution u1 here before +
            m * edgeContribution u2 here after)) pts out :=
  edge_call sqrt g .edge2 1 0 c (by omega) (by omega) (Or.inr rfl) rfl (fun lm => lm.2)
    (fun _ => rfl) var hr hl0 hl1 hc0 hc1 hb pts h

/-- C47. Where the weights are 1 and 0: a point found at column fraction 0 lies on the side through
the nodes (i, j) and (i+1, j) of its cell, at column fraction 1 on the side through (i, j+1) and
(i+1, j+1); with row fractions the sides are those through (i, j), (i, j+1) and through (i+1, j),
(i+1, j+1). -/
theorem C47_sides (sqrt : K → K) (hs : SqrtOk sqrt) (g : Grid K) (c : Nat)
    (hlon : Rectangular c g.lon) (hlat : Rectangular c g.lat) (i j : Nat) (px py : K × K × K × K)
    (hx : IsCorners g.lon i j px) (hy : IsCorners g.lat i j py) (p : K × K) (l m : K)
    (h : offset sqrt g p ((i : Int), (j : Int)) = .ok (some (l, m))) :
    (l = 0 → p = ((1 - m) * px.1 + m * px.2.1, (1 - m) * py.1 + m * py.2.1)) ∧
    (l = 1 → p = ((1 - m) * px.2.2.2 + m * px.2.2.1, (1 - m) * py.2.2.2 + m * py.2.2.1)) ∧
    (m = 0 → p = ((1 - l) * px.1 + l * px.2.2.2, (1 - l) * py.1 + l * py.2.2.2)) ∧
    (m = 1 → p = ((1 - l) * px.2.1 + l * px.2.2.1, (1 - l) * py.2.1 + l * py.2.2.1)) := by
  obtain ⟨e1, e2⟩ := C45_maps_back sqrt hs g c hlon hlat i j px py hx hy p l m h
  simp only [bilinear] at e1 e2
  refine ⟨?_, ?_, ?_, ?_⟩ <;> rintro rfl <;> ext <;> simp only [← e1, ← e2] <;> ring

/-- Values on the sides between columns of the 2 by 2 cells, the upper right cell being land. -/
example : interpolate (fun _ => (0 : ℚ))
    { grid2 with centerMask := some [[false, false], [false, true]] } (some .edge1) false
    (plain [[10, 20, 30], [40, 50, 60]])
    [((1 / 4, 1 / 2), some (0, 0)), ((1 / 4, 3 / 2), some (1, 0)), ((7, 7), none)] =
    .ok [some (3 / 4 * 10 + 1 / 4 * 20), some (3 / 4 * 40), none] := by decide +kernel

/-- The second of these points is in the situation the theorem asks for. -/
example : EdgeAt (fun _ => (0 : ℚ))
    { grid2 with centerMask := some [[false, false], [false, true]] } .edge1 0 1
    (plain [[10, 20, 30], [40, 50, 60]]) ((1 / 4, 3 / 2), some (1, 0)) (1 / 4) (1 / 2)
    ⟨40, false⟩ ⟨50, false⟩ false false true :=
  ⟨⟨1, 0, rfl, by decide +kernel, by decide +kernel, by decide +kernel, 2, by unfold Rectangular; decide +kernel,
    by decide +kernel, by decide +kernel, by decide +kernel⟩⟩

/-! ## C48 -/

/-- C48. Under 'zero' each point is treated by itself: its masked values count as 0. -/
theorem C48_zero (rows : List (List (MV K))) (alphas : List (Option (List K))) :
    ∃ out, computeInterpolant "zero" rows alphas = .ok out ∧
      ∀ (n : Nat) (row : List (MV K)) (al : Option (List K)), rows[n]? = some row →
        alphas[n]? = some al → out[n]? = some (al.map (fun a =>
          (List.zipWith (fun (v : MV K) x => (if v.masked = true then 0 else v.val) * x) row a).sum)) := by
  unfold computeInterpolant
  simp only [(by decide : ("zero" : String) ≠ "mirror"), false_and, if_false, if_true]
  refine ⟨_, rfl, ?_⟩
  intro n row al h1 h2
  rw [List.getElem?_zipWith, h1, h2]
  have : dot (filledZero row) = fun a : List K =>
      (List.zipWith (fun (v : MV K) x => (if v.masked = true then 0 else v.val) * x) row a).sum := by
    funext a
    simp only [dot, filledZero, List.zipWith_map_left]
  simp only [this]

/-- C48 for 'mask': exactly the points with a masked value are masked. -/
def C48_mask_statement : Prop :=
  ∀ (rows : List (List (MV ℚ))) (alphas : List (List ℚ)), (∀ r ∈ rows, r.length = 2) →
    rows.length = alphas.length →
    ∃ out, computeInterpolant "mask" rows (alphas.map some) = .ok out ∧
      ∀ (n : Nat) (row : List (MV ℚ)), rows[n]? = some row →
        (out[n]? = some none ↔ ∃ v ∈ row, v.masked = true)

/-- C48 is false under 'mask': one masked value at the first of two points masks both. -/
theorem C48_refuted : ¬ C48_mask_statement := by
  intro h
  obtain ⟨out, ho, hv⟩ := h [[⟨1, true⟩, ⟨2, false⟩], [⟨3, false⟩, ⟨4, false⟩]]
    [[1 / 2, 1 / 2], [1 / 2, 1 / 2]] (by decide +kernel) rfl
  have : out = [none, none] := by
    have e : computeInterpolant "mask" [[⟨1, true⟩, ⟨2, false⟩], [⟨3, false⟩, ⟨4, false⟩]]
      ([[1 / 2, 1 / 2], [1 / 2, 1 / 2]].map some) = .ok [none, (none : Option ℚ)] := by
      decide +kernel
    rw [e] at ho
    exact (Except.ok.inj ho).symm
  subst this
  have := (hv 1 [⟨3, false⟩, ⟨4, false⟩] rfl).1 rfl
  revert this
  decide +kernel

/-- C48. What 'mask' does: point `n` of `N`, with two values each, is masked if one of the points
`2n` and `2n+1` (modulo `N`) has a masked value. -/
theorem C48_mask_exact (rows : List (List (MV K))) (alphas : List (List K))
    (hw : ∀ r ∈ rows, r.length = 2) (hlen : rows.length = alphas.length) :
    ∃ out, computeInterpolant "mask" rows (alphas.map some) = .ok out ∧
      ∀ (n : Nat) (row : List (MV K)), rows[n]? = some row →
        (out[n]? = some none ↔
          (∃ r, rows[(2 * n) % rows.length]? = some r ∧ ∃ v ∈ r, v.masked = true) ∨
          (∃ r, rows[(2 * n + 1) % rows.length]? = some r ∧ ∃ v ∈ r, v.masked = true)) := by
  unfold computeInterpolant
  simp only [(by decide : ("mask" : String) ≠ "mirror"), (by decide : ("mask" : String) ≠ "zero"),
    false_and, if_false, if_true]
  refine ⟨_, rfl, ?_⟩
  intro n row hrow
  obtain ⟨hn, hrow'⟩ := List.getElem?_eq_some_iff.1 hrow
  have hl : row.length = 2 := hw row (by rw [← hrow']; exact List.getElem_mem _)
  have hz : rows.zipIdx[n]? = some (row, n) := by simp [List.getElem?_zipIdx, hrow]
  have ha : (alphas.map some)[n]? = some (some alphas[n]) := by
    rw [List.getElem?_map, List.getElem?_eq_getElem (by omega)]; rfl
  rw [List.getElem?_zipWith, hz, ha]
  simp only [hl, Option.some.injEq]
  have hany : ∀ k : Nat, ((rows.map anyMasked)[k]? == some true) = true ↔
      ∃ r : List (MV K), rows[k]? = some r ∧ ∃ v ∈ r, v.masked = true := by
    intro k
    rw [List.getElem?_map]
    cases rows[k]? with
    | none => simp
    | some r => simp [anyMasked]
  have ht : tiledMask (rows.map anyMasked) 2 n = true ↔
      (∃ r, rows[(2 * n) % rows.length]? = some r ∧ ∃ v ∈ r, v.masked = true) ∨
      (∃ r, rows[(2 * n + 1) % rows.length]? = some r ∧ ∃ v ∈ r, v.masked = true) := by
    unfold tiledMask
    rw [List.any_eq_true]
    simp only [List.length_map, Nat.mod_mul_left_mod]
    rw [Nat.mul_comm 2 n]
    constructor
    · rintro ⟨cc, hc, hcc⟩
      rw [List.mem_range] at hc
      rw [hany] at hcc
      interval_cases cc
      · exact Or.inl hcc
      · exact Or.inr hcc
    · rintro (hcc | hcc)
      · exact ⟨0, by simp, by rw [hany]; exact hcc⟩
      · exact ⟨1, by simp, by rw [hany]; exact hcc⟩
  rw [← ht]
  cases tiledMask (rows.map anyMasked) 2 n <;> simp

/-- C48 under 'mask' for a single point, and for points none of which or all of which have a masked
value (missing: several points with masked values at some of them). -/
theorem C48_mask_partial (rows : List (List (MV K))) (alphas : List (List K))
    (hw : ∀ r ∈ rows, r.length = 2) (hlen : rows.length = alphas.length)
    (hsame : rows.length = 1 ∨ (∀ r ∈ rows, ∀ v ∈ r, v.masked = false) ∨
      (∀ r ∈ rows, ∃ v ∈ r, v.masked = true)) :
    ∃ out, computeInterpolant "mask" rows (alphas.map some) = .ok out ∧
      ∀ (n : Nat) (row : List (MV K)), rows[n]? = some row →
        (out[n]? = some none ↔ ∃ v ∈ row, v.masked = true) := by
  obtain ⟨out, ho, hx⟩ := C48_mask_exact rows alphas hw hlen
  refine ⟨out, ho, ?_⟩
  intro n row hrow
  rw [hx n row hrow]
  obtain ⟨hn, hrow'⟩ := List.getElem?_eq_some_iff.1 hrow
  have hmem : row ∈ rows := by rw [← hrow']; exact List.getElem_mem _
  rcases hsame with h1 | h2 | h3
  · have e0 : n = 0 := by omega
    subst e0
    rw [h1]
    simp only [Nat.mod_one, hrow, Option.some.injEq, exists_eq_left', or_self]
  · constructor
    · rintro (⟨r, hr, v, hv, hm⟩ | ⟨r, hr, v, hv, hm⟩) <;>
        exact absurd hm (by rw [h2 r (List.mem_of_getElem? hr) v hv]; simp)
    · rintro ⟨v, hv, hm⟩
      exact absurd hm (by rw [h2 row hmem v hv]; simp)
  · have hlt : (2 * n) % rows.length < rows.length := Nat.mod_lt _ (by omega)
    exact ⟨fun _ => h3 row hmem, fun _ => Or.inl ⟨_, List.getElem?_eq_getElem hlt,
      h3 _ (List.getElem_mem _)⟩⟩

/-- C48. Under 'mirror' three or more points raise `ValueError`, masked or not. -/
theorem C48_mirror_many (rows : List (List (MV K))) (alphas : List (Option (List K)))
    (h : 2 < rows.length) : computeInterpolant "mirror" rows alphas = .error .valueError := by
  unfold computeInterpolant
  rw [if_pos ⟨rfl, h⟩]

/-- C48 under 'mirror' for one or two points with two values each (missing: more points): a masked
value is replaced by minus its partner. -/
theorem C48_mirror_partial (rows : List (List (MV K))) (alphas : List (Option (List K)))
    (hn : rows.length ≤ 2) (hw : ∀ r ∈ rows, r.length = 2) :
    ∃ out, computeInterpolant "mirror" rows alphas = .ok out ∧
      ∀ (n : Nat) (v w : MV K) (x y : K), rows[n]? = some [v, w] → alphas[n]? = some (some [x, y]) →
        out[n]? = some (some ((if v.masked = true then -w.val else v.val) * x +
          (if w.masked = true then -v.val else w.val) * y)) := by
  unfold computeInterpolant
  have h4 : rows.any (fun r => r.length == 4) = false := by
    rw [List.any_eq_false]
    intro r hr
    simp [hw r hr]
  rw [if_neg (by rintro ⟨-, h⟩; omega), h4]
  simp only [(by decide : ("mirror" : String) ≠ "zero"), if_false, if_true, Bool.false_eq_true]
  refine ⟨_, rfl, ?_⟩
  intro n v w x y h1 h2
  rw [List.getElem?_zipWith, h1, h2]
  simp [mirrored, dot]

/-- C48. Any other setting raises `ValueError`. -/
theorem C48_other (b : String) (rows : List (List (MV K))) (alphas : List (Option (List K)))
    (h0 : b ≠ "zero") (h1 : b ≠ "mirror") (h2 : b ≠ "mask") :
    computeInterpolant b rows alphas = .error .valueError := by
  unfold computeInterpolant
  simp [h0, h1, h2]

/-! ## C49 -/

/-- C49 in full: the first number is the row of the position and the second its column. -/
def C49_statement : Prop :=
  ∀ (sqrt : ℚ → ℚ) (g : Grid ℚ) (i j : Nat) (px py : ℚ × ℚ × ℚ × ℚ) (p : ℚ × ℚ) (r c : ℚ),
    IsCorners g.lon i j px → IsCorners g.lat i j py →
    geoToLogical sqrt g p ((i : Int), (j : Int)) = .ok (some (r, c)) →
    bilinear px (c - j) (r - i) = p.1 ∧ bilinear py (c - j) (r - i) = p.2

/-- C49 is false: on the plain lattice with one row of nodes per degree of latitude and one column
per degree of longitude the point at longitude 1/4 and latitude 1/2 is given row 1/4. -/
theorem C49_refuted : ¬ C49_statement := by
  intro h
  have := (h (fun _ => 0) grid2 0 0 (0, 0, 1, 1) (0, 1, 1, 0) (1 / 4, 1 / 2) (1 / 4) (1 / 2)
    ⟨by decide +kernel, by decide +kernel, by decide +kernel, by decide +kernel⟩
    ⟨by decide +kernel, by decide +kernel, by decide +kernel, by decide +kernel⟩
    (by decide +kernel)).1
  simp only [bilinear] at this
  norm_num at this

/-- C49. What is returned: the row plus the fraction of the way to the next column, and the column
plus the fraction of the way to the next row. -/
theorem C49_swapped (sqrt : K → K) (hs : SqrtOk sqrt) (g : Grid K) (c : Nat)
    (hlon : Rectangular c g.lon) (hlat : Rectangular c g.lat) (i j : Nat) (px py : K × K × K × K)
    (hx : IsCorners g.lon i j px) (hy : IsCorners g.lat i j py) (p : K × K) (a b : K)
    (h : geoToLogical sqrt g p ((i : Int), (j : Int)) = .ok (some (a, b))) :
    bilinear px (a - i) (b - j) = p.1 ∧ bilinear py (a - i) (b - j) = p.2 := by
  unfold geoToLogical at h
  cases ho : offset sqrt g p ((i : Int), (j : Int)) with
  | error e => rw [ho] at h; exact absurd h (by simp)
  | ok o =>
    rw [ho] at h
    cases o with
    | none => exact absurd h (by simp)
    | some lm =>
      simp only [Option.map_some, Except.ok.injEq, Option.some.injEq, Prod.mk.injEq,
        Int.cast_natCast] at h
      obtain ⟨rfl, rfl⟩ := h
      have := C45_maps_back sqrt hs g c hlon hlat i j px py hx hy p lm.1 lm.2 ho
      simpa using this

/-- C49 for points on the diagonal of their cell (missing: all others). -/
theorem C49_partial (sqrt : K → K) (hs : SqrtOk sqrt) (g : Grid K) (c : Nat)
    (hlon : Rectangular c g.lon) (hlat : Rectangular c g.lat) (i j : Nat) (px py : K × K × K × K)
    (hx : IsCorners g.lon i j px) (hy : IsCorners g.lat i j py) (p : K × K) (a b : K)
    (h : geoToLogical sqrt g p ((i : Int), (j : Int)) = .ok (some (a, b))) (hd : a - i = b - j) :
    bilinear px (b - j) (a - i) = p.1 ∧ bilinear py (b - j) (a - i) = p.2 := by
  have := C49_swapped sqrt hs g c hlon hlat i j px py hx hy p a b h
  rw [hd] at this ⊢
  exact this

example : geoToLogical (fun _ => (0 : ℚ)) grid2 (5 / 4, 1 / 4) (0, 1) = .ok (some (1 / 4, 5 / 4)) := by
  decide +kernel

/-! ## C70 -/

/-- C70 in full: passing weights computed before does not change the result. -/
def C70_statement : Prop :=
  ∀ (sqrt : ℚ → ℚ) (g : Grid ℚ) (loc : Loc) (var : List (List (MV ℚ)))
    (pts : List ((ℚ × ℚ) × Option (Int × Int))),
    interpolate sqrt g (some loc) true var pts = interpolate sqrt g (some loc) false var pts

omit [IsStrictOrderedRing K] in
/-- C70. Passing weights with data on nodes or edges raises as soon as a point is on the grid. -/
theorem C70_raises (sqrt : K → K) (g : Grid K) (loc : Loc) (var : List (List (MV K)))
    (pts : List ((K × K) × Option (Int × Int))) (hl : loc ≠ .center)
    (hp : ∃ q ∈ pts, q.2 ≠ none) :
    interpolate sqrt g (some loc) true var pts = .error .unboundLocal := by
  obtain ⟨q, hq, hq2⟩ := hp
  have : ¬ (pts.all (fun q => q.2.isNone)) = true := by
    rw [List.all_eq_true]
    intro hall
    have := hall q hq
    rw [Option.isNone_iff_eq_none] at this
    exact hq2 this
  unfold interpolate
  rw [if_neg this]
  cases loc <;> simp at hl ⊢

/-- C70 is false. -/
theorem C70_refuted : ¬ C70_statement := by
  intro h
  have h1 := h (fun _ => 0) grid2 .node (plain [[5, 6, 7], [7, 8, 9], [9, 10, 11]])
    [((5 / 4, 1 / 2), some (0, 1))]
  rw [C70_raises _ _ _ _ _ (by simp) ⟨((5 / 4, 1 / 2), some (0, 1)), by simp, by simp⟩] at h1
  have h2 : interpolate (fun _ => (0 : ℚ)) grid2 (some .node) false
    (plain [[5, 6, 7], [7, 8, 9], [9, 10, 11]]) [((5 / 4, 1 / 2), some (0, 1))] =
    .ok [some (5 + 5 / 4 + 1)] := by decide +kernel
  rw [h2] at h1
  exact absurd h1 (by simp)

omit [IsStrictOrderedRing K] in
/-- C70 for data at cell centers and for points all off the grid (missing: nodes and edges). -/
theorem C70_partial (sqrt : K → K) (g : Grid K) (loc : Loc) (var : List (List (MV K)))
    (pts : List ((K × K) × Option (Int × Int)))
    (h : loc = .center ∨ ∀ q ∈ pts, q.2 = none) :
    interpolate sqrt g (some loc) true var pts = interpolate sqrt g (some loc) false var pts := by
  rcases h with rfl | h
  · rfl
  · have : (pts.all (fun q => q.2.isNone)) = true := by
      rw [List.all_eq_true]; intro q hq; rw [h q hq]; rfl
    unfold interpolate
    rw [if_pos this, if_pos this]

end
end Verif
