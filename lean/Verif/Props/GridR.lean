import Verif.Lemmas.GridR
import Mathlib.Algebra.Order.Ring.Rat
import Mathlib.Algebra.Field.Rat
import Mathlib.Tactic.Linarith
import Mathlib.Tactic.Ring

/-!
# Properties of rectangular grids: C52, C72, C73, C74
-/

set_option autoImplicit false

namespace Verif
open Verif.Spec Verif.GridR

/-! ## C52 -/

section
variable {α : Type*} [LinearOrder α]

/-- C52. A point is answered with the pair (longitude index, latitude index) of the half-open cell
it lies in, and with (−1, −1) exactly when it lies in no cell, on axes that increase or decrease
strictly. -/
theorem C52_located (lon lat : List α) (hlon : StrictIncr lon ∨ StrictDecr lon)
    (hlat : StrictIncr lat ∨ StrictDecr lat) (p : α × α) :
    ∃ r, locate lon lat p = .ok r ∧
      (∀ i j : Nat, r = ((i : Int), (j : Int)) ↔ InCell lon i p.1 ∧ InCell lat j p.2) ∧
      (r = (-1, -1) ↔ ¬ ∃ i j : Nat, InCell lon i p.1 ∧ InCell lat j p.2) := by
  obtain ⟨n, hn, hn1, hn2⟩ := axisIndex_spec lon hlon p.1
  obtain ⟨m, hm, hm1, hm2⟩ := axisIndex_spec lat hlat p.2
  have hcell : ∀ i j : Nat, (InCell lon i p.1 ∧ InCell lat j p.2) ↔ n = i ∧ m = j := by
    intro i j; rw [hn2, hm2]
  unfold locate
  rw [hn, hm]
  refine ⟨_, rfl, ?_, ?_⟩
  · intro i j
    rw [hcell]
    simp only [Prod.mk.injEq]
    constructor
    · rintro ⟨h1, h2⟩
      split_ifs at h1 h2 <;> omega
    · rintro ⟨rfl, rfl⟩
      rw [if_neg (by omega), if_neg (by omega)]
      exact ⟨rfl, rfl⟩
  · simp only [hcell, Prod.mk.injEq]
    constructor
    · rintro ⟨h1, h2⟩ ⟨i, j, rfl, rfl⟩
      rw [if_neg (by omega)] at h1
      omega
    · intro hno
      have : n = -1 ∨ m = -1 := by
        rcases hn1 with h | ⟨i, hi⟩
        · exact Or.inl h
        · rcases hm1 with h' | ⟨j, hj⟩
          · exact Or.inr h'
          · exact absurd ⟨i, j, hi, hj⟩ hno
      rcases this with h | h
      · subst h; simp
      · subst h; simp

/-- C52. The cells of an axis fill the half-open interval between its first and last node. -/
theorem C52_extent (axis : List α) (h : StrictIncr axis ∨ StrictDecr axis) (first last x : α)
    (h0 : axis[0]? = some first) (h1 : axis[axis.length - 1]? = some last) :
    (∃ k, InCell axis k x) ↔ HalfOpen first last x := by
  have hpos : 0 < axis.length := (List.getElem?_eq_some_iff.1 h0).1
  constructor
  · rintro ⟨k, a, b, ha, hb, hab⟩
    have hk : k + 1 < axis.length := (List.getElem?_eq_some_iff.1 hb).1
    rcases h with h | h
    · have e := Np.pairwise_get?_lt h (Nat.lt_succ_self k) ha hb
      have hle : axis.Pairwise (· ≤ ·) := h.imp (fun h => le_of_lt h)
      have e1 := Np.pairwise_get?_le hle (Nat.zero_le k) h0 ha
      have e2 := Np.pairwise_get?_le hle (by omega : k + 1 ≤ axis.length - 1) hb h1
      rcases hab with hab | hab
      · exact Or.inl ⟨le_trans e1 hab.1, lt_of_lt_of_le hab.2 e2⟩
      · exact absurd (lt_of_le_of_lt hab.1 hab.2) (not_lt.2 (le_of_lt e))
    · have e := Np.pairwise_get?_lt h (Nat.lt_succ_self k) ha hb
      have hge : ∀ (i j : Nat) (u v : α), i ≤ j → axis[i]? = some u → axis[j]? = some v → v ≤ u := by
        intro i j u v hij hu hv
        rcases Nat.lt_or_eq_of_le hij with h' | h'
        · exact le_of_lt (Np.pairwise_get?_lt h h' hu hv)
        · subst h'; rw [hu] at hv; exact le_of_eq (Option.some.inj hv).symm
      have e1 := hge 0 k _ _ (Nat.zero_le k) h0 ha
      have e2 := hge (k + 1) (axis.length - 1) _ _ (by omega) hb h1
      rcases hab with hab | hab
      · exact absurd (lt_of_le_of_lt hab.1 hab.2) (not_lt.2 (le_of_lt e))
      · exact Or.inr ⟨le_trans e2 hab.1, lt_of_lt_of_le hab.2 e1⟩
  · intro hx
    by_contra hno
    push Not at hno
    -- by induction no node separates the point from the first one
    rcases hx with ⟨hx1, hx2⟩ | ⟨hx1, hx2⟩
    · have : ∀ (k : Nat) (hk : k < axis.length), axis[k] ≤ x := by
        intro k
        induction k with
        | zero =>
          intro hk
          rw [List.getElem?_eq_getElem hk] at h0
          rw [Option.some.inj h0]; exact hx1
        | succ k ih =>
          intro hk
          by_contra hc
          exact hno k ⟨axis[k], axis[k + 1], List.getElem?_eq_getElem (by omega),
            List.getElem?_eq_getElem hk, Or.inl ⟨ih (by omega), not_le.1 hc⟩⟩
      have e := this (axis.length - 1) (by omega)
      rw [List.getElem?_eq_getElem (by omega)] at h1
      rw [Option.some.inj h1] at e
      exact absurd e (not_le.2 hx2)
    · have : ∀ (k : Nat) (hk : k < axis.length), x < axis[k] := by
        intro k
        induction k with
        | zero =>
          intro hk
          rw [List.getElem?_eq_getElem hk] at h0
          rw [Option.some.inj h0]; exact hx2
        | succ k ih =>
          intro hk
          by_contra hc
          exact hno k ⟨axis[k], axis[k + 1], List.getElem?_eq_getElem (by omega),
            List.getElem?_eq_getElem hk, Or.inr ⟨not_lt.1 hc, ih (by omega)⟩⟩
      have e := this (axis.length - 1) (by omega)
      rw [List.getElem?_eq_getElem (by omega)] at h1
      rw [Option.some.inj h1] at e
      exact absurd e (not_lt.2 hx1)

end

/-- An increasing and a decreasing axis. -/
example : locate [0, 1, 3] [5, 4, 2] ((1 : ℚ), (2 : ℚ)) = .ok (1, 1) ∧
    locate [0, 1, 3] [5, 4, 2] ((1 : ℚ), (5 : ℚ)) = .ok (-1, -1) ∧
    StrictIncr [(0 : ℚ), 1, 3] ∧ StrictDecr [(5 : ℚ), 4, 2] := by
  refine ⟨by decide +kernel, by decide +kernel, ?_, ?_⟩
  · unfold StrictIncr; decide +kernel
  · unfold StrictDecr; decide +kernel

/-- C52. There is one center per cell, halfway between its nodes. -/
theorem C52_centers {K : Type*} [Field K] [LinearOrder K] [IsStrictOrderedRing K] (axis : List K) :
    (centers axis).length = axis.length - 1 ∧
      ∀ (k : Nat) (a b : K), axis[k]? = some a → axis[k + 1]? = some b →
        ∃ m, (centers axis)[k]? = some m ∧ m - a = b - m := by
  refine ⟨by simp [centers], ?_⟩
  intro k a b ha hb
  refine ⟨(a + b) / 2, ?_, by ring⟩
  unfold centers
  rw [List.getElem?_zipWith, ha, List.getElem?_tail, hb]

/-- C52. The center of every cell is located in it. -/
theorem C52_centers_located {K : Type*} [Field K] [LinearOrder K] [IsStrictOrderedRing K]
    (lon lat : List K) (hlon : StrictIncr lon ∨ StrictDecr lon)
    (hlat : StrictIncr lat ∨ StrictDecr lat) (i j : Nat) (x y : K)
    (hx : (centers lon)[i]? = some x) (hy : (centers lat)[j]? = some y) :
    locate lon lat (x, y) = .ok ((i : Int), (j : Int)) := by
  have key : ∀ (axis : List K), (StrictIncr axis ∨ StrictDecr axis) → ∀ (k : Nat) (m : K),
      (centers axis)[k]? = some m → InCell axis k m := by
    intro axis h k m hm
    unfold centers at hm
    rw [List.getElem?_zipWith, List.getElem?_tail] at hm
    cases ha : axis[k]? with
    | none => rw [ha] at hm; simp at hm
    | some a =>
      cases hb : axis[k + 1]? with
      | none => rw [ha, hb] at hm; simp at hm
      | some b =>
        rw [ha, hb] at hm
        simp only [Option.some.injEq] at hm
        refine ⟨a, b, ha, hb, ?_⟩
        rcases h with h | h
        · have := Np.pairwise_get?_lt h (Nat.lt_succ_self k) ha hb
          left; constructor <;> linarith
        · have := Np.pairwise_get?_lt h (Nat.lt_succ_self k) ha hb
          right; constructor <;> linarith
  obtain ⟨r, hr, h1, _⟩ := C52_located lon lat hlon hlat (x, y)
  rw [hr, (h1 i j).2 ⟨key lon hlon i x hx, key lat hlat j y hy⟩]

example : centers [(0 : ℚ), 2, 6] = [1, 4] ∧
    locate [(0 : ℚ), 2, 6] [9, 5, 3] (4, 7) = .ok (1, 0) := by decide +kernel

/-! ## C72 -/

/-- The rows of an array as columns: the entry in row `i` and column `j` of the one is the entry in
row `j` and column `i` of the other. -/
def IsTranspose {K : Type*} (A B : List (List K)) (rows cols : Nat) : Prop :=
  A.length = rows ∧ (∀ r ∈ A, r.length = cols) ∧ B.length = cols ∧ (∀ r ∈ B, r.length = rows) ∧
    ∀ i j : Nat, (A[i]?).bind (fun r => r[j]?) = (B[j]?).bind (fun r => r[i]?)

/-- What is asked of an interpolator on a product of two axes: swapping the axes, transposing the
values and swapping the point's coordinates changes nothing. -/
def Symmetric {K R : Type*} (interp : List K → List K → List (List K) → K × K → Except Err R) :
    Prop :=
  ∀ y x A B p, IsTranspose A B y.length x.length → interp y x A p = interp x y B (p.2, p.1)

/-- C72 in full: a variable stored by (latitude, longitude) and its transpose stored by (longitude,
latitude), both with named dimensions, have the same values everywhere. -/
def C72_statement : Prop :=
  ∀ (K R : Type) (interp : List K → List K → List (List K) → K × K → Except Err R) (g : Grid K)
    (A B : List (List K)) (p : K × K), Symmetric interp → g.dims.1 ≠ g.dims.2 →
    (g.sameObject = true → g.lon = g.lat) →
    0 < g.lat.length → 0 < g.lon.length →
    IsTranspose A B g.lat.length g.lon.length →
    interpolate interp g ⟨A, some g.dims⟩ p =
      interpolate interp g ⟨B, some (g.dims.2, g.dims.1)⟩ p

theorem headD_length {K : Type*} (A : List (List K)) (c : Nat) (h : ∀ r ∈ A, r.length = c)
    (h0 : 0 < A.length) : (A.headD []).length = c := by
  cases A with
  | nil => simp at h0
  | cons r t => exact h r (by simp)

theorem interpolate_direct {K R : Type*}
    (interp : List K → List K → List (List K) → K × K → Except Err R) (g : Grid K)
    (A : List (List K)) (p : K × K) (hd : g.dims.1 ≠ g.dims.2) (h0 : 0 < g.lat.length)
    (hA : A.length = g.lat.length) (hr : ∀ r ∈ A, r.length = g.lon.length) :
    interpolate interp g ⟨A, some g.dims⟩ p = if g.sameObject then interp g.lat g.lon A p
      else interp g.lat g.lon A (p.2, p.1) := by
  have hc := headD_length A g.lon.length hr (by omega)
  have hs : swapped g ⟨A, some g.dims⟩ = .ok false := by
    unfold swapped Var.shape
    simp only [hA, hc]
    rw [if_neg (by simp), if_neg (by simp)]
    simp [hd]
  unfold interpolate
  rw [hs]
  simp

theorem interpolate_reversed {K R : Type*}
    (interp : List K → List K → List (List K) → K × K → Except Err R) (g : Grid K)
    (B : List (List K)) (p : K × K) (h0 : 0 < g.lon.length)
    (hB : B.length = g.lon.length) (hr : ∀ r ∈ B, r.length = g.lat.length) :
    interpolate interp g ⟨B, some (g.dims.2, g.dims.1)⟩ p = interp g.lon g.lat B p := by
  have hc := headD_length B g.lat.length hr (by omega)
  have hs : swapped g ⟨B, some (g.dims.2, g.dims.1)⟩ = .ok true := by
    unfold swapped Var.shape
    simp only [hB, hc]
    rw [if_neg (by simp), if_neg (by simp)]
    simp
  unfold interpolate
  rw [hs]
  simp

/-- C72 on grids whose two axes are different array objects (missing: one array used for both). -/
theorem C72_partial {K R : Type*}
    (interp : List K → List K → List (List K) → K × K → Except Err R) (g : Grid K)
    (A B : List (List K)) (p : K × K) (hsym : Symmetric interp) (hd : g.dims.1 ≠ g.dims.2)
    (hobj : g.sameObject = false) (h0 : 0 < g.lat.length) (h1 : 0 < g.lon.length)
    (ht : IsTranspose A B g.lat.length g.lon.length) :
    interpolate interp g ⟨A, some g.dims⟩ p =
      interpolate interp g ⟨B, some (g.dims.2, g.dims.1)⟩ p := by
  rw [interpolate_direct interp g A p hd h0 ht.1 ht.2.1,
    interpolate_reversed interp g B p h1 ht.2.2.1 ht.2.2.2.1, hobj]
  simp only [Bool.false_eq_true, if_false]
  exact hsym _ _ _ _ _ ht

/-- C72. Data that do not fit give no values: with a dimension that is not one of the grid's, with a
size that is not one of the grid's, or square and without named dimensions. -/
theorem C72_refused {K R : Type*}
    (interp : List K → List K → List (List K) → K × K → Except Err R) (g : Grid K)
    (A : List (List K)) (p : K × K) (r c : Nat) (hr : A.length = r) (h0 : 0 < r)
    (hc : ∀ row ∈ A, row.length = c) :
    (∀ d0 d1 : String, (∃ d ∈ [d0, d1], d ≠ g.dims.1 ∧ d ≠ g.dims.2) →
      interpolate interp g ⟨A, some (d0, d1)⟩ p = .error .valueError) ∧
    (∀ ds, (∃ n ∈ [r, c], n ≠ g.lat.length ∧ n ≠ g.lon.length) →
      interpolate interp g ⟨A, ds⟩ p = .error .valueError) ∧
    (r = c → interpolate interp g ⟨A, none⟩ p = .error .valueError) := by
  have hcol := headD_length A c hc (by omega)
  have key : ∀ v, swapped g v = .error .valueError → interpolate interp g v p = .error .valueError := by
    intro v h
    unfold interpolate
    rw [h]
  have size : (∃ n ∈ [r, c], n ≠ g.lat.length ∧ n ≠ g.lon.length) →
      ¬ (r ∈ [g.lat.length, g.lon.length] ∧ c ∈ [g.lat.length, g.lon.length]) := by
    rintro ⟨n, hn, h1, h2⟩ ⟨h3, h4⟩
    simp only [List.mem_cons, List.not_mem_nil, or_false] at hn h3 h4
    rcases hn with rfl | rfl <;> omega
  refine ⟨fun d0 d1 h => key _ ?_, fun ds h => key _ ?_, fun h => key _ ?_⟩
  · unfold swapped
    simp only
    rw [if_pos]
    rintro ⟨h1, h2⟩
    obtain ⟨d, hd, n1, n2⟩ := h
    simp only [List.mem_cons, List.not_mem_nil, or_false] at hd h1 h2
    rcases hd with rfl | rfl <;> tauto
  · cases ds with
    | none =>
      unfold swapped Var.shape
      simp only [hr, hcol]
      rw [if_pos (size h)]
    | some d =>
      unfold swapped Var.shape
      simp only [hr, hcol]
      rw [if_pos (size h)]
      split <;> rfl
  · unfold swapped Var.shape
    simp only [hr, hcol]
    split <;> rfl

/-- One dimension of the grid and one other. -/
example : interpolate (fun _ _ _ _ => (.ok 1 : Except Err Nat))
    (⟨[0, 1, 2], [0, 1], ("y", "x"), false⟩ : Grid ℚ) ⟨[[1, 2, 3], [4, 5, 6]], some ("y", "s")⟩ (1, 1) =
      .error .valueError ∧
    interpolate (fun _ _ _ _ => (.ok 1 : Except Err Nat))
    (⟨[0, 1, 2], [0, 1], ("y", "x"), false⟩ : Grid ℚ) ⟨[[1, 2, 3], [4, 5, 6]], some ("y", "x")⟩ (1, 1) =
      .ok 1 := by
  decide +kernel

/-- C72. The same without named dimensions, when the two axes differ in length. -/
theorem C72_by_length {K R : Type*}
    (interp : List K → List K → List (List K) → K × K → Except Err R) (g : Grid K)
    (A B : List (List K)) (p : K × K) (hsym : Symmetric interp)
    (hobj : g.sameObject = false) (h0 : 0 < g.lat.length) (h1 : 0 < g.lon.length)
    (hne : g.lat.length ≠ g.lon.length)
    (ht : IsTranspose A B g.lat.length g.lon.length) :
    interpolate interp g ⟨A, none⟩ p = interpolate interp g ⟨B, none⟩ p := by
  have hcA := headD_length A g.lon.length ht.2.1 (by rw [ht.1]; exact h0)
  have hcB := headD_length B g.lat.length ht.2.2.2.1 (by rw [ht.2.2.1]; exact h1)
  have hsA : swapped g ⟨A, none⟩ = .ok false := by
    unfold swapped Var.shape
    simp only [ht.1, hcA]
    rw [if_neg (by simp), if_neg hne]
    simp [hne]
  have hsB : swapped g ⟨B, none⟩ = .ok true := by
    unfold swapped Var.shape
    simp only [ht.2.2.1, hcB]
    rw [if_neg (by simp), if_neg (Ne.symm hne)]
    simp
  unfold interpolate
  rw [hsA, hsB, hobj]
  simp only [Bool.or_false, Bool.false_eq_true, if_false, if_true]
  exact hsym _ _ _ _ _ ht

/-- A symmetric interpolator for the witness: the value at a node. -/
def nodeLookup (y x : List Nat) (A : List (List Nat)) (p : Nat × Nat) : Except Err Nat :=
  match y.findIdx? (· == p.1), x.findIdx? (· == p.2) with
  | some i, some j =>
    match (A[i]?).bind (fun r => r[j]?) with
    | some v => .ok v
    | none => .error .valueError
  | _, _ => .error .valueError

theorem nodeLookup_symmetric : Symmetric nodeLookup := by
  intro y x A B p ht
  unfold nodeLookup
  cases hy : y.findIdx? (· == p.1) with
  | none => cases x.findIdx? (· == p.2) <;> rfl
  | some i =>
    cases hx : x.findIdx? (· == p.2) with
    | none => rfl
    | some j =>
      simp only
      rw [ht.2.2.2.2 i j]

/-- C72 is false: with one array object for both axes, values are read at the transposed point. -/
theorem C72_refuted : ¬ C72_statement := by
  intro h
  have := h Nat Nat nodeLookup ⟨[0, 1], [0, 1], ("lat", "lon"), true⟩ [[5, 6], [7, 8]]
    [[5, 7], [6, 8]] (1, 0) nodeLookup_symmetric (by decide) (fun _ => rfl) (by decide) (by decide)
    ⟨rfl, by decide, rfl, by decide, by
      intro i j
      match i, j with
      | 0, 0 => rfl
      | 0, 1 => rfl
      | 1, 0 => rfl
      | 1, 1 => rfl
      | 0, j + 2 => rfl
      | 1, j + 2 => rfl
      | i + 2, 0 => rfl
      | i + 2, 1 => rfl
      | i + 2, j + 2 => rfl⟩
  revert this
  decide

/-- C72. What happens with one array object for both axes: a variable stored by (latitude,
longitude) is read with the coordinates of the point swapped, one stored the other way correctly. -/
theorem C72_shared_axis {K R : Type*}
    (interp : List K → List K → List (List K) → K × K → Except Err R) (g : Grid K)
    (A : List (List K)) (p : K × K) (hd : g.dims.1 ≠ g.dims.2)
    (hobj : g.sameObject = true) (h0 : 0 < g.lat.length)
    (hA : A.length = g.lat.length) (hr : ∀ r ∈ A, r.length = g.lon.length) :
    interpolate interp g ⟨A, some g.dims⟩ p =
      interpolate interp { g with sameObject := false } ⟨A, some g.dims⟩ (p.2, p.1) := by
  rw [interpolate_direct interp g A p hd h0 hA hr,
    interpolate_direct interp { g with sameObject := false } A (p.2, p.1) hd h0 hA hr, hobj]
  simp

/-! ## C73 -/

/-- C73 in full: the location is inferred without raising, and a shape that matches no part of the
grid gives None. -/
def C73_statement : Prop :=
  ∀ (nlat nlon : Nat) (shape : Nat × Nat),
    ∃ r, inferLocation nlat nlon none shape = .ok r ∧
      (r ≠ none → shape = (nlat, nlon) ∨ shape = (nlat + 1, nlon + 1) ∨
        (shape.1 + 1 = nlat ∧ shape.2 + 1 = nlon))

/-- C73. Data with one more row, or one more column, than the nodes raise. -/
theorem C73_raises (nlat nlon : Nat) :
    inferLocation nlat nlon none (nlat + 1, nlon) = .error .attributeError ∧
      inferLocation nlat nlon none (nlat, nlon + 1) = .error .attributeError := by
  unfold inferLocation
  constructor <;> simp

/-- C73 is false. -/
theorem C73_refuted : ¬ C73_statement := by
  intro h
  obtain ⟨r, hr, _⟩ := h 3 4 (4, 4)
  rw [(C73_raises 3 4).1] at hr
  exact absurd hr (by simp)

/-- C73 for all other shapes (missing: one more row or one more column): data of the shape of the
nodes are on the nodes, one more or one less in both directions means centers, the rest is None; a
`location` attribute decides first. -/
theorem C73_partial (nlat nlon : Nat) (shape : Nat × Nat) (h1 : shape ≠ (nlat + 1, nlon))
    (h2 : shape ≠ (nlat, nlon + 1)) :
    inferLocation nlat nlon none shape =
      .ok (if shape = (nlat, nlon) then some "node"
        else if shape = (nlat + 1, nlon + 1) ∨ (shape.1 + 1 = nlat ∧ shape.2 + 1 = nlon)
          then some "center" else none) ∧
      ∀ s, inferLocation nlat nlon (some s) shape = .ok (some s) := by
  obtain ⟨r, c⟩ := shape
  refine ⟨?_, fun s => rfl⟩
  simp only [ne_eq, Prod.mk.injEq] at h1 h2
  unfold inferLocation
  simp only [Prod.mk.injEq]
  split_ifs <;> first | rfl | (exfalso; omega)

example : inferLocation 3 4 none (2, 3) = .ok (some "center") ∧
    inferLocation 3 4 none (7, 4) = .ok none := by decide

/-! ## C74 -/

/-- Up to case, `name` stands for exactly one variable of the file, with data `d`. -/
def Names {V : Type*} (file : List (String × V)) (name : String) (d : V) : Prop :=
  ∃ key, (key, d) ∈ file ∧ key.toLower = name ∧ ∀ kv ∈ file, kv.1.toLower = name → kv = (key, d)

theorem lowerGet_names {V : Type*} (file : List (String × V)) (name : String) (d : V)
    (h : Names file name d) : lowerGet file name = some d := by
  obtain ⟨key, hmem, hkey, huniq⟩ := h
  unfold lowerGet
  have hsome : (file.reverse.find? (fun kv => kv.1.toLower == name)).isSome := by
    rw [List.find?_isSome]
    exact ⟨(key, d), by simpa using hmem, by simp [hkey]⟩
  obtain ⟨kv, hkv⟩ := Option.isSome_iff_exists.1 hsome
  have h1 := List.mem_of_find?_eq_some hkv
  have h2 := List.find?_some hkv
  rw [hkv, huniq kv (by simpa using h1) (by simpa using h2)]
  rfl

theorem lowerGet_none {V : Type*} (file : List (String × V)) (name : String) :
    lowerGet file name = none ↔ ∀ kv ∈ file, kv.1.toLower ≠ name := by
  unfold lowerGet
  rw [Option.map_eq_none_iff, List.find?_eq_none]
  simp

/-- C74 in full: a topology that names the two coordinate variables by their names in the file gives
those variables. -/
def C74_statement : Prop :=
  ∀ (file : List (String × Data Nat)) (a b : String) (xs ys : List Nat),
    (file.map Prod.fst).Nodup → (a, .vec xs) ∈ file → (b, .vec ys) ∈ file →
    nodeCoords file (some [("node_lon", a), ("node_lat", b)]) = .ok ⟨some xs, some ys⟩

/-- C74. A name that is not the lower case form of a name in the file raises `KeyError`, even if it
is itself a name in the file. -/
theorem C74_upper_case {K : Type*} (file : List (String × Data K)) (a : String)
    (t : List (String × String)) (ha : ∀ kv ∈ file, kv.1.toLower ≠ a) :
    nodeCoords file (some (("node_lon", a) :: t)) = .error .keyError := by
  have : lowerGet file a = none := (lowerGet_none file a).2 ha
  simp [nodeCoords, fromTopology, this]

example : ∀ kv ∈ [("Lon", Data.vec [1, 2]), ("Lat", .vec [3])], kv.1.toLower ≠ "Lon" := by
  decide +kernel

/-- C74 is false: names with capitals. -/
theorem C74_refuted : ¬ C74_statement := by
  intro h
  have := h [("Lon", .vec [1, 2]), ("Lat", .vec [3])] "Lon" "Lat" [1, 2] [3] (by decide) (by decide)
    (by decide)
  revert this
  decide +kernel

/-- C74 for names in lower case that no other name of the file resembles (missing: names with
capitals): the two variables are found, whatever else the topology lists before and after them,
other than the composite names. -/
theorem C74_partial {K : Type*} (file : List (String × Data K)) (a b : String) (xs ys : List K)
    (ha : Names file a (.vec xs)) (hb : Names file b (.vec ys)) (t : List (String × String))
    (h1 : ("node_lon", a) ∈ t) (h2 : ("node_lat", b) ∈ t)
    (hu : ∀ nv ∈ t, (nv.1 = "node_lon" → nv.2 = a) ∧ (nv.1 = "node_lat" → nv.2 = b) ∧
      nv.1 ≠ "nodes" ∧ nv.1 ≠ "node") :
    nodeCoords file (some t) = .ok ⟨some xs, some ys⟩ := by
  have key : ∀ (t : List (String × String)) (acc : Found (List K)),
      (∀ nv ∈ t, (nv.1 = "node_lon" → nv.2 = a) ∧ (nv.1 = "node_lat" → nv.2 = b) ∧
        nv.1 ≠ "nodes" ∧ nv.1 ≠ "node") →
      (("node_lon", a) ∈ t ∨ acc.lon = some xs) → (("node_lat", b) ∈ t ∨ acc.lat = some ys) →
      fromTopology file t acc = .ok ⟨some xs, some ys⟩ := by
    intro t
    induction t with
    | nil =>
      intro acc _ h1 h2
      simp only [List.not_mem_nil, false_or] at h1 h2
      unfold fromTopology
      cases acc
      simp only at h1 h2
      rw [h1, h2]
    | cons nv t ih =>
      intro acc hu h1 h2
      obtain ⟨n, v⟩ := nv
      obtain ⟨u1, u2, u3, u4⟩ := hu (n, v) (by simp)
      simp only at u1 u2 u3 u4
      have hut := fun nv hnv => hu nv (List.mem_cons_of_mem _ hnv)
      unfold fromTopology
      by_cases hn1 : n = "node_lon"
      · subst hn1
        have hv := u1 rfl
        subst hv
        rw [if_pos (Or.inl rfl), lowerGet_names file _ _ ha]
        simp only [vector, if_true]
        refine ih _ hut (Or.inr rfl) ?_
        rcases h2 with h2 | h2
        · rcases List.mem_cons.1 h2 with h2 | h2
          · exact absurd (congrArg Prod.fst h2) (by simp)
          · exact Or.inl h2
        · exact Or.inr h2
      · by_cases hn2 : n = "node_lat"
        · subst hn2
          have hv := u2 rfl
          subst hv
          rw [if_pos (Or.inr rfl), lowerGet_names file _ _ hb]
          simp only [vector, if_neg hn1]
          refine ih _ hut ?_ (Or.inr rfl)
          rcases h1 with h1 | h1
          · rcases List.mem_cons.1 h1 with h1 | h1
            · exact absurd (congrArg Prod.fst h1) (by simp)
            · exact Or.inl h1
          · exact Or.inr h1
        · rw [if_neg (by rintro (h | h); exacts [hn1 h, hn2 h]),
            if_neg (by rintro (h | h); exacts [u3 h, u4 h])]
          refine ih _ hut ?_ ?_
          · rcases h1 with h1 | h1
            · rcases List.mem_cons.1 h1 with h1 | h1
              · exact absurd (congrArg Prod.fst h1).symm hn1
              · exact Or.inl h1
            · exact Or.inr h1
          · rcases h2 with h2 | h2
            · rcases List.mem_cons.1 h2 with h2 | h2
              · exact absurd (congrArg Prod.fst h2).symm hn2
              · exact Or.inl h2
            · exact Or.inr h2
  exact key t {} hu (Or.inl h1) (Or.inl h2)

example : Names [("lon_r", Data.vec [1, 2]), ("Lat_R", .vec [3]), ("t", .vec [4, 5])] "lat_r"
    (.vec [3]) :=
  ⟨"Lat_R", by decide +kernel, by decide +kernel, by decide +kernel⟩

/-- C74. A topology that names a table of coordinate pairs is not honoured: the variable looked up is
called "nodes" whatever the topology says. -/
theorem C74_composite {K : Type*} (file : List (String × Data K)) (v : String) :
    nodeCoords file (some [("nodes", v)]) =
      match lowerGet file "nodes" with
      | none => .error .keyError
      | some (.pairs ps) => .ok ⟨some (ps.map Prod.fst), some (ps.map Prod.snd)⟩
      | some (.vec _) => .error .notImplemented := by
  simp only [nodeCoords, fromTopology]
  rw [if_neg (by decide), if_pos (by decide)]
  cases lowerGet file "nodes" with
  | none => rfl
  | some d => cases d <;> rfl

/-- C74. Without a topology the coordinates are those of the first pair of conventional names that
are both in the file, up to case. -/
theorem C74_conventional {K : Type*} (file : List (String × Data K)) (before after : List (String × String))
    (a b : String) (xs ys : List K)
    (hsplit : [("node_lon", "node_lat"), ("lon", "lat"), ("lon_psi", "lat_psi"),
      ("longitude", "latitude")] = before ++ (a, b) :: after)
    (hbefore : ∀ cd ∈ before, (∀ kv ∈ file, kv.1.toLower ≠ cd.1) ∨ (∀ kv ∈ file, kv.1.toLower ≠ cd.2))
    (ha : Names file a (.vec xs)) (hb : Names file b (.vec ys)) :
    nodeCoords file none = .ok ⟨some xs, some ys⟩ := by
  have key : ∀ l, (∀ cd ∈ l, (∀ kv ∈ file, kv.1.toLower ≠ cd.1) ∨
      (∀ kv ∈ file, kv.1.toLower ≠ cd.2)) →
      findPair file (l ++ (a, b) :: after) = some (.vec xs, .vec ys) := by
    intro l
    induction l with
    | nil =>
      intro _
      simp only [List.nil_append, findPair]
      rw [lowerGet_names file a _ ha, lowerGet_names file b _ hb]
    | cons cd t ih =>
      intro hl
      obtain ⟨c, d⟩ := cd
      simp only [List.cons_append, findPair]
      rcases hl (c, d) (by simp) with h | h
      · rw [(lowerGet_none file c).2 h]
        exact ih (fun x hx => hl x (by simp [hx]))
      · rw [(lowerGet_none file d).2 h]
        cases lowerGet file c <;>
          exact ih (fun x hx => hl x (by simp [hx]))
  have hc : coordNames = before ++ (a, b) :: after := hsplit
  unfold nodeCoords
  rw [hc, key before hbefore]
  rfl

/-- C74. A file without such a pair, but with a table of coordinate pairs called `nodes` or else `node`,
gives its columns. -/
theorem C74_table {K : Type*} (file : List (String × Data K)) (n : String) (ps : List (K × K))
    (hno : ∀ cd ∈ [("node_lon", "node_lat"), ("lon", "lat"), ("lon_psi", "lat_psi"),
      ("longitude", "latitude")], (∀ kv ∈ file, kv.1.toLower ≠ cd.1) ∨ ∀ kv ∈ file, kv.1.toLower ≠ cd.2)
    (hn : n = "nodes" ∨ n = "node" ∧ ∀ kv ∈ file, kv.1.toLower ≠ "nodes")
    (hp : Names file n (.pairs ps)) :
    nodeCoords file none = .ok ⟨some (ps.map Prod.fst), some (ps.map Prod.snd)⟩ := by
  have key : ∀ l : List (String × String), (∀ cd ∈ l, (∀ kv ∈ file, kv.1.toLower ≠ cd.1) ∨
      (∀ kv ∈ file, kv.1.toLower ≠ cd.2)) → findPair file l = none := by
    intro l
    induction l with
    | nil => intro _; rfl
    | cons cd t ih =>
      intro hl
      obtain ⟨c, d⟩ := cd
      simp only [findPair]
      rcases hl (c, d) (by simp) with h | h
      · rw [(lowerGet_none file c).2 h]
        exact ih (fun x hx => hl x (by simp [hx]))
      · rw [(lowerGet_none file d).2 h]
        cases lowerGet file c <;> exact ih (fun x hx => hl x (by simp [hx]))
  unfold nodeCoords
  simp only
  rw [key coordNames hno]
  simp only
  rcases hn with rfl | ⟨rfl, hn⟩
  · rw [lowerGet_names file _ _ hp]
    rfl
  · rw [(lowerGet_none file _).2 hn, lowerGet_names file _ _ hp]
    rfl

example : nodeCoords [("Lon", .vec [1, 2]), ("Nodes", Data.pairs [(0, 1), (2, 3)])] none =
    .ok ⟨some [0, 2], some [1, 3]⟩ := by decide +kernel

/-- C74. A file with none of the conventional names raises `ValueError`. -/
theorem C74_nothing {K : Type*} (file : List (String × Data K))
    (h : ∀ kv ∈ file, kv.1.toLower ∉ ["node_lon", "lon", "lon_psi", "longitude", "nodes", "node"]) :
    nodeCoords file none = .error .valueError := by
  have hn : ∀ n ∈ ["node_lon", "lon", "lon_psi", "longitude", "nodes", "node"],
      lowerGet file n = none := by
    intro n hn
    rw [lowerGet_none]
    intro kv hkv he
    exact h kv hkv (he ▸ hn)
  unfold nodeCoords coordNames
  simp [findPair, hn "node_lon" (by simp), hn "lon" (by simp), hn "lon_psi" (by simp),
    hn "longitude" (by simp), hn "nodes" (by simp), hn "node" (by simp)]

end Verif
