import Verif.Model.Constant
import Verif.Props.At
import Mathlib.Data.Real.Sqrt

/-!
# C124: constant variables
-/

set_option autoImplicit false

namespace Verif
open Verif.At Verif.DepthM Verif.Spec Verif.Constant

section C124
variable {K : Type} [Field K] [LinearOrder K] [IsStrictOrderedRing K]

/-- The point is in the cell of row `i` (from south to north) and column `j` (from west to east) of the
grid of a constant variable. -/
def constCell (i j : Nat) (p : K × K) : Prop :=
  ((i = 0 ∧ -1799 / 20 ≤ p.2 ∧ p.2 ≤ 0) ∨ (i = 1 ∧ 0 ≤ p.2 ∧ p.2 ≤ 1799 / 20)) ∧
  ((j = 0 ∧ -360 ≤ p.1 ∧ p.1 ≤ 0) ∨ (j = 1 ∧ 0 ≤ p.1 ∧ p.1 ≤ 360))

/-- The search found a cell that contains the point, or found none because there is none. -/
def CellFound (p : SPt K) : Prop :=
  (∃ i j : Nat, p.cell = some ((i : Int), (j : Int)) ∧ constCell i j p.pos) ∨
  (p.cell = none ∧ ∀ i j, ¬ constCell i j p.pos)

private theorem const_call (sqrt : K → K) (hsq : SqrtOk sqrt) (value : K) (pts : List (SPt K))
    (hp : ∀ p ∈ pts, CellFound p) :
    xyS sqrt grid (some .node) (data value) pts =
      .ok (pts.map fun p => if p.cell = none then ⟨none, true⟩ else ⟨some value, false⟩) := by
  have hd : data value = plain (List.replicate 3 (List.replicate 3 value)) := by
    simp [data, plain]
  have hI := C46_call sqrt hsq (grid : SInterp.Grid K) (List.replicate 3 (List.replicate 3 value)) 3 3
    (by unfold Rectangular; simp) (by unfold Rectangular grid; simp) (by unfold Rectangular grid; simp)
    (by simp [grid]) (by simp [grid]) value 0 0 (pts.map fun p => (p.pos, p.cell)) (by
      intro q hq ij hij
      obtain ⟨p, hpp, rfl⟩ := List.mem_map.mp hq
      rcases hp p hpp with ⟨i, j, hcell, hc⟩ | ⟨hn, -⟩
      · simp only at hij
        rw [hcell] at hij
        cases hij
        obtain ⟨hi, hj⟩ := hc
        have h360 : (360 : K) ≠ 0 := by norm_num
        have h1799 : (1799 / 20 : K) ≠ 0 := by norm_num
        have g1 : ∀ a b : Nat, a < 2 → b < 2 → IsCorners
            (List.replicate 3 (List.replicate 3 value)) (a + lowPads ((grid : SInterp.Grid K).pads .node).1)
            (b + lowPads ((grid : SInterp.Grid K).pads .node).2) (value, value, value, value) := by
          intro a b ha hb
          have ha' : a = 0 ∨ a = 1 := by omega
          have hb' : b = 0 ∨ b = 1 := by omega
          rcases ha' with rfl | rfl <;> rcases hb' with rfl | rfl <;>
            simp [IsCorners, entry, grid, lowPads, List.replicate]
        have hlon : ∀ (i j : Nat), i < 2 → j < 2 → ∃ x0, (x0 = (-360 : K) ∨ x0 = 0) ∧
            IsCorners (grid : SInterp.Grid K).lon i j (x0, x0, x0 + 360, x0 + 360) := by
          intro a b ha hb
          have ha' : a = 0 ∨ a = 1 := by omega
          have hb' : b = 0 ∨ b = 1 := by omega
          rcases ha' with rfl | rfl <;> rcases hb' with rfl | rfl
          · exact ⟨-360, Or.inl rfl, by simp [IsCorners, entry, grid]⟩
          · exact ⟨0, Or.inr rfl, by simp [IsCorners, entry, grid]⟩
          · exact ⟨-360, Or.inl rfl, by simp [IsCorners, entry, grid]⟩
          · exact ⟨0, Or.inr rfl, by simp [IsCorners, entry, grid]⟩
        have hlat : ∀ (i j : Nat), i < 2 → j < 2 → ∃ y0,
            IsCorners (grid : SInterp.Grid K).lat i j (y0, y0 + 1799 / 20, y0 + 1799 / 20, y0) := by
          intro a b ha hb
          have ha' : a = 0 ∨ a = 1 := by omega
          have hb' : b = 0 ∨ b = 1 := by omega
          rcases ha' with rfl | rfl <;> rcases hb' with rfl | rfl
          · exact ⟨-1799 / 20, by simp [IsCorners, entry, grid]; norm_num⟩
          · exact ⟨-1799 / 20, by simp [IsCorners, entry, grid]; norm_num⟩
          · exact ⟨0, by simp [IsCorners, entry, grid]⟩
          · exact ⟨0, by simp [IsCorners, entry, grid]⟩
        have hi2 : i < 2 := by rcases hi with ⟨h, -⟩ | ⟨h, -⟩ <;> omega
        have hj2 : j < 2 := by rcases hj with ⟨h, -⟩ | ⟨h, -⟩ <;> omega
        obtain ⟨x0, -, hx⟩ := hlon i j hi2 hj2
        obtain ⟨y0, hy⟩ := hlat i j hi2 hj2
        refine ⟨i, j, (p.pos.1 - x0) / 360, -(360 * y0 - p.pos.2 * 360) / (360 * (1799 / 20)),
          (x0, x0, x0 + 360, x0 + 360), (y0, y0 + 1799 / 20, y0 + 1799 / 20, y0),
          (value, value, value, value), rfl, hx, hy, ?_, g1 i j hi2 hj2, ?_, ?_, ?_, ?_⟩
        · rw [offset_eq sqrt grid 3 (by unfold Rectangular grid; simp)
            (by unfold Rectangular grid; simp) i j _ _ hx hy]
          simp only [SInterp.xToL, SInterp.coeffs, SInterp.quot]
          norm_num
        all_goals simp
      · simp only at hij
        rw [hn] at hij
        cases hij)
  unfold xyS
  rw [hd, hI]
  simp only [List.map_map]
  congr 1
  refine List.map_congr_left ?_
  intro p _
  cases hc : p.cell <;> simp [Function.comp, hc]

/-- C124. A constant variable gives its value at every point that the search puts into a cell, whatever
the time and the depth, and a masked entry elsewhere. -/
theorem C124_inside (sqrt : K → K) (hsq : SqrtOk sqrt) (value : K) (times : List Int)
    (ds : DepthSys K (SPt K)) (pts : List (SPt K)) (t : Int) (extrapolate : Bool)
    (hp : ∀ p ∈ pts, CellFound p) :
    constantAt sqrt value times ds pts t extrapolate false =
      .ok (pts.map fun p => if p.cell = none then ⟨none, true⟩ else ⟨some value, false⟩) := by
  unfold constantAt
  simp only [eval, const_call sqrt hsq value pts hp, Bool.false_eq_true, if_false]

/-- C124. Called with `unmask`, a constant variable gives its value at every point whatsoever: its fill
value is the value. -/
theorem C124_unmasked (sqrt : K → K) (hsq : SqrtOk sqrt) (value : K) (times : List Int)
    (ds : DepthSys K (SPt K)) (pts : List (SPt K)) (t : Int) (extrapolate : Bool)
    (hp : ∀ p ∈ pts, CellFound p) :
    constantAt sqrt value times ds pts t extrapolate true =
      .ok (pts.map fun _ => ⟨some value, false⟩) := by
  unfold constantAt
  simp only [eval, const_call sqrt hsq value pts hp, if_true, List.map_map]
  congr 1
  refine List.map_congr_left ?_
  intro p _
  by_cases hc : p.cell = none <;> simp [Function.comp, filled, hc]

/-- C124. Points between 360 degrees west and east and within 89.95 degrees of the equator get the value
without `unmask`. -/
theorem C124_partial (sqrt : K → K) (hsq : SqrtOk sqrt) (value : K) (times : List Int)
    (ds : DepthSys K (SPt K)) (pts : List (SPt K)) (t : Int) (extrapolate : Bool)
    (hp : ∀ p ∈ pts, CellFound p)
    (hr : ∀ p ∈ pts, -360 ≤ p.pos.1 ∧ p.pos.1 ≤ 360 ∧ -1799 / 20 ≤ p.pos.2 ∧ p.pos.2 ≤ 1799 / 20) :
    constantAt sqrt value times ds pts t extrapolate false =
      .ok (pts.map fun _ => ⟨some value, false⟩) := by
  rw [C124_inside sqrt hsq value times ds pts t extrapolate hp]
  congr 1
  refine List.map_congr_left ?_
  intro p hpp
  rcases hp p hpp with ⟨i, j, hc, -⟩ | ⟨-, hno⟩
  · simp [hc]
  · exfalso
    obtain ⟨w, e, so, n⟩ := hr p hpp
    refine hno (if p.pos.2 ≤ 0 then 0 else 1) (if p.pos.1 ≤ 0 then 0 else 1) ⟨?_, ?_⟩
    · by_cases h : p.pos.2 ≤ 0
      · exact Or.inl ⟨by simp [h], so, h⟩
      · exact Or.inr ⟨by simp [h], (not_le.mp h).le, n⟩
    · by_cases h : p.pos.1 ≤ 0
      · exact Or.inl ⟨by simp [h], w, h⟩
      · exact Or.inr ⟨by simp [h], (not_le.mp h).le, e⟩

/-- C124. "The result will return a constant value for all times and places": every latitude from pole to
pole and any longitude from 360 degrees west to 360 degrees east. -/
def C124_statement : Prop :=
  ∀ (value : ℝ) (times : List Int) (ds : DepthSys ℝ (SPt ℝ)) (pts : List (SPt ℝ)) (t : Int)
    (extrapolate : Bool), (∀ p ∈ pts, CellFound p) →
    (∀ p ∈ pts, -90 ≤ p.pos.2 ∧ p.pos.2 ≤ 90 ∧ -360 ≤ p.pos.1 ∧ p.pos.1 ≤ 360) →
    constantAt Real.sqrt value times ds pts t extrapolate false =
      .ok (pts.map fun _ => ⟨some value, false⟩)

/-- C124. At the north pole a constant variable gives a masked entry: the last row of nodes is 0.05
degrees south of it. -/
theorem C124_refuted : ¬ C124_statement := by
  intro h
  have hp : ∀ p ∈ [(⟨none, (0, 90), 0⟩ : SPt ℝ)], CellFound p := by
    intro p hp
    simp only [List.mem_singleton] at hp
    subst hp
    refine Or.inr ⟨rfl, ?_⟩
    rintro i j ⟨⟨-, -, h⟩ | ⟨-, -, h⟩, -⟩ <;> norm_num at h
  have := h 7 [] (levelSys SPt.z [] .extrapolate .extrapolate) [⟨none, (0, 90), 0⟩] 0 false hp (by
    intro p hp
    simp only [List.mem_singleton] at hp
    subst hp
    norm_num)
  rw [C124_inside Real.sqrt (fun k hk => Real.mul_self_sqrt hk) 7 _ _ _ 0 false hp] at this
  simp at this

/-- The hypotheses hold for a point in each of the four cells and a point at the pole. -/
example : constantAt Real.sqrt 7 [] (levelSys SPt.z [] .extrapolate .extrapolate)
    [⟨some (0, 0), (-100, -20), 0⟩, ⟨some (0, 1), (100, -20), 0⟩, ⟨some (1, 0), (-100, 45), 3⟩,
      ⟨some (1, 1), (0, 0), 0⟩, ⟨none, (10, 90), 0⟩] 5 false true =
    .ok [⟨some 7, false⟩, ⟨some 7, false⟩, ⟨some 7, false⟩, ⟨some 7, false⟩, ⟨some 7, false⟩] := by
  rw [C124_unmasked Real.sqrt (fun k hk => Real.mul_self_sqrt hk)]
  · simp
  · intro p hp
    simp only [List.mem_cons, List.not_mem_nil, or_false] at hp
    rcases hp with rfl | rfl | rfl | rfl | rfl
    · exact Or.inl ⟨0, 0, rfl, Or.inl ⟨rfl, by norm_num, by norm_num⟩, Or.inl ⟨rfl, by norm_num, by norm_num⟩⟩
    · exact Or.inl ⟨0, 1, rfl, Or.inl ⟨rfl, by norm_num, by norm_num⟩, Or.inr ⟨rfl, by norm_num, by norm_num⟩⟩
    · exact Or.inl ⟨1, 0, rfl, Or.inr ⟨rfl, by norm_num, by norm_num⟩, Or.inl ⟨rfl, by norm_num, by norm_num⟩⟩
    · exact Or.inl ⟨1, 1, rfl, Or.inr ⟨rfl, by norm_num, by norm_num⟩, Or.inr ⟨rfl, by norm_num, by norm_num⟩⟩
    · refine Or.inr ⟨rfl, ?_⟩
      rintro i j ⟨⟨-, -, h⟩ | ⟨-, -, h⟩, -⟩ <;> norm_num at h

/-- The hypotheses of the partial theorem hold for a point on an edge between two cells. -/
example : constantAt Real.sqrt 7 [] (levelSys SPt.z [] .extrapolate .extrapolate)
    [⟨some (0, 1), (300, 0), 0⟩] 5 false false = .ok [⟨some 7, false⟩] :=
  C124_partial Real.sqrt (fun k hk => Real.mul_self_sqrt hk) 7 [] _ _ 5 false (by
    intro p hp
    simp only [List.mem_singleton] at hp
    subst hp
    exact Or.inl ⟨0, 1, rfl, Or.inl ⟨rfl, by norm_num, by norm_num⟩,
      Or.inr ⟨rfl, by norm_num, by norm_num⟩⟩) (by
    intro p hp
    simp only [List.mem_singleton] at hp
    subst hp
    norm_num)

end C124

end Verif
