import Verif.Lemmas.Family
import Verif.Props.At
import Verif.Props.SIndex

/-!
# C177: data at the centers of cells
-/

set_option autoImplicit false

namespace Verif
open Verif.At Verif.DepthM Verif.Spec Verif.TimeM Verif.SInterp Verif.SIndex

section C177
variable {K : Type} [Field K] [LinearOrder K]

/-- The value of the point's own cell: nothing off the grid or where the cell's value is masked. -/
def OwnCell (core : List (List (MV K))) (cell : Option (Int × Int)) (r : Option K) : Prop :=
  (cell = none ∧ r = none) ∨
  ∃ (i j : Nat) (v : MV K), cell = some ((i : Int), (j : Int)) ∧ entry core i j = some v ∧
    (v.masked = true ∧ r = none ∨ v.masked = false ∧ r = some v.val)

/-- The point is off the grid, or in a cell there is. -/
def InACell (core : List (List (MV K))) (cell : Option (Int × Int)) : Prop :=
  ∀ ij, cell = some ij → ∃ (i j : Nat) (v : MV K), ij = ((i : Int), (j : Int)) ∧ entry core i j = some v

private theorem padded_rows {p : Pad} (hp : p ≠ .other) {core mid : List (List (MV K))}
    (h : List.Forall₂ (Padded p) core mid) : mid.map (trim p) = core := by
  induction h with
  | nil => rfl
  | cons h _ ih => rw [List.map_cons, trim_padded p hp _ _ h, ih]

private theorem centerValue_own (g : Grid K) (h0 : (g.pads .center).1 ≠ .other)
    (h1 : (g.pads .center).2 ≠ .other) {core full : List (List (MV K))} {c : Nat}
    (hr : Rectangular c full) (hp : Padded2 (g.pads .center) core full) {i j : Nat} {v : MV K}
    (hv : entry core i j = some v) :
    centerValue g full ((i : Int), (j : Int)) = .ok (if v.masked then none else some v.val) := by
  have : trim2 (g.pads .center) full = core := by
    obtain ⟨mid, hm, hf⟩ := hp
    unfold trim2
    rw [trim_padded _ h0 _ _ hf, padded_rows h1 hm]
  obtain ⟨ij, e1, e2⟩ := C40_indices (g.pads .center) h0 h1 c full hr i j v (by rw [this]; exact hv)
  unfold centerValue
  simp only [e1, e2]

/-- C177. Data at the centers, with the rows and columns of padding around them: each point gets the
value of its own cell, whether or not weights are given, and whatever its place in the cell and the other
points are. -/
theorem C177_points (sqrt : K → K) (g : Grid K) (given : Bool) (h0 : (g.pads .center).1 ≠ .other)
    (h1 : (g.pads .center).2 ≠ .other) (core full : List (List (MV K))) (c : Nat)
    (hr : Rectangular c full) (hp : Padded2 (g.pads .center) core full)
    (pts : List ((K × K) × Option (Int × Int))) (hpts : ∀ q ∈ pts, InACell core q.2) :
    ∃ out, interpolate sqrt g (some .center) given full pts = .ok out ∧
      List.Forall₂ (fun q r => OwnCell core q.2 r) pts out := by
  unfold interpolate
  split
  · rename_i hall
    refine ⟨_, rfl, ?_⟩
    rw [List.forall₂_map_right_iff, List.forall₂_same]
    intro q hq
    have := List.all_eq_true.mp hall q hq
    exact Or.inl ⟨by simpa using this, rfl⟩
  · refine mapE_rel ?_
    intro q hq
    rcases hc : q.2 with _ | ij
    · exact ⟨none, rfl, Or.inl ⟨rfl, rfl⟩⟩
    · obtain ⟨i, j, v, rfl, hv⟩ := hpts q hq ij hc
      simp only
      rw [centerValue_own g h0 h1 hr hp hv]
      refine ⟨_, rfl, Or.inr ⟨i, j, v, rfl, hv, ?_⟩⟩
      cases hm : v.masked
      · exact Or.inr ⟨rfl, by simp⟩
      · exact Or.inl ⟨rfl, by simp⟩

/-- C177. A whole evaluation: points in the same cells, at depths the depth object answers alike for,
get the same results (or the same exception), wherever they are in their cells. -/
theorem C177_same_cell (sqrt : K → K) (g : Grid K) (times : List Int) (ds : DepthSys K (SPt K))
    (d : Data (List (List (MV K)))) (pts : List (SPt K × SPt K))
    (hpts : ∀ q ∈ pts, q.2.cell = q.1.cell)
    (hds : ds.alphas (pts.map fun p => p.2) = ds.alphas (pts.map fun p => p.1)) (t : Int) (e : Bool) :
    eval (xyS sqrt g (some .center)) times ds d (pts.map fun p => p.2) t e =
      eval (xyS sqrt g (some .center)) times ds d (pts.map fun p => p.1) t e := by
  have := eval_eq (xyS sqrt g (some .center)) (xyS sqrt g (some .center)) (fun s s' => s' = s)
    (fun p p' => p'.cell = p.cell) (by
      rintro s s' rfl ps hps
      have key : interpolate sqrt g (some .center) false s'
          ((ps.map fun p => p.2).map fun p => (p.pos, p.cell)) =
          interpolate sqrt g (some .center) false s' ((ps.map fun p => p.1).map fun p => (p.pos, p.cell)) := by
        unfold interpolate
        have : (((ps.map fun p => p.2).map fun p : SPt K => (p.pos, p.cell)).all fun q => q.2.isNone) =
            (((ps.map fun p => p.1).map fun p : SPt K => (p.pos, p.cell)).all fun q => q.2.isNone) := by
          rw [Bool.eq_iff_iff]
          simp only [List.all_eq_true, List.mem_map, forall_exists_index, and_imp,
            forall_apply_eq_imp_iff₂]
          constructor
          · intro h p hp
            rw [← hps p hp]; exact h p hp
          · intro h p hp
            rw [hps p hp]; exact h p hp
        rw [this]
        split
        · simp
        · have hm : ∀ (f : Option (Int × Int) → Except Err (Option K)) (l : List ((K × K) × Option (Int × Int))),
              mapE (fun q => f q.2) l = mapE f (l.map fun q => q.2) := by
            intro f l
            induction l with
            | nil => rfl
            | cons a l ih => simp only [mapE, List.map_cons, ih]
          have h := hm (fun c => match c with
            | none => .ok none
            | some ij => centerValue g s' ij)
          refine (h _).trans ((congrArg _ ?_).trans (h _).symm)
          simp only [List.map_map]
          exact List.map_congr_left fun p hp => hps p hp
      unfold xyS
      rw [key]) times ds ds rfl (d.map fun s => (s, s)) (by
      cases d with
      | timeDepth d =>
        intro r hr s hs
        obtain ⟨r', hr', rfl⟩ := List.mem_map.mp hr
        obtain ⟨x, hx, rfl⟩ := List.mem_map.mp hs
        rfl
      | time d => intro s hs; obtain ⟨x, hx, rfl⟩ := List.mem_map.mp hs; rfl
      | depth d => intro s hs; obtain ⟨x, hx, rfl⟩ := List.mem_map.mp hs; rfl
      | flat s => rfl) pts hpts hds t e
  have hdm : ∀ f : List (List (MV K)) × List (List (MV K)) → List (List (MV K)), (∀ s, f (s, s) = s) →
      (d.map fun s => (s, s)).map f = d := by
    intro f hf
    cases d <;> simp [Data.map, Function.comp_def, hf]
  rwa [hdm _ fun _ => rfl, hdm _ fun _ => rfl] at this

/-- A grid of 2 by 2 cells with centers padded on both sides in the rows and before in the columns. -/
private def fourCells : Grid ℚ where
  lon := [[0, 1, 2], [0, 1, 2], [0, 1, 2]]
  lat := [[0, 0, 0], [1, 1, 1], [2, 2, 2]]
  pads := fun l => match l with
    | .center => (.both, .low)
    | _ => (.absent, .absent)
  centerMask := none
  behavior := "zero"

private def fourCore : List (List (MV ℚ)) := [[⟨1, false⟩, ⟨2, false⟩], [⟨3, false⟩, ⟨4, true⟩]]

private def fourFull : List (List (MV ℚ)) :=
  [[⟨9, true⟩, ⟨9, true⟩, ⟨9, true⟩], [⟨8, false⟩, ⟨1, false⟩, ⟨2, false⟩],
    [⟨8, false⟩, ⟨3, false⟩, ⟨4, true⟩], [⟨7, false⟩, ⟨7, false⟩, ⟨7, false⟩]]

/-- The padding of the arrays, and the points: two in cells, one of them masked, and one off the
grid. -/
example : Padded2 (fourCells.pads .center) fourCore fourFull ∧ Rectangular 3 fourFull ∧
    interpolate (fun x => x) fourCells (some .center) true fourFull
      [((1 / 2, 3 / 2), some (1, 0)), ((9, 9), none), ((3 / 2, 3 / 2), some (1, 1))] =
      .ok [some 3, none, none] :=
  ⟨⟨[[⟨8, false⟩, ⟨1, false⟩, ⟨2, false⟩], [⟨8, false⟩, ⟨3, false⟩, ⟨4, true⟩]],
    .cons ⟨[⟨8, false⟩], [], rfl, rfl, rfl⟩ (.cons ⟨[⟨8, false⟩], [], rfl, rfl, rfl⟩ .nil),
    [[⟨9, true⟩, ⟨9, true⟩, ⟨9, true⟩]], [[⟨7, false⟩, ⟨7, false⟩, ⟨7, false⟩]], rfl, rfl, rfl⟩,
    by unfold Rectangular fourFull; simp, by decide +kernel⟩

example : ∃ out, interpolate (fun x => x) fourCells (some .center) false fourFull
      [((1 / 2, 3 / 2), some (1, 0)), ((9, 9), none)] = .ok out ∧
    List.Forall₂ (fun q r => OwnCell fourCore q.2 r)
      [(((1 / 2, 3 / 2) : ℚ × ℚ), some ((1 : Int), (0 : Int))), ((9, 9), none)] out :=
  C177_points (fun x => x) fourCells false (by decide) (by decide) fourCore fourFull 3
    (by unfold Rectangular fourFull; simp)
    ⟨[[⟨8, false⟩, ⟨1, false⟩, ⟨2, false⟩], [⟨8, false⟩, ⟨3, false⟩, ⟨4, true⟩]],
      .cons ⟨[⟨8, false⟩], [], rfl, rfl, rfl⟩ (.cons ⟨[⟨8, false⟩], [], rfl, rfl, rfl⟩ .nil),
      [[⟨9, true⟩, ⟨9, true⟩, ⟨9, true⟩]], [[⟨7, false⟩, ⟨7, false⟩, ⟨7, false⟩]], rfl, rfl, rfl⟩ _ (by
    intro q hq
    simp only [List.mem_cons, List.not_mem_nil, or_false] at hq
    rcases hq with rfl | rfl
    · rintro ij h
      cases h
      exact ⟨1, 0, ⟨3, false⟩, rfl, rfl⟩
    · rintro ij h
      cases h)

/-- Two points of one cell. -/
example : eval (xyS (fun x => x) fourCells (some .center)) [0] (levelSys SPt.z [] .mask .mask)
      (.time [fourFull]) [⟨some (1, 0), (1 / 4, 5 / 4), 0⟩] 0 false =
    eval (xyS (fun x => x) fourCells (some .center)) [0] (levelSys SPt.z [] .mask .mask)
      (.time [fourFull]) [⟨some (1, 0), (1 / 2, 3 / 2), 0⟩] 0 false :=
  C177_same_cell (fun x => x) fourCells [0] (levelSys SPt.z [] .mask .mask) (.time [fourFull])
    [(⟨some (1, 0), (1 / 2, 3 / 2), 0⟩, ⟨some (1, 0), (1 / 4, 5 / 4), 0⟩)] (by simp) rfl 0 false

end C177

end Verif
