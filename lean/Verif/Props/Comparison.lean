import Verif.Lemmas.Only
import Verif.Props.SigmaAt

/-!
# C161-C163: range, comparison and stability of whole evaluations

For every arrangement of the data, every depth object with weights between 0 and 1
(all level depths, and ROMS and FVCOM depths without any condition: `levelSys_unitWeights`,
`romsSys_unitWeights`, `fvcomSys_unitWeights`), every set of points asked together and every time. The
branch of `_depth_interp` for the level listed last is included: it may leave NaN behind, but no number
outside these bounds.
-/

set_option autoImplicit false

namespace Verif
open Spec Verif.DepthM Verif.TimeM Verif.At Verif.Rounded Verif.RoundedAt

section
variable {K : Type} [Field K] [LinearOrder K] [IsStrictOrderedRing K]

/-! ## C161 -/

theorem between_convex (lo hi : K) : Convex' (fun x => lo ≤ x ∧ x ≤ hi) := by
  intro x y a hx hy h0 h1
  have h2 : 0 ≤ 1 - a := by linarith
  have p1 := mul_le_mul_of_nonneg_left hx.1 h2
  have p2 := mul_le_mul_of_nonneg_left hy.1 h0
  have p3 := mul_le_mul_of_nonneg_left hx.2 h2
  have p4 := mul_le_mul_of_nonneg_left hy.2 h0
  exact ⟨by linarith, by linarith⟩

/-- C161, unstructured grids: data between two bounds (NaN allowed) never give a number outside them.
If a point was not found, 0 has to be between the bounds. -/
theorem C161_unstructured (m : UGeom.Mesh K) (loc : UGeom.Loc) (lo hi : K) (times : List Int)
    (ht : StrictIncr times) (ds : DepthSys K (UPt K)) (d : Data (List (Option K)))
    (hd : d.All fun s => ∀ x, some x ∈ s → lo ≤ x ∧ x ≤ hi) (pts : List (UPt K))
    (hp : ∀ p ∈ pts, LocatedOrNot m p ∧ (p.face = -1 → lo ≤ 0 ∧ 0 ≤ hi))
    (hw : UnitWeights ds pts) (t : Int) (e : Bool) (out : List (Cell K))
    (h : eval (xyU m loc) times ds d pts t e = .ok out) :
    ∀ c ∈ out, ∀ v, c.value = some v → lo ≤ v ∧ v ≤ hi :=
  eval_only (between_convex lo hi) (xyU m loc) _ _
    (fun s hs ps hps => xyU_only (between_convex lo hi) m loc s hs ps hps) times ht ds d hd pts hp hw t
    e out h

/-- C161, structured grids, data on nodes, centers or edges. Without masks nothing else is asked; with
masks the values under the mask have to be between the bounds too, 0 has to be, and for 'mirror' the
bounds have to be symmetric. -/
theorem C161_structured (sqrt : K → K) (g : SInterp.Grid K) (loc : Option SIndex.Loc) (lo hi : K)
    (hg : g.centerMask = none ∨ (lo ≤ 0 ∧ 0 ≤ hi ∧ (g.behavior = "mirror" → lo = -hi)))
    (times : List Int) (ht : StrictIncr times) (ds : DepthSys K (SPt K))
    (d : Data (List (List (SInterp.MV K))))
    (hd : d.All fun s => ∀ r ∈ s, ∀ v ∈ r, (lo ≤ v.val ∧ v.val ≤ hi) ∧
      (v.masked = true → lo ≤ 0 ∧ 0 ≤ hi ∧ (g.behavior = "mirror" → lo = -hi)))
    (pts : List (SPt K)) (hp : ∀ p ∈ pts, InCellOrNot sqrt g p) (hw : UnitWeights ds pts) (t : Int)
    (e : Bool) (out : List (Cell K)) (h : eval (xyS sqrt g loc) times ds d pts t e = .ok out) :
    ∀ c ∈ out, ∀ v, c.value = some v → lo ≤ v ∧ v ≤ hi := by
  have conv : (lo ≤ 0 ∧ 0 ≤ hi ∧ (g.behavior = "mirror" → lo = -hi)) →
      MaskOk (fun x => lo ≤ x ∧ x ≤ hi) g := by
    rintro ⟨h1, h2, h3⟩
    refine ⟨⟨h1, h2⟩, fun hb x hx => ?_⟩
    have := h3 hb
    obtain ⟨a, b⟩ := hx
    constructor <;> linarith
  exact eval_only (between_convex lo hi) (xyS sqrt g loc) _ _
    (fun s hs ps hps => xyS_only (between_convex lo hi) sqrt g (hg.imp_right conv) loc s
      (fun r hr v hv => ⟨(hs r hr v hv).1, fun hm => conv ((hs r hr v hv).2 hm)⟩) ps hps)
    times ht ds d hd pts hp hw t e out h

/-! ## Two fields -/

/-- Two evaluations raise the same exception, or both return, mask the same points, and where both
results are numbers they are related by `Rel`. -/
def Paired (Rel : K → K → Prop) (first second : Except Err (List (Cell K))) : Prop :=
  (∃ x, first = .error x ∧ second = .error x) ∨
  ∃ rs : List (Cell K × Cell K),
    first = .ok (rs.map fun r => r.1) ∧ second = .ok (rs.map fun r => r.2) ∧
    ∀ r ∈ rs, r.1.masked = r.2.masked ∧
      ∀ x y, r.1.value = some x → r.2.value = some y → Rel x y

theorem paired_of {D : K → Prop} {f g diff : Except Err (List (Cell K))}
    (h : Superposes (-1) 1 f g diff) (hD : Only D diff) : Paired (fun x y => D (y - x)) f g := by
  rcases h with ⟨x, h1, h2, _⟩ | ⟨rs, h1, h2, h3, h4⟩
  · exact Or.inl ⟨x, h1, h2⟩
  · refine Or.inr ⟨rs.map fun r => (r.1, r.2.1), ?_, ?_, ?_⟩
    · rw [h1, List.map_map]; rfl
    · rw [h2, List.map_map]; rfl
    · intro r hr
      obtain ⟨q, hq, rfl⟩ := List.mem_map.mp hr
      obtain ⟨e1, _, e3⟩ := h4 q hq
      refine ⟨e1, fun x y hx hy => ?_⟩
      have := hD _ h3 q.2.2 (List.mem_map_of_mem hq) (y - x) (by
        rw [e3]
        simp only at hx hy
        rw [hx, hy]
        simp only [wsum, Option.some.injEq]
        ring)
      exact this

theorem all_map_of {σ τ : Type} {S : σ → Prop} {T : τ → Prop} (f : σ → τ)
    (hf : ∀ s, S s → T (f s)) : ∀ {d : Data σ}, d.All S → (d.map f).All T
  | .timeDepth d, h => by
      intro r hr s hs
      obtain ⟨r', hr', rfl⟩ := List.mem_map.mp hr
      obtain ⟨x, hx, rfl⟩ := List.mem_map.mp hs
      exact hf _ (h r' hr' x hx)
  | .time d, h => by
      intro s hs; obtain ⟨x, hx, rfl⟩ := List.mem_map.mp hs; exact hf _ (h x hx)
  | .depth d, h => by
      intro s hs; obtain ⟨x, hx, rfl⟩ := List.mem_map.mp hs; exact hf _ (h x hx)
  | .flat _, h => hf _ h

theorem paired_unstructured {D : K → Prop} (hD : Convex' D) (h0 : D 0) (m : UGeom.Mesh K)
    (loc : UGeom.Loc) (times : List Int) (ht : StrictIncr times) (ds : DepthSys K (UPt K))
    (d : Data (List (Option K × Option K)))
    (hd : d.All fun s => ∀ x y, (some x, some y) ∈ s → D (y - x)) (pts : List (UPt K))
    (hp : ∀ p ∈ pts, LocatedOrNot m p) (hw : UnitWeights ds pts) (t : Int) (e : Bool) :
    Paired (fun x y => D (y - x))
      (eval (xyU m loc) times ds (d.map (List.map fun v => v.1)) pts t e)
      (eval (xyU m loc) times ds (d.map (List.map fun v => v.2)) pts t e) := by
  refine paired_of (C147_unstructured (-1) 1 m loc times ds d pts t e) ?_
  refine eval_only hD (xyU m loc) (fun s => ∀ x, some x ∈ s → D x)
    (fun p => LocatedOrNot m p ∧ (p.face = -1 → D 0))
    (fun s hs ps hps => xyU_only hD m loc s hs ps hps) times ht ds _ ?_ pts
    (fun p hp' => ⟨hp p hp', fun _ => h0⟩) hw t e
  refine all_map_of _ ?_ hd
  intro s hs x hx
  obtain ⟨⟨a, b⟩, hab, hv⟩ := List.mem_map.mp hx
  rcases a with _ | a
  · cases hv
  rcases b with _ | b
  · cases hv
  simp only [wsum, Option.some.injEq] at hv
  have := hs a b hab
  rw [show b - a = x by rw [← hv]; ring] at this
  exact this

theorem paired_structured {D : K → Prop} (hD : Convex' D) (h0 : D 0) (sqrt : K → K)
    (g : SInterp.Grid K) (hb : g.behavior = "mirror" → ∀ x, D x → D (-x)) (loc : Option SIndex.Loc)
    (times : List Int) (ht : StrictIncr times) (ds : DepthSys K (SPt K))
    (d : Data (List (List (K × K × Bool)))) (hd : d.All fun s => ∀ r ∈ s, ∀ v ∈ r, D (v.2.1 - v.1))
    (pts : List (SPt K)) (hp : ∀ p ∈ pts, InCellOrNot sqrt g p) (hw : UnitWeights ds pts) (t : Int)
    (e : Bool) :
    Paired (fun x y => D (y - x))
      (eval (xyS sqrt g loc) times ds (d.map (List.map (List.map fun v => ⟨v.1, v.2.2⟩))) pts t e)
      (eval (xyS sqrt g loc) times ds (d.map (List.map (List.map fun v => ⟨v.2.1, v.2.2⟩))) pts t e) := by
  refine paired_of (C147_structured (-1) 1 sqrt g loc times ds d pts t e) ?_
  refine eval_only hD (xyS sqrt g loc) (SliceOk D g) (InCellOrNot sqrt g)
    (fun s hs ps hps => xyS_only hD sqrt g (Or.inr ⟨h0, hb⟩) loc s hs ps hps) times ht ds _ ?_ pts hp hw
    t e
  refine all_map_of _ ?_ hd
  intro s hs r hr v hv
  obtain ⟨r', hr', rfl⟩ := List.mem_map.mp hr
  obtain ⟨x, hx, rfl⟩ := List.mem_map.mp hv
  refine ⟨?_, fun _ => ⟨h0, hb⟩⟩
  have := hs r' hr' x hx
  rwa [show x.2.1 - x.1 = -1 * x.1 + 1 * x.2.1 by ring] at this

theorem nonneg_convex : Convex' (fun x : K => 0 ≤ x) := by
  intro x y a hx hy h0 h1
  have : 0 ≤ 1 - a := by linarith
  positivity

theorem abs_convex (δ : K) : Convex' (fun x : K => |x| ≤ δ) := by
  intro x y a hx hy h0 h1
  rw [abs_le] at *
  exact between_convex (-δ) δ x y a hx hy h0 h1

/-! ## C162 -/

/-- C162, unstructured grids: with a second field nowhere below the first, the results for the second
are nowhere below those for the first. -/
theorem C162_unstructured (m : UGeom.Mesh K) (loc : UGeom.Loc) (times : List Int)
    (ht : StrictIncr times) (ds : DepthSys K (UPt K)) (d : Data (List (Option K × Option K)))
    (hd : d.All fun s => ∀ x y, (some x, some y) ∈ s → x ≤ y) (pts : List (UPt K))
    (hp : ∀ p ∈ pts, LocatedOrNot m p) (hw : UnitWeights ds pts) (t : Int) (e : Bool) :
    Paired (fun x y => x ≤ y)
      (eval (xyU m loc) times ds (d.map (List.map fun v => v.1)) pts t e)
      (eval (xyU m loc) times ds (d.map (List.map fun v => v.2)) pts t e) := by
  have := paired_unstructured nonneg_convex le_rfl m loc times ht ds d (by
    simpa only [sub_nonneg] using hd) pts hp hw t e
  simpa only [sub_nonneg] using this

/-- C162, structured grids: the same for data on nodes, centers or edges, for every way of dealing with
masked values but 'mirror'. -/
theorem C162_structured (sqrt : K → K) (g : SInterp.Grid K) (hb : g.behavior ≠ "mirror")
    (loc : Option SIndex.Loc) (times : List Int) (ht : StrictIncr times) (ds : DepthSys K (SPt K))
    (d : Data (List (List (K × K × Bool)))) (hd : d.All fun s => ∀ r ∈ s, ∀ v ∈ r, v.1 ≤ v.2.1)
    (pts : List (SPt K)) (hp : ∀ p ∈ pts, InCellOrNot sqrt g p) (hw : UnitWeights ds pts) (t : Int)
    (e : Bool) :
    Paired (fun x y => x ≤ y)
      (eval (xyS sqrt g loc) times ds (d.map (List.map (List.map fun v => ⟨v.1, v.2.2⟩))) pts t e)
      (eval (xyS sqrt g loc) times ds (d.map (List.map (List.map fun v => ⟨v.2.1, v.2.2⟩))) pts t e) := by
  have := paired_structured nonneg_convex le_rfl sqrt g (fun h => absurd h hb) loc times ht ds d (by
    simpa only [sub_nonneg] using hd) pts hp hw t e
  simpa only [sub_nonneg] using this

/-! ## C163 -/

/-- C163, unstructured grids: two fields that differ by no more than `δ` anywhere give results that
differ by no more than `δ`. -/
theorem C163_unstructured (m : UGeom.Mesh K) (loc : UGeom.Loc) (δ : K) (hδ : 0 ≤ δ) (times : List Int)
    (ht : StrictIncr times) (ds : DepthSys K (UPt K)) (d : Data (List (Option K × Option K)))
    (hd : d.All fun s => ∀ x y, (some x, some y) ∈ s → |y - x| ≤ δ) (pts : List (UPt K))
    (hp : ∀ p ∈ pts, LocatedOrNot m p) (hw : UnitWeights ds pts) (t : Int) (e : Bool) :
    Paired (fun x y => |y - x| ≤ δ)
      (eval (xyU m loc) times ds (d.map (List.map fun v => v.1)) pts t e)
      (eval (xyU m loc) times ds (d.map (List.map fun v => v.2)) pts t e) :=
  paired_unstructured (abs_convex δ) (by rwa [abs_zero]) m loc times ht ds d hd pts hp hw t e

/-- C163, structured grids: for data on nodes, centers or edges and every way of dealing with masked
values. -/
theorem C163_structured (sqrt : K → K) (g : SInterp.Grid K) (δ : K) (hδ : 0 ≤ δ)
    (loc : Option SIndex.Loc) (times : List Int) (ht : StrictIncr times) (ds : DepthSys K (SPt K))
    (d : Data (List (List (K × K × Bool)))) (hd : d.All fun s => ∀ r ∈ s, ∀ v ∈ r, |v.2.1 - v.1| ≤ δ)
    (pts : List (SPt K)) (hp : ∀ p ∈ pts, InCellOrNot sqrt g p) (hw : UnitWeights ds pts) (t : Int)
    (e : Bool) :
    Paired (fun x y => |y - x| ≤ δ)
      (eval (xyS sqrt g loc) times ds (d.map (List.map (List.map fun v => ⟨v.1, v.2.2⟩))) pts t e)
      (eval (xyS sqrt g loc) times ds (d.map (List.map (List.map fun v => ⟨v.2.1, v.2.2⟩))) pts t e) :=
  paired_structured (abs_convex δ) (by rwa [abs_zero]) sqrt g (fun _ x hx => by rwa [abs_neg]) loc
    times ht ds d hd pts hp hw t e

end

/-! ## Cases -/

/-- Two fields on a triangle at two times and two levels, the second nowhere below the first. -/
private def twoLists : List (List (List (Option ℚ × Option ℚ))) :=
  [[[(some 1, some 5), (some 2, some 2), (some 3, some 11)],
      [(some 0, some 1), (some 0, some 1), (some 0, some 1)]],
    [[(some 3, some 5), (none, some 7), (some 3, some 13)],
      [(some (-4), some (-4)), (some 0, some 2), (some 0, some 2)]]]

private def twoFields : Data (List (Option ℚ × Option ℚ)) := .timeDepth twoLists

private theorem twoLists_values : ∀ r ∈ twoLists, ∀ s ∈ r, ∀ v ∈ s,
    (v.2.all fun y => decide (-4 ≤ y) && decide (y ≤ 13) && v.1.all fun x => decide (x ≤ y)) = true := by
  decide +kernel

private theorem located_case (p : UPt ℚ) (hp : p ∈ [(⟨0, (1, 1), 3⟩ : UPt ℚ), ⟨-1, (9, 9), 4⟩]) :
    LocatedOrNot oneTriangle p := by
  simp only [List.mem_cons, List.not_mem_nil, or_false] at hp
  rcases hp with rfl | rfl
  · refine Or.inr ?_
    rintro p q r ⟨a, b, c, h1, h2, h3, h4⟩
    simp only [oneTriangle, Np.pyGet] at h1
    cases h1
    cases h2; cases h3; cases h4
    exact ⟨1 / 2, 1 / 4, 1 / 4, by norm_num, by norm_num, by norm_num, by norm_num, by norm_num, by norm_num⟩
  · exact Or.inl rfl

/-- The hypotheses of the theorems hold for them at a point of the triangle and one off the grid. -/
example : Paired (fun x y => x ≤ y)
    (eval (xyU oneTriangle .node) [0, 10] (levelSys UPt.z [0, 10] .extrapolate .mask)
      (twoFields.map (List.map fun v => v.1)) [⟨0, (1, 1), 3⟩, ⟨-1, (9, 9), 4⟩] 0 false)
    (eval (xyU oneTriangle .node) [0, 10] (levelSys UPt.z [0, 10] .extrapolate .mask)
      (twoFields.map (List.map fun v => v.2)) [⟨0, (1, 1), 3⟩, ⟨-1, (9, 9), 4⟩] 0 false) :=
  C162_unstructured oneTriangle .node [0, 10] (by unfold StrictIncr; decide)
    (levelSys UPt.z [0, 10] .extrapolate .mask) twoFields
    (by
      intro r hr s hs x y hxy
      have := twoLists_values r hr s hs _ hxy
      simp only [Option.all_some, Bool.and_eq_true, decide_eq_true_eq] at this
      exact this.2)
    _ located_case (levelSys_unitWeights _ (Or.inl (by unfold StrictIncr; decide +kernel)) _ _ _) 0 false

example : eval (xyU oneTriangle .node) [0, 10] (levelSys UPt.z [0, 10] .extrapolate .mask)
      (twoFields.map (List.map fun v => v.1)) [⟨0, (1, 1), 3⟩, ⟨-1, (9, 9), 4⟩] 0 false =
      .ok [⟨some (49 / 40), false⟩, ⟨some 0, false⟩] ∧
    eval (xyU oneTriangle .node) [0, 10] (levelSys UPt.z [0, 10] .extrapolate .mask)
      (twoFields.map (List.map fun v => v.2)) [⟨0, (1, 1), 3⟩, ⟨-1, (9, 9), 4⟩] 0 false =
      .ok [⟨some (173 / 40), false⟩, ⟨some 0, false⟩] := by
  decide +kernel

/-- A square cell with land beside it, masked values mirrored. -/
private def mirrorSquare : SInterp.Grid ℚ := { squareQ with behavior := "mirror" }

/-- With 'mirror' larger data can give a smaller result: the masked edge gets the negative of the other
one. -/
theorem C162_mirror_reverses :
    xyS (fun _ => 0) mirrorSquare (some .edge1) [[⟨0, true⟩, ⟨1, false⟩]] [⟨some (0, 0), (1 / 2, 1 / 2), 0⟩] =
      .ok [⟨some (-1 / 2), false⟩] ∧
    xyS (fun _ => 0) mirrorSquare (some .edge1) [[⟨0, true⟩, ⟨2, false⟩]] [⟨some (0, 0), (1 / 2, 1 / 2), 0⟩] =
      .ok [⟨some (-1), false⟩] := by
  decide +kernel

private theorem square_case (p : SPt ℚ) (hp : p ∈ [(⟨some (0, 0), (1, 1 / 2), 0⟩ : SPt ℚ), ⟨none, (9, 9), 0⟩]) :
    InCellOrNot (fun _ => 0) mirrorSquare p := by
  intro ij hc lm ho
  simp only [List.mem_cons, List.not_mem_nil, or_false] at hp
  rcases hp with rfl | rfl
  · simp only [Option.some.injEq] at hc
    subst hc
    have : SInterp.offset (fun _ => 0) mirrorSquare (1, 1 / 2) (0, 0) = .ok (some (1 / 2, 1 / 4)) := by
      decide +kernel
    rw [this] at ho
    cases ho
    exact ⟨by norm_num, by norm_num, by norm_num, by norm_num⟩
  · cases hc

/-- The hypotheses of the structured theorem hold there, at a point of the cell and one off the
grid. -/
example : Paired (fun x y => |y - x| ≤ (2 : ℚ))
    (eval (xyS (fun _ => 0) mirrorSquare (some .edge1)) [0] (levelSys SPt.z [] .mask .mask)
      (.flat [[⟨0, true⟩, ⟨1, false⟩]]) [⟨some (0, 0), (1, 1 / 2), 0⟩, ⟨none, (9, 9), 0⟩] 0 false)
    (eval (xyS (fun _ => 0) mirrorSquare (some .edge1)) [0] (levelSys SPt.z [] .mask .mask)
      (.flat [[⟨1, true⟩, ⟨3, false⟩]]) [⟨some (0, 0), (1, 1 / 2), 0⟩, ⟨none, (9, 9), 0⟩] 0 false) :=
  C163_structured (fun _ => 0) mirrorSquare 2 (by norm_num) (some .edge1) [0]
    (by unfold StrictIncr; decide) (levelSys SPt.z [] .mask .mask)
    (.flat [[(0, 1, true), (1, 3, false)]])
    (by
      intro r hr v hv
      simp only [List.mem_cons, List.not_mem_nil, or_false] at hr
      subst hr
      simp only [List.mem_cons, List.not_mem_nil, or_false] at hv
      rcases hv with rfl | rfl <;> norm_num)
    _ square_case (levelSys_unitWeights _ (Or.inl (by unfold StrictIncr; decide)) _ _ _) 0 false

/-- The range theorem for the second field, halfway between the two times. -/
example (out : List (Cell ℚ))
    (h : eval (xyU oneTriangle .node) [0, 10] (levelSys UPt.z [0, 10] .extrapolate .extrapolate)
      (twoFields.map (List.map fun v => v.2)) [⟨0, (1, 1), 3⟩, ⟨-1, (9, 9), 4⟩] 5 false = .ok out) :
    ∀ c ∈ out, ∀ v, c.value = some v → -4 ≤ v ∧ v ≤ 13 :=
  C161_unstructured oneTriangle .node (-4) 13 [0, 10] (by unfold StrictIncr; decide)
    (levelSys UPt.z [0, 10] .extrapolate .extrapolate) (twoFields.map (List.map fun v => v.2))
    (by
      refine all_map_of (S := fun s => ∀ x, x ∈ s → ∀ y, x.2 = some y → -4 ≤ y ∧ y ≤ 13) _ ?_ ?_
      · intro s hs y hy
        obtain ⟨x, hx, he⟩ := List.mem_map.mp hy
        exact hs x hx y he
      · intro r hr s hs x hx y hy
        have := twoLists_values r hr s hs x hx
        rw [hy] at this
        simp only [Option.all_some, Bool.and_eq_true, decide_eq_true_eq] at this
        exact this.1)
    [⟨0, (1, 1), 3⟩, ⟨-1, (9, 9), 4⟩] (fun p hp => ⟨located_case p hp, fun _ => by norm_num⟩)
    (levelSys_unitWeights _ (Or.inl (by unfold StrictIncr; decide +kernel)) _ _ _) 5 false out h

example : eval (xyU oneTriangle .node) [0, 10] (levelSys UPt.z [0, 10] .extrapolate .extrapolate)
    (twoFields.map (List.map fun v => v.2)) [⟨0, (1, 1), 3⟩, ⟨-1, (9, 9), 4⟩] 5 false =
    .ok [⟨some (371 / 80), false⟩, ⟨some 0, false⟩] := by decide +kernel

end Verif
