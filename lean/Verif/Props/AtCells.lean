import Verif.Lemmas.AtCells
import Verif.Props.At

/-!
# C118: masked and missing data in space and time
-/

set_option autoImplicit false

namespace Verif
open Verif.At Verif.DepthM Verif.Spec Verif.TimeM

section C118
variable {K P σ : Type} [Field K] [LinearOrder K] [IsStrictOrderedRing K]

/-- Data with one row of `m` slices per time, where the horizontal stage gives the entry `h i k p`
(a value or NaN, masked or not) for the slice of time `i` and level `k` at every point `p`. -/
def CellsBy (xy : σ → List P → Except Err (List (Cell K))) (times : List Int) (m : Nat)
    (data : List (List σ)) (Q : P → Prop) (h : Nat → Nat → P → Cell K) : Prop :=
  data.length = times.length ∧ (∀ r ∈ data, r.length = m) ∧
    ∀ (i k : Nat) (r : List σ) (s : σ), data[i]? = some r → r[k]? = some s →
      ∀ ps : List P, (∀ p ∈ ps, Q p) → xy s ps = .ok (ps.map (h i k))

omit [LinearOrder K] [IsStrictOrderedRing K] in
private theorem servesCells_of {xy : σ → List P → Except Err (List (Cell K))} {times : List Int}
    {m : Nat} (hm : 0 < m) {data : List (List σ)} {Q : P → Prop} {h : Nat → Nat → P → Cell K}
    {pts : List P} (hs : CellsBy xy times m data Q h) (hpts : ∀ p ∈ pts, Q p) (i : Nat)
    (hi : i < times.length) (z : Int) (hz : z = (i : Int) ∨ (z = -1 ∧ i + 1 = times.length)) :
    ServesCells m (fun k ps => withSlice xy (slice2 data z k) ps) (h i) pts := by
  obtain ⟨hl, hr, hx⟩ := hs
  intro k hk1 hk2 ps hps
  obtain ⟨row, hdi⟩ : ∃ row, data[i]? = some row := ⟨_, List.getElem?_eq_getElem (by omega)⟩
  have hrl := hr _ (List.mem_of_getElem? hdi)
  have hrow : Np.pyGet data z = .ok row := by
    rcases hz with rfl | ⟨rfl, h⟩
    · exact Np.pyGet_nonneg hdi
    · apply Np.pyGet_neg_one
      rw [List.getLast?_eq_getElem?, hl, ← h]
      exact hdi
  have hlt : lev m k < m := by unfold lev; split_ifs <;> omega
  obtain ⟨s, hs⟩ : ∃ s, row[lev m k]? = some s := ⟨_, List.getElem?_eq_getElem (by omega)⟩
  have hsl : Np.pyGet row k = .ok s := by
    by_cases hk : k = -1
    · subst hk
      apply Np.pyGet_neg_one
      rw [List.getLast?_eq_getElem?, hrl]
      simpa [lev] using hs
    · have h1 : lev m k = k.toNat := by unfold lev; rw [if_neg hk]
      rw [h1] at hs
      have := Np.pyGet_nonneg hs
      rwa [show ((k.toNat : Nat) : Int) = k by omega] at this
  unfold withSlice slice2
  simp only [hrow, hsl]
  exact hx i _ row s hdi hs ps (fun p hp => hpts p (hps p hp))

/-- Mixture of two entries with a weight: masked if one of them is, NaN if one of them or the weight
is. -/
def MixOf (c d : Cell K) (w : Option K) (r : Cell K) : Prop :=
  (r.masked = true ↔ c.masked = true ∨ d.masked = true) ∧
  (∀ x y a, c.value = some x → d.value = some y → w = some a →
    r.value = some ((1 - a) * x + a * y)) ∧
  (c.value = none ∨ d.value = none ∨ w = none → r.value = none)

omit [LinearOrder K] [IsStrictOrderedRing K] in
private theorem mixOf_mix (c d : Cell K) (w : Option K) : MixOf c d w (mixCell c d w) := by
  refine ⟨by simp [mixCell], ?_, ?_⟩
  · intro x y a h1 h2 h3
    simp only [mixCell, h1, h2, h3]
    congr 1
    ring
  · rintro (h | h | h)
    · simp [mixCell, h]
    · simp only [mixCell, h]
      cases c.value <;> rfl
    · simp only [mixCell, h]
      cases c.value <;> cases d.value <;> rfl

omit [LinearOrder K] [IsStrictOrderedRing K] in
private theorem mixOf_self (c : Cell K) : MixOf c c (some 0) c := by
  refine ⟨by simp, ?_, ?_⟩
  · intro x y a h1 h2 h3
    rw [h1] at h2; cases h2; cases h3
    rw [h1]; congr 1; ring
  · rintro (h | h | h)
    · exact h
    · exact h
    · cases h

private theorem cells_general (xy : σ → List P → Except Err (List (Cell K))) (times : List Int)
    (hs : StrictIncr times) (hne : times ≠ []) (m : Nat) (hm : 0 < m) (data : List (List σ))
    (Q : P → Prop) (h : Nat → Nat → P → Cell K) (hd : CellsBy xy times m data Q h) (t : Int) (e : Bool)
    (ht : Served times t e) :
    ∃ (i j : Nat) (α : K), TimeWeights times t e i j α ∧
      ∀ (ds : DepthSys K P) (pts : List P) (ents : List (Entry K)), (∀ p ∈ pts, Q p) →
        ds.alphas pts = .ok ents → ents.length = pts.length →
        (∀ e ∈ ents, e.masked = false → if m = ds.numLayers then 0 ≤ e.idx ∧ e.idx < (m : Int)
          else -1 ≤ e.idx ∧ e.idx < (m : Int) - 1) →
        ∃ out, eval xy times ds (.timeDepth data) pts t e = .ok out ∧ out.length = pts.length ∧
          ∀ (n : Nat) (p : P) (ent : Entry K), pts[n]? = some p → ents[n]? = some ent →
            ∃ c, out[n]? = some c ∧ (ent.masked = true → c.masked = true) ∧
              (ent.masked = false →
                MixOf (depthCell (decide (m = ds.numLayers)) m (h i) p ent)
                  (depthCell (decide (m = ds.numLayers)) m (h j) p ent) (some α) c) := by
  obtain ⟨i, j, α, hw, hcase⟩ := timeStage_cases (K := K) hs hne t e ht
  refine ⟨i, j, α, hw, ?_⟩
  intro ds pts ents hpts ha hep hidx
  obtain ⟨_, _, hi, hj, _⟩ := hw
  have hpos : 0 < times.length := List.length_pos_iff.mpr hne
  have hhead : (data.headD []).length = m := by
    obtain ⟨hl, hr, _⟩ := hd
    cases data with
    | nil => simp at hl; omega
    | cons r rs => exact hr r (by simp)
  unfold eval
  simp only [hhead]
  rcases hcase with ⟨rfl, rfl, z, hz, hv⟩ | ⟨z, hz, hv⟩
  · rw [hv]
    obtain ⟨out, ho, hol, hall⟩ := depthStage_cells ds ha hep
      (servesCells_of hm hd hpts i hi z hz) hidx
    refine ⟨out, ho, hol, ?_⟩
    intro n p ent hn he
    refine ⟨_, hall n p ent hn he, fun hu => by simp [hu], fun hu => ?_⟩
    rw [if_neg (by simp [hu])]
    exact mixOf_self _
  · obtain ⟨out0, ho0, hol0, hall0⟩ := depthStage_cells ds ha hep
      (servesCells_of hm hd hpts i hi z hz) hidx
    obtain ⟨out1, ho1, hol1, hall1⟩ := depthStage_cells ds ha hep
      (servesCells_of hm hd hpts j hj (j : Int) (Or.inl rfl)) hidx
    rw [hv _ out0 out1 ho0 ho1]
    refine ⟨_, rfl, by simp [hol0, hol1], ?_⟩
    intro n p ent hn he
    have h0 := hall0 n p ent hn he
    have h1 := hall1 n p ent hn he
    refine ⟨_, by rw [List.getElem?_zipWith, h0, h1], fun hu => by simp [hu, mixCell], fun hu => ?_⟩
    rw [if_neg (by simp [hu]), if_neg (by simp [hu])]
    exact mixOf_mix _ _ _

/-- C118, data on levels. The result at a point between levels `k` and `k + 1` and between two times is
masked exactly if its depth is, or if the horizontal value of one of the two levels at one of the two
times is; and it is NaN exactly if one of them is. Other levels, times and points make no difference.
Missing: that the level or time of weight zero makes no difference either; depths before the first or
beyond the last level. -/
theorem C118_levels_partial (xy : σ → List P → Except Err (List (Cell K))) (times : List Int)
    (hs : StrictIncr times) (hne : times ≠ []) (m : Nat) (hm : 2 ≤ m) (data : List (List σ))
    (Q : P → Prop) (h : Nat → Nat → P → Cell K) (hd : CellsBy xy times m data Q h) (t : Int) (e : Bool)
    (ht : Served times t e) :
    ∃ (i j : Nat) (α : K), TimeWeights times t e i j α ∧
      ∀ (ds : DepthSys K P) (pts : List P) (ents : List (Entry K)), (∀ p ∈ pts, Q p) →
        m ≠ ds.numLayers → ds.alphas pts = .ok ents → ents.length = pts.length →
        (∀ e ∈ ents, e.masked = false → 0 ≤ e.idx ∧ e.idx < (m : Int) - 1) →
        ∃ out, eval xy times ds (.timeDepth data) pts t e = .ok out ∧ out.length = pts.length ∧
          ∀ (n : Nat) (p : P) (ent : Entry K), pts[n]? = some p → ents[n]? = some ent →
            ∃ c, out[n]? = some c ∧ (ent.masked = true → c.masked = true) ∧
              (ent.masked = false → ∃ (k : Nat) (u v : Cell K), ent.idx = (k : Int) ∧
                MixOf (h i k p) (h i (k + 1) p) ent.alpha u ∧
                MixOf (h j k p) (h j (k + 1) p) ent.alpha v ∧ MixOf u v (some α) c) := by
  obtain ⟨i, j, α, hw, hall⟩ := cells_general xy times hs hne m (by omega) data Q h hd t e ht
  refine ⟨i, j, α, hw, ?_⟩
  intro ds pts ents hpts hnl ha hep hidx
  obtain ⟨out, ho, hol, hr⟩ := hall ds pts ents hpts ha hep (by
    intro e he hu
    rw [if_neg hnl]
    have := hidx e he hu
    omega)
  refine ⟨out, ho, hol, ?_⟩
  intro n p ent hn he
  obtain ⟨c, hc, h1, h2⟩ := hr n p ent hn he
  refine ⟨c, hc, h1, fun hu => ?_⟩
  have hb := hidx ent (List.mem_of_getElem? he) hu
  have h3 := h2 hu
  obtain ⟨k, hk⟩ : ∃ k : Nat, ent.idx = (k : Int) := ⟨ent.idx.toNat, by omega⟩
  have e1 : lev m ent.idx = k := by unfold lev; rw [if_neg (by omega)]; omega
  have e2 : lev m (ent.idx + 1) = k + 1 := by unfold lev; rw [if_neg (by omega)]; omega
  simp only [depthCell, decide_eq_true_eq, if_neg hnl, e1, e2] at h3
  exact ⟨k, _, _, hk, mixOf_mix _ _ _, mixOf_mix _ _ _, h3⟩

/-- C118, data on layers: masked exactly if the depth is or the point's layer is at one of the two
times. -/
theorem C118_layers_partial (xy : σ → List P → Except Err (List (Cell K))) (times : List Int)
    (hs : StrictIncr times) (hne : times ≠ []) (m : Nat) (hm : 0 < m) (data : List (List σ))
    (Q : P → Prop) (h : Nat → Nat → P → Cell K) (hd : CellsBy xy times m data Q h) (t : Int) (e : Bool)
    (ht : Served times t e) :
    ∃ (i j : Nat) (α : K), TimeWeights times t e i j α ∧
      ∀ (ds : DepthSys K P) (pts : List P) (ents : List (Entry K)), (∀ p ∈ pts, Q p) →
        m = ds.numLayers → ds.alphas pts = .ok ents → ents.length = pts.length →
        (∀ e ∈ ents, e.masked = false → 0 ≤ e.idx ∧ e.idx < (m : Int)) →
        ∃ out, eval xy times ds (.timeDepth data) pts t e = .ok out ∧ out.length = pts.length ∧
          ∀ (n : Nat) (p : P) (ent : Entry K), pts[n]? = some p → ents[n]? = some ent →
            ∃ c, out[n]? = some c ∧ (ent.masked = true → c.masked = true) ∧
              (ent.masked = false → ∃ k : Nat, ent.idx = (k : Int) ∧
                MixOf (h i k p) (h j k p) (some α) c) := by
  obtain ⟨i, j, α, hw, hall⟩ := cells_general xy times hs hne m hm data Q h hd t e ht
  refine ⟨i, j, α, hw, ?_⟩
  intro ds pts ents hpts hnl ha hep hidx
  obtain ⟨out, ho, hol, hr⟩ := hall ds pts ents hpts ha hep (by
    intro e he hu
    rw [if_pos hnl]
    exact hidx e he hu)
  refine ⟨out, ho, hol, ?_⟩
  intro n p ent hn he
  obtain ⟨c, hc, h1, h2⟩ := hr n p ent hn he
  refine ⟨c, hc, h1, fun hu => ?_⟩
  have hb := hidx ent (List.mem_of_getElem? he) hu
  have h3 := h2 hu
  obtain ⟨k, hk⟩ : ∃ k : Nat, ent.idx = (k : Int) := ⟨ent.idx.toNat, by omega⟩
  have e1 : lev m ent.idx = k := by unfold lev; rw [if_neg (by omega)]; omega
  simp only [depthCell, decide_eq_true_eq, if_pos hnl, e1] at h3
  exact ⟨k, hk, h3⟩

/-- C118, data over time only. -/
theorem C118_surface_partial (xy : σ → List P → Except Err (List (Cell K))) (times : List Int)
    (hs : StrictIncr times) (hne : times ≠ []) (data : List σ) (hlen : data.length = times.length)
    (Q : P → Prop) (h : Nat → P → Cell K)
    (hxy : ∀ (i : Nat) (s : σ), data[i]? = some s → ∀ ps : List P, (∀ p ∈ ps, Q p) →
      xy s ps = .ok (ps.map (h i)))
    (t : Int) (e : Bool) (ht : Served times t e) :
    ∃ (i j : Nat) (α : K), TimeWeights times t e i j α ∧
      ∀ (ds : DepthSys K P) (pts : List P), (∀ p ∈ pts, Q p) →
        ∃ F : P → Cell K, eval xy times ds (.time data) pts t e = .ok (pts.map F) ∧
          ∀ p, MixOf (h i p) (h j p) (some α) (F p) := by
  obtain ⟨i, j, α, hw, hcase⟩ := timeStage_cases (K := K) hs hne t e ht
  refine ⟨i, j, α, hw, ?_⟩
  intro ds pts hpts
  obtain ⟨_, _, hi, hj, _⟩ := hw
  have hread : ∀ (i : Nat), i < times.length → ∀ z : Int,
      (z = (i : Int) ∨ (z = -1 ∧ i + 1 = times.length)) →
      withSlice xy (Np.pyGet data z) pts = .ok (pts.map (h i)) := by
    intro i hi z hz
    obtain ⟨s, hdi⟩ : ∃ s, data[i]? = some s := ⟨_, List.getElem?_eq_getElem (by omega)⟩
    have hd : Np.pyGet data z = .ok s := by
      rcases hz with rfl | ⟨rfl, h⟩
      · exact Np.pyGet_nonneg hdi
      · apply Np.pyGet_neg_one
        rw [List.getLast?_eq_getElem?, hlen, ← h]
        exact hdi
    rw [hd]
    exact hxy i _ hdi pts hpts
  unfold eval
  rcases hcase with ⟨rfl, rfl, z, hz, hv⟩ | ⟨z, hz, hv⟩
  · exact ⟨h i, by simp only [hv, hread i hi z hz], fun p => mixOf_self _⟩
  · have := hv (fun i => withSlice xy (Np.pyGet data i) pts) _ _ (hread i hi z hz)
      (hread j hj (j : Int) (Or.inl rfl))
    refine ⟨fun p => mixCell (h i p) (h j p) (some α), ?_, fun p => mixOf_mix _ _ _⟩
    simp only [this]
    congr 1
    clear hpts hread this
    induction pts with
    | nil => rfl
    | cons p ps ih => simp only [List.map_cons, List.zipWith_cons_cons, ih]

/-- C118 in full, for data over levels: what has no weight makes no difference. At a depth exactly on
a level the result is masked exactly if that level is; before the first level, exactly if the first
level is. -/
def C118_statement : Prop :=
  ∀ (xy : Cell ℚ → List Nat → Except Err (List (Cell ℚ))) (h : Nat → Nat → Cell ℚ)
    (data : List (Cell ℚ)) (ds : DepthSys ℚ Nat) (pts : List Nat) (ents : List (Entry ℚ))
    (out : List (Cell ℚ)), 2 ≤ data.length → data.length ≠ ds.numLayers →
    (∀ (k : Nat) (s : Cell ℚ), data[k]? = some s → ∀ ps, xy s ps = .ok (ps.map (h k))) →
    ds.alphas pts = .ok ents → ents.length = pts.length →
    eval xy [0] ds (.timeDepth [data]) pts 0 false = .ok out →
    ∀ (n p : Nat) (c : Cell ℚ), pts[n]? = some p → out[n]? = some c →
      (∀ k : Nat, k + 1 < data.length → ents[n]? = some ⟨(k : Int), some 0, false⟩ →
        (c.masked = true ↔ (h k p).masked = true)) ∧
      (ents[n]? = some ⟨-1, some 1, false⟩ → (c.masked = true ↔ (h 0 p).masked = true))

private def sliceXy : Cell ℚ → List Nat → Except Err (List (Cell ℚ)) := fun s ps => .ok (ps.map fun _ => s)

private theorem sliceXy_eq (data : List (Cell ℚ)) (k : Nat) (s : Cell ℚ) (h : data[k]? = some s)
    (ps : List Nat) : sliceXy s ps = .ok (ps.map fun _ => data.getD k ⟨none, true⟩) := by
  unfold sliceXy
  simp [List.getD_eq_getElem?_getD, h]

/-- C118 fails at a depth exactly on a level with data when the next level is masked. -/
theorem C118_refuted : ¬ C118_statement := by
  intro hst
  have := (hst sliceXy
    (fun k _ => ([⟨some 10, false⟩, ⟨some 20, true⟩] : List (Cell ℚ)).getD k ⟨none, true⟩)
    [⟨some 10, false⟩, ⟨some 20, true⟩] ⟨1, fun _ => .ok [⟨0, some 0, false⟩]⟩ [0]
    [⟨0, some 0, false⟩] [⟨some 10, true⟩] (by decide) (by decide)
    (fun k s hk ps => sliceXy_eq _ k s hk ps) rfl rfl (by decide +kernel) 0 0 ⟨some 10, true⟩ rfl
    rfl).1 0 (by decide) rfl
  simp at this

/-- C118 fails before the first level: the mask of the level listed last is used. -/
theorem C118_refuted_before_first : ¬ C118_statement := by
  intro hst
  have := (hst sliceXy
    (fun k _ => ([⟨some 10, false⟩, ⟨some 15, false⟩, ⟨some 20, true⟩] : List (Cell ℚ)).getD k
      ⟨none, true⟩)
    [⟨some 10, false⟩, ⟨some 15, false⟩, ⟨some 20, true⟩] ⟨2, fun _ => .ok [⟨-1, some 1, false⟩]⟩ [0]
    [⟨-1, some 1, false⟩] [⟨some 10, true⟩] (by decide) (by decide)
    (fun k s hk ps => sliceXy_eq _ k s hk ps) rfl rfl (by decide +kernel) 0 0 ⟨some 10, true⟩ rfl
    rfl).2 rfl
  simp at this

/-- Data over two times and three levels with a masked and a missing entry: the two points ask for
different levels. -/
example : CellsBy sliceXy [0, 10] 3 [[⟨some 1, false⟩, ⟨some 2, false⟩, ⟨none, false⟩],
      [⟨some 1, false⟩, ⟨some 4, false⟩, ⟨some 5, true⟩]] (fun _ => True)
      (fun i k _ => (([[⟨some 1, false⟩, ⟨some 2, false⟩, ⟨none, false⟩],
        [⟨some 1, false⟩, ⟨some 4, false⟩, ⟨some 5, true⟩]] : List (List (Cell ℚ))).getD i []).getD k
          ⟨none, true⟩) ∧
    eval sliceXy [0, 10] ⟨2, fun _ => .ok [⟨0, some (1 / 2), false⟩, ⟨1, some (1 / 4), false⟩]⟩
      (.timeDepth [[⟨some 1, false⟩, ⟨some 2, false⟩, ⟨none, false⟩],
        [⟨some 1, false⟩, ⟨some 4, false⟩, ⟨some 5, true⟩]]) [7, 8] 5 false =
      .ok [⟨some 2, false⟩, ⟨none, true⟩] := by
  refine ⟨⟨rfl, by simp, ?_⟩, by decide +kernel⟩
  intro i k r s hr hk ps _
  rw [sliceXy_eq r k s hk ps]
  simp only [List.getD_eq_getElem?_getD, hr, Option.getD_some]

end C118

end Verif
