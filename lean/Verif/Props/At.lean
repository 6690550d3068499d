import Verif.Lemmas.At
import Verif.Props.Depth
import Verif.Props.UGeom
import Verif.Props.SInterp
import Mathlib.Data.Real.Sqrt

/-!
# C113-C117: values in space and time
-/

set_option autoImplicit false

namespace Verif
open Verif.At Verif.DepthM Verif.Spec Verif.TimeM

/-! ## C113 -/

section C113
variable {K P σ : Type} [Field K] [LinearOrder K] [IsStrictOrderedRing K]

/-- The query time is one a variable serves: on the axis, or extrapolation is on, or the axis has one
time. -/
def Served (times : List Int) (t : Int) (e : Bool) : Prop :=
  e = true ∨ times.length = 1 ∨
    ∃ lo hi, times.head? = some lo ∧ times.getLast? = some hi ∧ lo ≤ t ∧ t ≤ hi

/-- Data with one row of `m` slices per time, where the horizontal stage gives `g i k p` for the slice
of time `i` and level `k` at every point `p` of a query. -/
def ServedBy (xy : σ → List P → Except Err (List (Cell K))) (times : List Int) (m : Nat)
    (data : List (List σ)) (Q : P → Prop) (g : Nat → Nat → P → K) : Prop :=
  data.length = times.length ∧ (∀ r ∈ data, r.length = m) ∧
    ∀ (i k : Nat) (r : List σ) (s : σ), data[i]? = some r → r[k]? = some s →
      ∀ ps : List P, (∀ p ∈ ps, Q p) →
        xy s ps = .ok (ps.map fun p => { value := some (g i k p), masked := false })

theorem serves_of {xy : σ → List P → Except Err (List (Cell K))} {times : List Int} {m : Nat}
    (hm : 0 < m) {data : List (List σ)} {Q : P → Prop} {g : Nat → Nat → P → K} {pts : List P}
    (h : ServedBy xy times m data Q g) (hpts : ∀ p ∈ pts, Q p) (i : Nat) (hi : i < times.length)
    (z : Int) (hz : z = (i : Int) ∨ (z = -1 ∧ i + 1 = times.length)) :
    Serves m (fun k ps => withSlice xy (slice2 data z k) ps) (g i) pts := by
  obtain ⟨hl, hr, hx⟩ := h
  intro k hk1 hk2 ps hps
  have hdi : data[i]? = some (data[i]'(by omega)) := List.getElem?_eq_getElem (by omega)
  have hrl := hr _ (List.getElem_mem (show i < data.length by omega))
  generalize data[i]'(by omega) = row at hdi hrl
  have hrow : Np.pyGet data z = .ok row := by
    rcases hz with rfl | ⟨rfl, h⟩
    · exact Np.pyGet_nonneg hdi
    · apply Np.pyGet_neg_one
      rw [List.getLast?_eq_getElem?, hl, ← h]
      exact hdi
  obtain ⟨n, hn, hkn, hsl⟩ : ∃ n : Nat, n = (if k = -1 then m - 1 else k.toNat) ∧ n < m ∧
      ∀ s, row[n]? = some s → Np.pyGet row k = .ok s := by
    by_cases hk : k = -1
    · refine ⟨m - 1, by rw [if_pos hk], by omega, ?_⟩
      intro s hs
      subst hk
      apply Np.pyGet_neg_one
      rw [List.getLast?_eq_getElem?, hrl]
      exact hs
    · refine ⟨k.toNat, by rw [if_neg hk], by omega, ?_⟩
      intro s hs
      have := Np.pyGet_nonneg hs
      rwa [show ((k.toNat : Nat) : Int) = k by omega] at this
  have hs : row[n]? = some (row[n]'(by omega)) := List.getElem?_eq_getElem (by omega)
  unfold withSlice slice2
  simp only [hrow, hsl _ hs, ← hn]
  exact hx i n row _ hdi hs ps (fun p hp => hpts p (hps p hp))

private theorem levelMix_of {m : Nat} {c : Nat → K} {i : Int} {α v : K}
    (h : LevelValue ((List.range m).map c) i α v) (hm : 0 < m) : LevelMix m c i α v := by
  have hget : ∀ (j : Nat) (x : K), ((List.range m).map c)[j]? = some x → j < m ∧ x = c j := by
    intro j x hx
    have hj : j < m := by
      have := (List.getElem?_eq_some_iff.mp hx).1
      simpa using this
    rw [List.getElem?_map, List.getElem?_range hj] at hx
    exact ⟨hj, by simpa using hx.symm⟩
  rcases h with ⟨j, a, b, h1, h2, h3, h4⟩ | ⟨h1, h2, h3⟩ | ⟨h1, h2, h3⟩
  · obtain ⟨_, rfl⟩ := hget j a h2
    obtain ⟨hj, rfl⟩ := hget (j + 1) b h3
    exact Or.inl ⟨j, h1, hj, h4⟩
  · rw [List.head?_eq_getElem?] at h3
    exact Or.inr (Or.inl ⟨h1, h2, (hget 0 v h3).2⟩)
  · rw [List.getLast?_eq_getElem?] at h3
    simp only [List.length_map, List.length_range] at h1 h3
    exact Or.inr (Or.inr ⟨h1, h2, (hget (m - 1) v h3).2⟩)

/-- What the depth object returned for the points of a query: one entry per point; every entry not
masked picks a level of the data (`m` levels), and not the one listed last. -/
def PicksBeforeLast (m : Nat) (ents : List (Entry K)) (pts : List P) : Prop :=
  ents.length = pts.length ∧ ∀ e ∈ ents, e.masked = false →
    e.idx ≠ (m : Int) - 1 ∧ ∃ α, e.alpha = some α ∧ ValidPick m e.idx α

theorem depth_levels {m : Nat} (hm : 2 ≤ m) (ds : DepthSys K P) (hnl : m ≠ ds.numLayers)
    {pts : List P} {ents : List (Entry K)} (ha : ds.alphas pts = .ok ents)
    (hp : PicksBeforeLast m ents pts) {val : Int → List P → Except Err (List (Cell K))}
    {g : Nat → P → K} (hval : Serves m val g pts) :
    ∃ out, depthStage ds m val pts = .ok out ∧ out.length = pts.length ∧
      ∀ (n : Nat) (p : P) (ent : Entry K), pts[n]? = some p → ents[n]? = some ent →
        ∃ c, out[n]? = some c ∧ c.masked = ent.masked ∧ (ent.masked = false → ∃ β v,
          ent.alpha = some β ∧ c.value = some v ∧ LevelMix m (fun k => g k p) ent.idx β v) := by
  obtain ⟨hl, hpk⟩ := hp
  have hidx : ∀ e ∈ ents, e.masked = false → -1 ≤ e.idx ∧ e.idx < (m : Int) := by
    intro e he hu
    obtain ⟨_, α, _, _, _, hv⟩ := hpk e he hu
    omega
  rw [depthStage_eq (by omega) ds ha hl hval hidx]
  have hcl : (colsOf m g pts).length = ents.length := by simp [colsOf, hl]
  have hvq : ValidQuery m ents (colsOf m g pts) := by
    refine ⟨hcl, ?_, ?_⟩
    · intro c hc
      obtain ⟨p, _, rfl⟩ := List.mem_map.mp hc
      simp
    · intro e he hu
      exact (hpk e he hu).2
  obtain ⟨out, ho, hol, hr⟩ := C18_levels_partial m ds.numLayers ents _ hm hnl hvq
    (fun e he hu => (hpk e he hu).1)
  refine ⟨out, ho, by rw [hol, hl], ?_⟩
  intro n p ent hn he
  have hc : (colsOf m g pts)[n]? = some ((List.range m).map fun k => g k p) := by
    unfold colsOf
    rw [List.getElem?_map, hn]
    rfl
  have hlt : n < ents.length := (List.getElem?_eq_some_iff.mp he).1
  obtain ⟨c, hc1, hc2, hc3⟩ := hr n hlt ent _ he hc
  refine ⟨c, hc1, ?_, ?_⟩
  · cases hm' : ent.masked with
    | true => exact hc2 hm'
    | false => exact (hc3 hm').1
  · intro hu
    obtain ⟨_, α, v, h1, h2, h3⟩ := hc3 hu
    exact ⟨α, v, h1, h2, levelMix_of h3 (by omega)⟩

/-- The time stage, once the one or two slices it reads are known (from `timeStage_cases`). -/
def StageCase (times : List Int) (t : Int) (e : Bool) (i j : Nat) (α : K) : Prop :=
  (i = j ∧ α = 0 ∧ ∃ z : Int, (z = (i : Int) ∨ (z = -1 ∧ i + 1 = times.length)) ∧
    ∀ val : Int → Except Err (List (Cell K)), timeStage times val t e = val z) ∨
  (∃ z : Int, (z = (i : Int) ∨ (z = -1 ∧ i + 1 = times.length)) ∧
    ∀ (val : Int → Except Err (List (Cell K))) (v0 v1 : List (Cell K)), val z = .ok v0 →
      val (j : Int) = .ok v1 →
      timeStage times val t e = .ok (List.zipWith (fun x y => mixCell x y (some α)) v0 v1))

/-- Data over time and levels, for given time weights. -/
theorem levels_of_case (xy : σ → List P → Except Err (List (Cell K))) (times : List Int)
    (hne : times ≠ []) (m : Nat) (hm : 2 ≤ m) (data : List (List σ))
    (Q : P → Prop) (g : Nat → Nat → P → K) (h : ServedBy xy times m data Q g) (t : Int) (e : Bool)
    (i j : Nat) (α : K) (hw : TimeWeights times t e i j α) (hcase : StageCase times t e i j α) :
    ∀ (ds : DepthSys K P) (pts : List P) (ents : List (Entry K)), (∀ p ∈ pts, Q p) →
      m ≠ ds.numLayers → ds.alphas pts = .ok ents → PicksBeforeLast m ents pts →
      ∃ out, eval xy times ds (.timeDepth data) pts t e = .ok out ∧ out.length = pts.length ∧
        ∀ (n : Nat) (p : P) (ent : Entry K), pts[n]? = some p → ents[n]? = some ent →
          ∃ c, out[n]? = some c ∧ c.masked = ent.masked ∧ (ent.masked = false → ∃ β v w,
            ent.alpha = some β ∧ LevelMix m (fun k => g i k p) ent.idx β v ∧
            LevelMix m (fun k => g j k p) ent.idx β w ∧
            c.value = some ((1 - α) * v + α * w)) := by
  intro ds pts ents hpts hnl ha hpk
  obtain ⟨_, _, hi, hj, _⟩ := hw
  have hpos : 0 < times.length := List.length_pos_iff.mpr hne
  have hhead : (data.headD []).length = m := by
    obtain ⟨hl, hr, _⟩ := h
    cases data with
    | nil => simp at hl; omega
    | cons r rs => exact hr r (by simp)
  unfold eval
  simp only [hhead]
  rcases hcase with ⟨rfl, rfl, z, hz, hv⟩ | ⟨z, hz, hv⟩
  · rw [hv]
    obtain ⟨out, ho, hol, hall⟩ := depth_levels hm ds hnl ha hpk
      (serves_of (by omega) h hpts i hi z hz)
    refine ⟨out, ho, hol, ?_⟩
    intro n p ent hn he
    obtain ⟨c, h1, h2, h3⟩ := hall n p ent hn he
    refine ⟨c, h1, h2, fun hu => ?_⟩
    obtain ⟨β, v, b1, b2, b3⟩ := h3 hu
    exact ⟨β, v, v, b1, b3, b3, by rw [b2]; congr 1; ring⟩
  · obtain ⟨out0, ho0, hol0, hall0⟩ := depth_levels hm ds hnl ha hpk
      (serves_of (by omega) h hpts i hi z hz)
    obtain ⟨out1, ho1, hol1, hall1⟩ := depth_levels hm ds hnl ha hpk
      (serves_of (by omega) h hpts j hj (j : Int) (Or.inl rfl))
    rw [hv _ out0 out1 ho0 ho1]
    refine ⟨_, rfl, by simp [hol0, hol1], ?_⟩
    intro n p ent hn he
    obtain ⟨c0, h1, h2, h3⟩ := hall0 n p ent hn he
    obtain ⟨c1, g1, g2, g3⟩ := hall1 n p ent hn he
    refine ⟨mixCell c0 c1 (some α), by rw [List.getElem?_zipWith, h1, g1], by
      simp [mixCell, h2, g2], fun hu => ?_⟩
    obtain ⟨β, v, b1, b2, b3⟩ := h3 hu
    obtain ⟨β', w, b1', b2', b3'⟩ := g3 hu
    rw [b1] at b1'; cases b1'
    exact ⟨β, v, w, b1, b3, b3', by simp only [mixCell, b2, b2']; congr 1; ring⟩

/-- C113, data over time and levels. One pair of neighbouring times and one weight serve all points;
each point's value is the weighted mean of its values at the two times, each of which comes from the
point's own column at the level index and weight of its own depth. Points the depth object masks stay
masked. Missing: points beyond the level listed last, where the depth stage fails (C18). -/
theorem C113_levels_partial (xy : σ → List P → Except Err (List (Cell K))) (times : List Int)
    (hs : StrictIncr times) (hne : times ≠ []) (m : Nat) (hm : 2 ≤ m) (data : List (List σ))
    (Q : P → Prop) (g : Nat → Nat → P → K) (h : ServedBy xy times m data Q g) (t : Int) (e : Bool)
    (ht : Served times t e) :
    ∃ (i j : Nat) (α : K), TimeWeights times t e i j α ∧
      ∀ (ds : DepthSys K P) (pts : List P) (ents : List (Entry K)), (∀ p ∈ pts, Q p) →
        m ≠ ds.numLayers → ds.alphas pts = .ok ents → PicksBeforeLast m ents pts →
        ∃ out, eval xy times ds (.timeDepth data) pts t e = .ok out ∧ out.length = pts.length ∧
          ∀ (n : Nat) (p : P) (ent : Entry K), pts[n]? = some p → ents[n]? = some ent →
            ∃ c, out[n]? = some c ∧ c.masked = ent.masked ∧ (ent.masked = false → ∃ β v w,
              ent.alpha = some β ∧ LevelMix m (fun k => g i k p) ent.idx β v ∧
              LevelMix m (fun k => g j k p) ent.idx β w ∧
              c.value = some ((1 - α) * v + α * w)) := by
  obtain ⟨i, j, α, hw, hcase⟩ := timeStage_cases (K := K) hs hne t e ht
  exact ⟨i, j, α, hw, levels_of_case xy times hne m hm data Q g h t e i j α hw hcase⟩

/-- Data over time only, for given time weights. -/
theorem surface_of_case (xy : σ → List P → Except Err (List (Cell K))) (times : List Int)
    (data : List σ) (hlen : data.length = times.length)
    (Q : P → Prop) (g : Nat → P → K)
    (hxy : ∀ (i : Nat) (s : σ), data[i]? = some s → ∀ ps : List P, (∀ p ∈ ps, Q p) →
      xy s ps = .ok (ps.map fun p => { value := some (g i p), masked := false }))
    (t : Int) (e : Bool) (i j : Nat) (α : K) (hw : TimeWeights times t e i j α)
    (hcase : StageCase times t e i j α) :
    ∀ (ds : DepthSys K P) (pts : List P), (∀ p ∈ pts, Q p) →
      eval xy times ds (.time data) pts t e = .ok (pts.map fun p =>
        { value := some ((1 - α) * g i p + α * g j p), masked := false }) := by
  intro ds pts hpts
  obtain ⟨_, _, hi, hj, _⟩ := hw
  have hread : ∀ (i : Nat), i < times.length → ∀ z : Int,
      (z = (i : Int) ∨ (z = -1 ∧ i + 1 = times.length)) →
      withSlice xy (Np.pyGet data z) pts =
        .ok (pts.map fun p => { value := some (g i p), masked := false }) := by
    intro i hi z hz
    obtain ⟨s, hdi⟩ : ∃ s, data[i]? = some s := ⟨_, List.getElem?_eq_getElem (by omega)⟩
    have hd : Np.pyGet data z = .ok s := by
      rcases hz with rfl | ⟨rfl, h⟩
      · exact Np.pyGet_nonneg hdi
      · apply Np.pyGet_neg_one
        rw [List.getLast?_eq_getElem?, hlen, ← h]
        exact hdi
    rw [hd]
    exact hxy i _ hdi pts hpts
  unfold eval
  rcases hcase with ⟨rfl, rfl, z, hz, hv⟩ | ⟨z, hz, hv⟩
  · simp only [hv, hread i hi z hz]
    congr 2
    funext p
    congr 2
    ring
  · have := hv (fun i => withSlice xy (Np.pyGet data i) pts) _ _ (hread i hi z hz)
      (hread j hj (j : Int) (Or.inl rfl))
    simp only [this]
    congr 1
    clear hpts hread this
    induction pts with
    | nil => rfl
    | cons p ps ih =>
      simp only [List.map_cons, List.zipWith_cons_cons, ih]
      congr 1
      simp only [mixCell, Bool.or_self]
      congr 2
      ring

/-- C113, data over time only: the weighted mean of the horizontal values at the two times. -/
theorem C113_surface (xy : σ → List P → Except Err (List (Cell K))) (times : List Int)
    (hs : StrictIncr times) (hne : times ≠ []) (data : List σ) (hlen : data.length = times.length)
    (Q : P → Prop) (g : Nat → P → K)
    (hxy : ∀ (i : Nat) (s : σ), data[i]? = some s → ∀ ps : List P, (∀ p ∈ ps, Q p) →
      xy s ps = .ok (ps.map fun p => { value := some (g i p), masked := false }))
    (t : Int) (e : Bool) (ht : Served times t e) :
    ∃ (i j : Nat) (α : K), TimeWeights times t e i j α ∧
      ∀ (ds : DepthSys K P) (pts : List P), (∀ p ∈ pts, Q p) →
        eval xy times ds (.time data) pts t e = .ok (pts.map fun p =>
          { value := some ((1 - α) * g i p + α * g j p), masked := false }) := by
  obtain ⟨i, j, α, hw, hcase⟩ := timeStage_cases (K := K) hs hne t e ht
  exact ⟨i, j, α, hw, surface_of_case xy times data hlen Q g hxy t e i j α hw hcase⟩

/-- C113, data over levels only. Missing: as above. -/
theorem C113_still_levels_partial (xy : σ → List P → Except Err (List (Cell K))) (times : List Int)
    (data : List σ) (hm : 2 ≤ data.length) (Q : P → Prop) (g : Nat → P → K)
    (hxy : ∀ (k : Nat) (s : σ), data[k]? = some s → ∀ ps : List P, (∀ p ∈ ps, Q p) →
      xy s ps = .ok (ps.map fun p => { value := some (g k p), masked := false }))
    (t : Int) (e : Bool) (ds : DepthSys K P) (pts : List P) (ents : List (Entry K))
    (hpts : ∀ p ∈ pts, Q p) (hnl : data.length ≠ ds.numLayers) (ha : ds.alphas pts = .ok ents)
    (hp : PicksBeforeLast data.length ents pts) :
    ∃ out, eval xy times ds (.depth data) pts t e = .ok out ∧ out.length = pts.length ∧
      ∀ (n : Nat) (p : P) (ent : Entry K), pts[n]? = some p → ents[n]? = some ent →
        ∃ c, out[n]? = some c ∧ c.masked = ent.masked ∧ (ent.masked = false → ∃ β v,
          ent.alpha = some β ∧ c.value = some v ∧
          LevelMix data.length (fun k => g k p) ent.idx β v) := by
  have hserve : ServedBy xy [0] data.length [data] Q (fun _ => g) := by
    refine ⟨rfl, by simp, ?_⟩
    intro i k r s hr hs ps hps
    have : r = data := by
      cases i with
      | zero => simpa using hr.symm
      | succ i => simp at hr
    subst this
    exact hxy k s hs ps hps
  have := serves_of (by omega) hserve hpts 0 (by decide) 0 (Or.inl rfl)
  have hval : Serves data.length (fun k ps => withSlice xy (Np.pyGet data k) ps) g pts := this
  exact depth_levels hm ds hnl ha hp hval

/-- C113 in full: every entry that is not masked picks a level, possibly the one listed last. -/
def C113_statement : Prop :=
  ∀ (xy : ℚ → List Nat → Except Err (List (Cell ℚ))) (times : List Int) (m : Nat)
    (data : List (List ℚ)) (g : Nat → Nat → Nat → ℚ) (t : Int) (e : Bool) (ds : DepthSys ℚ Nat)
    (pts : List Nat) (ents : List (Entry ℚ)), StrictIncr times → times ≠ [] → 2 ≤ m →
    ServedBy xy times m data (fun _ => True) g → Served times t e → m ≠ ds.numLayers →
    ds.alphas pts = .ok ents → ents.length = pts.length →
    (∀ e ∈ ents, e.masked = false → ∃ α, e.alpha = some α ∧ ValidPick m e.idx α) →
    ∃ (i j : Nat) (α : ℚ) (out : List (Cell ℚ)), TimeWeights times t e i j α ∧
      eval xy times ds (.timeDepth data) pts t e = .ok out ∧
      ∀ (n p : Nat) (ent : Entry ℚ), pts[n]? = some p → ents[n]? = some ent →
        ∃ c, out[n]? = some c ∧ c.masked = ent.masked ∧ (ent.masked = false → ∃ β v w,
          ent.alpha = some β ∧ LevelMix m (fun k => g i k p) ent.idx β v ∧
          LevelMix m (fun k => g j k p) ent.idx β w ∧ c.value = some ((1 - α) * v + α * w))

/-- C113 fails: a point at the level listed last is NaN when asked with another one. -/
theorem C113_refuted : ¬ C113_statement := by
  intro h
  obtain ⟨i, j, α, out, _, ho, hr⟩ := h
    (fun s ps => .ok (ps.map fun _ => { value := some s, masked := false })) [0] 2 [[10, 20]]
    (fun _ k _ => if k = 0 then 10 else 20) 0 false
    ⟨1, fun _ => .ok [⟨0, some (1 / 2), false⟩, ⟨1, some 0, false⟩]⟩ [0, 1]
    [⟨0, some (1 / 2), false⟩, ⟨1, some 0, false⟩] (by unfold StrictIncr; decide) (by simp) (by decide)
    ⟨rfl, by simp, by
      intro i k r s hr hs ps _
      rcases i with _ | i
      · obtain rfl : r = [10, 20] := by simpa using hr.symm
        rcases k with _ | _ | k
        · obtain rfl : s = 10 := by simpa using hs.symm
          rfl
        · obtain rfl : s = 20 := by simpa using hs.symm
          rfl
        · simp at hs
      · simp at hr⟩ (Or.inr (Or.inl rfl)) (by decide) rfl rfl (by
      intro e he _
      simp only [List.mem_cons, List.not_mem_nil, or_false] at he
      rcases he with rfl | rfl
      · exact ⟨1 / 2, rfl, by norm_num, by norm_num, Or.inl (by norm_num)⟩
      · exact ⟨0, rfl, by norm_num, by norm_num, Or.inr (Or.inr (by norm_num))⟩)
  have he : eval (fun (s : ℚ) (ps : List Nat) => .ok (ps.map fun _ =>
      ({ value := some s, masked := false } : Cell ℚ))) [0]
      ⟨1, fun _ => .ok [⟨0, some (1 / 2), false⟩, ⟨1, some 0, false⟩]⟩ (.timeDepth [[10, 20]]) [0, 1] 0
      false = .ok [⟨some 20, false⟩, ⟨none, false⟩] := by decide +kernel
  rw [he] at ho
  cases ho
  obtain ⟨c, hc, _, hv⟩ := hr 1 1 ⟨1, some 0, false⟩ rfl rfl
  cases hc
  obtain ⟨_, _, _, _, _, _, hx⟩ := hv rfl
  cases hx

end C113

/-! ## C114 -/

section C114
variable {K : Type} [Field K] [LinearOrder K] [IsStrictOrderedRing K]

/-- The point was located in a face of the mesh that is a proper triangle. -/
def OnTriangle (m : UGeom.Mesh K) (p : UPt K) : Prop :=
  p.face ≠ -1 ∧ ∃ (a b c : Int) (A B C : K × K), Np.pyGet m.faces p.face = .ok [a, b, c] ∧
    Np.pyGet m.nodes a = .ok A ∧ Np.pyGet m.nodes b = .ok B ∧ Np.pyGet m.nodes c = .ok C ∧
    ProperTriangle A B C

omit [IsStrictOrderedRing K] [LinearOrder K] [Field K] in
theorem pyGet_map' {γ δ : Type} (f : γ → δ) (l : List γ) (i : Int) (x : γ)
    (h : Np.pyGet l i = .ok x) : Np.pyGet (l.map f) i = .ok (f x) := by
  unfold Np.pyGet at h ⊢
  simp only [List.length_map, List.getElem?_map] at h ⊢
  split_ifs at h ⊢ with h1 h2
  · split at h
    · rename_i y hy
      cases h
      simp [hy]
    · cases h
  · split at h
    · rename_i y hy
      cases h
      simp [hy]
    · cases h

private theorem xyU_linear (m : UGeom.Mesh K) (q : K × K × K) (ps : List (UPt K))
    (h : ∀ p ∈ ps, OnTriangle m p) :
    xyU m .node (m.nodes.map fun n => some (q.1 + q.2.1 * n.1 + q.2.2 * n.2)) ps =
      .ok (ps.map fun p =>
        { value := some (q.1 + q.2.1 * p.pos.1 + q.2.2 * p.pos.2), masked := false }) := by
  have hmap : mapE (fun x : Int × (K × K) => UGeom.interpNode m
      (m.nodes.map fun n => some (q.1 + q.2.1 * n.1 + q.2.2 * n.2)) x.1 x.2)
      (ps.map fun p => (p.face, p.pos)) =
      .ok ((ps.map fun p => (p.face, p.pos)).map fun x =>
        some (q.1 + q.2.1 * x.2.1 + q.2.2 * x.2.2)) := by
    refine mapE_ok ?_
    intro x hx
    obtain ⟨p, hp, rfl⟩ := List.mem_map.mp hx
    obtain ⟨hf, a, b, c, A, B, C, h1, h2, h3, h4, h5⟩ := h p hp
    have hd : ∀ (i : Int) (A : K × K), Np.pyGet m.nodes i = .ok A →
        Np.pyGet (m.nodes.map fun n => some (q.1 + q.2.1 * n.1 + q.2.2 * n.2)) i =
          .ok (some (q.1 + q.2.1 * A.1 + q.2.2 * A.2)) := fun i A hA =>
      pyGet_map' (fun n : K × K => some (q.1 + q.2.1 * n.1 + q.2.2 * n.2)) _ _ _ hA
    exact C31_linear_exact q.1 q.2.1 q.2.2 ⟨a, b, c, h1, h2, h3, h4, hd _ _ h2, hd _ _ h3,
      hd _ _ h4⟩ hf h5 p.pos
  unfold xyU UGeom.interpolate
  simp only [hmap, List.map_map]
  rfl

/-- The depth is within the levels, the level listed last left out. -/
def WithinLevels (levels : List K) (z : K) : Prop :=
  ∃ first last, levels.head? = some first ∧ levels.getLast? = some last ∧
    ((first ≤ z ∧ z < last) ∨ (last < z ∧ z ≤ first))

/-- Level depths serve every point within the levels: two neighbouring levels and the weight that
reproduces the depth. -/
theorem levelSys_picks {P : Type} (z : P → K) (levels : List K)
    (hs : StrictIncr levels ∨ StrictDecr levels) (hn : 2 ≤ levels.length) (sbc bbc : BC)
    (pts : List P) (hz : ∀ p ∈ pts, WithinLevels levels (z p)) :
    ∃ ents, (levelSys z levels sbc bbc).alphas pts = .ok ents ∧
      PicksBeforeLast levels.length ents pts ∧
      ∀ (n : Nat) (p : P) (e : Entry K), pts[n]? = some p → ents[n]? = some e →
        e.masked = false ∧ ∃ (α : K) (j : Nat) (a b : K), e.alpha = some α ∧ e.idx = (j : Int) ∧
          levels[j]? = some a ∧ levels[j + 1]? = some b ∧ a + (b - a) * α = z p := by
  have hne : levels ≠ [] := by rintro rfl; simp at hn
  obtain ⟨first, h0⟩ : ∃ x, levels.head? = some x := by
    cases levels with
    | nil => exact absurd rfl hne
    | cons x _ => exact ⟨x, rfl⟩
  obtain ⟨last, h1⟩ : ∃ x, levels.getLast? = some x := ⟨_, List.getLast?_eq_some_getLast hne⟩
  have hsh : some levels.length ≠ some 1 := by simp; omega
  obtain ⟨ents, he, hrec⟩ := C11_reconstructs_depth levels hs first last h0 h1 hn
    (some levels.length) hsh sbc bbc (pts.map z)
  have henc : List.Forall₂ (fun d e => (first ≤ d ∧ d < last) ∨ (last < d ∧ d ≤ first) →
      e.masked = false ∧ ∃ α, e.alpha = some α ∧ Encloses levels d e.idx α) (pts.map z) ents := by
    have h0' : levels[0]? = some first := by rw [← List.head?_eq_getElem?]; exact h0
    have h1' : levels[levels.length - 1]? = some last := by
      rw [← List.getLast?_eq_getElem?]; exact h1
    rcases hs with hs | hs
    · obtain ⟨ents', he', hf⟩ := C11_bracket_surface_first (fun x : K => x) Rounding.id
        (fun _ h => h) levels hs first last h0 h1 hn (some levels.length) hsh sbc bbc (pts.map z)
      rw [he] at he'; cases he'
      have hfl : first < last := Np.pairwise_get?_lt hs (by omega) h0' h1'
      refine hf.imp ?_
      rintro d e h (⟨ha, hb⟩ | ⟨ha, hb⟩)
      · exact h ha hb
      · exact absurd (lt_of_lt_of_le ha hb) (not_lt.mpr (le_of_lt hfl))
    · obtain ⟨ents', he', hf⟩ := C11_bracket_bottom_first (fun x : K => x) Rounding.id
        (fun _ h => h) levels hs last first h0 h1 hn (some levels.length) hsh sbc bbc (pts.map z)
      rw [he] at he'; cases he'
      have hfl : first > last := Np.pairwise_get?_lt hs (by omega) h0' h1'
      refine hf.imp ?_
      rintro d e h (⟨ha, hb⟩ | ⟨ha, hb⟩)
      · exact absurd (lt_of_le_of_lt ha hb) (not_lt.mpr (le_of_lt hfl))
      · exact h ha hb
  have hlen : ents.length = pts.length := by
    have := hrec.length_eq
    simpa using this.symm
  have key : ∀ (n : Nat) (p : P) (e : Entry K), pts[n]? = some p → ents[n]? = some e →
      e.masked = false ∧ ∃ (α : K) (j : Nat) (a b : K), e.alpha = some α ∧ e.idx = (j : Int) ∧
        levels[j]? = some a ∧ levels[j + 1]? = some b ∧ a + (b - a) * α = z p ∧ 0 ≤ α ∧ α ≤ 1 := by
    intro n p e hp hen
    have hpn : n < pts.length := (List.getElem?_eq_some_iff.mp hp).1
    obtain ⟨first', last', e0, e1, hr⟩ := hz p (List.mem_of_getElem? hp)
    rw [h0] at e0; rw [h1] at e1; cases e0; cases e1
    have hd : (pts.map z)[n]? = some (z p) := by rw [List.getElem?_map, hp]; rfl
    have g1 := List.forall₂_iff_get.mp hrec
    have g2 := List.forall₂_iff_get.mp henc
    have hn1 : n < (pts.map z).length := by simpa using hpn
    have hn2 : n < ents.length := by omega
    have r1 := g1.2 n hn1 hn2
    have r2 := g2.2 n hn1 hn2
    have x1 : (pts.map z).get ⟨n, hn1⟩ = z p := by
      rw [List.getElem?_eq_getElem hn1] at hd
      simpa using hd
    have x2 : ents.get ⟨n, hn2⟩ = e := by
      rw [List.getElem?_eq_getElem hn2] at hen
      simpa using hen
    rw [x1, x2] at r1 r2
    obtain ⟨α, hα, hre⟩ := r1 hr
    obtain ⟨hmask, α', hα', j, a, b, hj, ha, hb, _, _, q1, q2⟩ := r2 hr
    rw [hα] at hα'; cases hα'
    exact ⟨hmask, α, j, a, b, hα, hj, ha, hb, hre j a b hj ha hb, q1, q2⟩
  refine ⟨ents, he, ⟨hlen, ?_⟩, ?_⟩
  · intro e hmem hu
    obtain ⟨n, hen⟩ := List.getElem?_of_mem hmem
    have hn2 : n < pts.length := by
      rw [← hlen]; exact (List.getElem?_eq_some_iff.mp hen).1
    obtain ⟨_, α, j, a, b, hα, hj, ha, hb, _, q1, q2⟩ := key n _ e (List.getElem?_eq_getElem hn2) hen
    have hjl : j + 1 < levels.length := (List.getElem?_eq_some_iff.mp hb).1
    exact ⟨by omega, α, hα, q1, q2, Or.inl ⟨by omega, by omega⟩⟩
  · intro n p e hp hen
    obtain ⟨hm, α, j, a, b, h2, h3, h4, h5, h6, _, _⟩ := key n p e hp hen
    exact ⟨hm, α, j, a, b, h2, h3, h4, h5, h6⟩

omit [LinearOrder K] [IsStrictOrderedRing K] in
private theorem multilinear_levels (f : Multilinear K) (p : K × K) (t a b z β : K)
    (h : a + (b - a) * β = z) : (1 - β) * f.at p a t + β * f.at p b t = f.at p z t := by
  subst h
  unfold Multilinear.at
  ring

omit [LinearOrder K] [IsStrictOrderedRing K] in
private theorem multilinear_times (f : Multilinear K) (p : K × K) (z a b t α : K)
    (h : a + α * (b - a) = t) : (1 - α) * f.at p z a + α * f.at p z b = f.at p z t := by
  subst h
  unfold Multilinear.at
  ring

/-- The coefficients of the field in position at a depth and time. -/
private def coef (f : Multilinear K) (z t : K) : K × K × K :=
  (f.a.1 + z * f.b.1 + t * f.c.1 + z * t * f.d.1,
    f.a.2.1 + z * f.b.2.1 + t * f.c.2.1 + z * t * f.d.2.1,
    f.a.2.2 + z * f.b.2.2 + t * f.c.2.2 + z * t * f.d.2.2)

omit [LinearOrder K] [IsStrictOrderedRing K] in
private theorem at_coef (f : Multilinear K) (p : K × K) (z t : K) :
    f.at p z t = (coef f z t).1 + (coef f z t).2.1 * p.1 + (coef f z t).2.2 * p.2 := by
  unfold Multilinear.at coef
  ring

/-- The query time is on the axis. -/
def OnAxis (times : List Int) (t : Int) : Prop :=
  ∃ lo hi, times.head? = some lo ∧ times.getLast? = some hi ∧ lo ≤ t ∧ t ≤ hi

omit [IsStrictOrderedRing K] in
theorem weights_on_axis {times : List Int} {t : Int} (hs : StrictIncr times)
    (ht : OnAxis times t) {e : Bool} {i j : Nat} {α : K} (hw : TimeWeights times t e i j α) :
    ∃ a b : Int, times[i]? = some a ∧ times[j]? = some b ∧
      (a : K) + α * ((b : K) - (a : K)) = (t : K) := by
  obtain ⟨lo, hi, h0, h1, hlo, hhi⟩ := ht
  obtain ⟨_, _, hil, hjl, hc⟩ := hw
  rcases hc with ⟨_, _, a, b, ha, hb, hab⟩ | h1' | ⟨_, _, ⟨_, hx⟩ | ⟨_, hx⟩⟩
  · exact ⟨a, b, ha, hb, hab⟩
  · obtain ⟨x, rfl⟩ := List.length_eq_one_iff.mp h1'
    obtain rfl : i = 0 := by simpa using hil
    obtain rfl : j = 0 := by simpa using hjl
    simp only [List.head?_cons, Option.some.injEq, List.getLast?_singleton] at h0 h1
    subst h0
    have : x = t := by omega
    subst this
    exact ⟨x, x, rfl, rfl, by ring⟩
  · exact absurd (hx lo (List.mem_of_head? h0)) (not_lt.mpr hlo)
  · exact absurd (hx hi (List.mem_of_getLast? h1)) (not_lt.mpr hhi)

/-- From exact horizontal values to exact values in space and time, for data over time and levels. -/
private theorem exact_of_horizontal {P σ : Type} (xy : σ → List P → Except Err (List (Cell K)))
    (pos : P → K × K) (z : P → K) (Q : P → Prop) (f : Multilinear K) (slice : K → K → σ)
    (hxy : ∀ (zk tk : K) (ps : List P), (∀ p ∈ ps, Q p) → xy (slice zk tk) ps =
      .ok (ps.map fun p => { value := some (f.at (pos p) zk tk), masked := false }))
    (times : List Int) (hs : StrictIncr times) (levels : List K)
    (hl : StrictIncr levels ∨ StrictDecr levels) (hn : 2 ≤ levels.length) (sbc bbc : BC) (t : Int)
    (e : Bool) (ht : OnAxis times t) (pts : List P)
    (hpts : ∀ p ∈ pts, Q p ∧ WithinLevels levels (z p)) :
    eval xy times (levelSys z levels sbc bbc)
      (.timeDepth (times.map fun ti : Int => levels.map fun zk => slice zk (ti : K))) pts t e =
      .ok (pts.map fun p => { value := some (f.at (pos p) (z p) (t : K)), masked := false }) := by
  have hne : times ≠ [] := by
    obtain ⟨lo, hi, h0, _⟩ := ht
    rintro rfl
    simp at h0
  let T : Nat → K := fun i => match times[i]? with
    | some a => (a : K)
    | none => 0
  let Z : Nat → K := fun k => match levels[k]? with
    | some a => a
    | none => 0
  have hserve : ServedBy xy times levels.length
      (times.map fun ti : Int => levels.map fun zk => slice zk (ti : K)) Q
      (fun i k p => f.at (pos p) (Z k) (T i)) := by
    refine ⟨by simp, ?_, ?_⟩
    · intro r hr
      obtain ⟨ti, _, rfl⟩ := List.mem_map.mp hr
      simp
    · intro i k r s hr hsl ps hps
      rw [List.getElem?_map] at hr
      obtain ⟨ti, hti, rfl⟩ := Option.map_eq_some_iff.mp hr
      rw [List.getElem?_map] at hsl
      obtain ⟨zk, hzk, rfl⟩ := Option.map_eq_some_iff.mp hsl
      rw [hxy zk (ti : K) ps hps]
      simp only [T, Z, hti, hzk]
  obtain ⟨i, j, α, hw, hall⟩ := C113_levels_partial xy times hs hne levels.length hn _ Q _ hserve t e
    (Or.inr (Or.inr ht))
  obtain ⟨a, b, hta, htb, hab⟩ := weights_on_axis hs ht hw
  obtain ⟨ents, hents, hpk, hdetail⟩ := levelSys_picks z levels hl hn sbc bbc pts
    (fun p hp => (hpts p hp).2)
  obtain ⟨out, ho, hol, hr⟩ := hall (levelSys z levels sbc bbc) pts ents (fun p hp => (hpts p hp).1)
    (by simp only [levelSys]; omega) hents hpk
  rw [ho]
  congr 1
  apply List.ext_getElem?
  intro n
  rcases hpn : pts[n]? with _ | p
  · rw [List.getElem?_map, hpn]
    have : pts.length ≤ n := by simpa using hpn
    simp [List.getElem?_eq_none_iff, hol, this]
  · have hen : ∃ ent, ents[n]? = some ent := by
      have hn' : n < pts.length := (List.getElem?_eq_some_iff.mp hpn).1
      exact ⟨_, List.getElem?_eq_getElem (by rw [hpk.1]; exact hn')⟩
    obtain ⟨ent, hen⟩ := hen
    obtain ⟨c, hc, hcm, hcv⟩ := hr n p ent hpn hen
    obtain ⟨hm, β, k, za, zb, hβ, hk, hza, hzb, hzz⟩ := hdetail n p ent hpn hen
    obtain ⟨β', v, w, hβ', hv, hw', hval⟩ := hcv hm
    rw [hβ] at hβ'; cases hβ'
    have hk1 : k + 1 < levels.length := (List.getElem?_eq_some_iff.mp hzb).1
    have hmix : ∀ (x : K) (i : Nat), LevelMix levels.length (fun k => f.at (pos p) (Z k) (T i))
        ent.idx β x → x = f.at (pos p) (z p) (T i) := by
      intro x i hx
      rcases hx with ⟨k', h1, h2, h3⟩ | ⟨h1, _, _⟩ | ⟨h1, _, _⟩
      · obtain rfl : k' = k := by omega
        rw [h3, ← multilinear_levels f (pos p) (T i) za zb (z p) β hzz]
        simp only [Z, hza, hzb]
      · omega
      · omega
    rw [hc, List.getElem?_map, hpn]
    simp only [Option.map_some]
    congr 1
    obtain ⟨cv, cm⟩ := c
    simp only at hcm hval
    rw [hcm, hm, hval, hmix v i hv, hmix w j hw']
    congr 2
    have hTi : T i = (a : K) := by simp only [T, hta]
    have hTj : T j = (b : K) := by simp only [T, htb]
    rw [hTi, hTj]
    exact multilinear_times f (pos p) (z p) a b t α hab

/-- C114, triangles. A field linear in position, in depth and in time, given at the nodes, levels and
times, is reproduced exactly at every located point with a depth within the levels, at every time on
the axis, for levels listed either way, whatever the boundary conditions, whatever other points are
asked for and whether or not extrapolation is on. Missing: the depth of the level listed last. -/
theorem C114_triangles_partial (m : UGeom.Mesh K) (f : Multilinear K) (times : List Int)
    (hs : StrictIncr times) (levels : List K) (hl : StrictIncr levels ∨ StrictDecr levels)
    (hn : 2 ≤ levels.length) (sbc bbc : BC) (t : Int) (e : Bool) (ht : OnAxis times t)
    (pts : List (UPt K)) (hpts : ∀ p ∈ pts, OnTriangle m p ∧ WithinLevels levels p.z) :
    eval (xyU m .node) times (levelSys UPt.z levels sbc bbc)
      (.timeDepth (times.map fun ti : Int => levels.map fun zk => m.nodes.map fun n =>
        some (f.at n zk (ti : K)))) pts t e =
      .ok (pts.map fun p => { value := some (f.at p.pos p.z (t : K)), masked := false }) := by
  refine exact_of_horizontal (xyU m .node) UPt.pos UPt.z (OnTriangle m) f
    (fun zk tk => m.nodes.map fun n => some (f.at n zk tk)) ?_ times hs levels hl hn sbc bbc t e ht
    pts hpts
  intro zk tk ps hps
  simp only [at_coef]
  exact xyU_linear m (coef f zk tk) ps hps

/-- The same for data over time only. -/
private theorem exact_of_horizontal_surface {P σ : Type}
    (xy : σ → List P → Except Err (List (Cell K))) (pos : P → K × K) (Q : P → Prop)
    (f : Multilinear K) (slice : K → σ)
    (hxy : ∀ (tk : K) (ps : List P), (∀ p ∈ ps, Q p) → xy (slice tk) ps =
      .ok (ps.map fun p => { value := some (f.at (pos p) 0 tk), masked := false }))
    (times : List Int) (hs : StrictIncr times) (ds : DepthSys K P) (t : Int) (e : Bool)
    (ht : OnAxis times t) (pts : List P) (hpts : ∀ p ∈ pts, Q p) :
    eval xy times ds (.time (times.map fun ti : Int => slice (ti : K))) pts t e =
      .ok (pts.map fun p => { value := some (f.at (pos p) 0 (t : K)), masked := false }) := by
  have hne : times ≠ [] := by
    obtain ⟨lo, hi, h0, _⟩ := ht
    rintro rfl
    simp at h0
  let T : Nat → K := fun i => match times[i]? with
    | some a => (a : K)
    | none => 0
  obtain ⟨i, j, α, hw, hall⟩ := C113_surface xy times hs hne
    (times.map fun ti : Int => slice (ti : K)) (by simp) Q (fun i p => f.at (pos p) 0 (T i)) (by
      intro i s hi ps hps
      rw [List.getElem?_map] at hi
      obtain ⟨ti, hti, rfl⟩ := Option.map_eq_some_iff.mp hi
      rw [hxy (ti : K) ps hps]
      simp only [T, hti]) t e (Or.inr (Or.inr ht))
  obtain ⟨a, b, hta, htb, hab⟩ := weights_on_axis hs ht hw
  rw [hall ds pts hpts]
  congr 2
  funext p
  congr 2
  have hTi : T i = (a : K) := by simp only [T, hta]
  have hTj : T j = (b : K) := by simp only [T, htb]
  rw [hTi, hTj]
  exact multilinear_times f (pos p) 0 a b t α hab

/-- C114, triangles, data over time only: exact at every located point and every time on the axis. -/
theorem C114_surface_triangles (m : UGeom.Mesh K) (f : Multilinear K) (times : List Int)
    (hs : StrictIncr times) (ds : DepthSys K (UPt K)) (t : Int) (e : Bool) (ht : OnAxis times t)
    (pts : List (UPt K)) (hpts : ∀ p ∈ pts, OnTriangle m p) :
    eval (xyU m .node) times ds
      (.time (times.map fun ti : Int => m.nodes.map fun n => some (f.at n 0 (ti : K)))) pts t e =
      .ok (pts.map fun p => { value := some (f.at p.pos 0 (t : K)), masked := false }) := by
  refine exact_of_horizontal_surface (xyU m .node) UPt.pos (OnTriangle m) f
    (fun tk => m.nodes.map fun n => some (f.at n 0 tk)) ?_ times hs ds t e ht pts hpts
  intro tk ps hps
  simp only [at_coef]
  exact xyU_linear m (coef f 0 tk) ps hps

/-- The point was located in a cell of the structured grid and its position in the cell was found. -/
def OnQuad (sqrt : K → K) (g : SInterp.Grid K) (p : SPt K) : Prop :=
  ∃ (i j : Nat) (l m : K) (px py : K × K × K × K), p.cell = some ((i : Int), (j : Int)) ∧
    IsCorners g.lon i j px ∧ IsCorners g.lat i j py ∧
    SInterp.offset sqrt g p.pos ((i : Int), (j : Int)) = .ok (some (l, m))

/-- The array holds the field at every node of the grid, behind the padding of node data. -/
def HoldsField (g : SInterp.Grid K) (f : Multilinear K) (z t : K) (A : List (List K)) : Prop :=
  (∃ c, Rectangular c A) ∧ ∀ (i j : Nat) (x y : K), entry g.lon i j = some x →
    entry g.lat i j = some y →
    entry A (i + lowPads (g.pads .node).1) (j + lowPads (g.pads .node).2) =
      some (f.at (x, y) z t)

private theorem xyS_linear (sqrt : K → K) (hsq : SqrtOk sqrt) (g : SInterp.Grid K) (c' : Nat)
    (hlon : Rectangular c' g.lon) (hlat : Rectangular c' g.lat)
    (hk0 : (g.pads .node).1 ≠ .other) (hk1 : (g.pads .node).2 ≠ .other) (f : Multilinear K) (z t : K)
    (A : List (List K)) (hA : HoldsField g f z t A) (ps : List (SPt K))
    (h : ∀ p ∈ ps, OnQuad sqrt g p) :
    xyS sqrt g (some .node) (plain A) ps =
      .ok (ps.map fun p => { value := some (f.at p.pos z t), masked := false }) := by
  obtain ⟨⟨c, hc⟩, hA⟩ := hA
  have := C46_call sqrt hsq g A c c' hc hlon hlat hk0 hk1 (coef f z t).1 (coef f z t).2.1
    (coef f z t).2.2 (ps.map fun p => (p.pos, p.cell)) (by
      intro q hq ij hij
      obtain ⟨p, hp, rfl⟩ := List.mem_map.mp hq
      obtain ⟨i, j, l, m, px, py, hcell, hx, hy, ho⟩ := h p hp
      simp only at hij
      rw [hcell] at hij
      cases hij
      refine ⟨i, j, l, m, px, py, (f.at (px.1, py.1) z t, f.at (px.2.1, py.2.1) z t,
        f.at (px.2.2.1, py.2.2.1) z t, f.at (px.2.2.2, py.2.2.2) z t), rfl, hx, hy, ho, ?_,
        at_coef _ _ _ _, at_coef _ _ _ _, at_coef _ _ _ _, at_coef _ _ _ _⟩
      obtain ⟨x0, x1, x2, x3⟩ := hx
      obtain ⟨y0, y1, y2, y3⟩ := hy
      refine ⟨hA _ _ _ _ x0 y0, ?_, ?_, ?_⟩
      · have := hA _ _ _ _ x1 y1
        rwa [show i + 1 + lowPads (g.pads .node).1 = i + lowPads (g.pads .node).1 + 1
          by omega] at this
      · have := hA _ _ _ _ x2 y2
        rwa [show i + 1 + lowPads (g.pads .node).1 = i + lowPads (g.pads .node).1 + 1
          by omega, show j + 1 + lowPads (g.pads .node).2 =
            j + lowPads (g.pads .node).2 + 1 by omega] at this
      · have := hA _ _ _ _ x3 y3
        rwa [show j + 1 + lowPads (g.pads .node).2 =
            j + lowPads (g.pads .node).2 + 1 by omega] at this)
  unfold xyS
  rw [this]
  simp only [List.map_map]
  congr 1
  refine List.map_congr_left ?_
  intro p hp
  obtain ⟨i, j, l, m, px, py, hcell, _⟩ := h p hp
  simp [Function.comp, hcell, ← at_coef]

/-- C114, structured grids: the same. Missing: the depth of the level listed last. -/
theorem C114_quads_partial (sqrt : K → K) (hsq : SqrtOk sqrt) (g : SInterp.Grid K) (c' : Nat)
    (hlon : Rectangular c' g.lon) (hlat : Rectangular c' g.lat)
    (hk0 : (g.pads .node).1 ≠ .other) (hk1 : (g.pads .node).2 ≠ .other) (f : Multilinear K)
    (A : K → K → List (List K)) (hA : ∀ z t, HoldsField g f z t (A z t)) (times : List Int)
    (hs : StrictIncr times) (levels : List K) (hl : StrictIncr levels ∨ StrictDecr levels)
    (hn : 2 ≤ levels.length) (sbc bbc : BC) (t : Int) (e : Bool) (ht : OnAxis times t)
    (pts : List (SPt K)) (hpts : ∀ p ∈ pts, OnQuad sqrt g p ∧ WithinLevels levels p.z) :
    eval (xyS sqrt g (some .node)) times (levelSys SPt.z levels sbc bbc)
      (.timeDepth (times.map fun ti : Int => levels.map fun zk => plain (A zk (ti : K)))) pts t e =
      .ok (pts.map fun p => { value := some (f.at p.pos p.z (t : K)), masked := false }) :=
  exact_of_horizontal (xyS sqrt g (some .node)) SPt.pos SPt.z (OnQuad sqrt g) f
    (fun zk tk => plain (A zk tk))
    (fun zk tk ps hps => xyS_linear sqrt hsq g c' hlon hlat hk0 hk1 f zk tk (A zk tk) (hA zk tk) ps hps)
    times hs levels hl hn sbc bbc t e ht pts hpts

/-- C114, structured grids, data over time only. -/
theorem C114_surface_quads (sqrt : K → K) (hsq : SqrtOk sqrt) (g : SInterp.Grid K) (c' : Nat)
    (hlon : Rectangular c' g.lon) (hlat : Rectangular c' g.lat)
    (hk0 : (g.pads .node).1 ≠ .other) (hk1 : (g.pads .node).2 ≠ .other) (f : Multilinear K)
    (A : K → List (List K)) (hA : ∀ t, HoldsField g f 0 t (A t)) (times : List Int)
    (hs : StrictIncr times) (ds : DepthSys K (SPt K)) (t : Int) (e : Bool) (ht : OnAxis times t)
    (pts : List (SPt K)) (hpts : ∀ p ∈ pts, OnQuad sqrt g p) :
    eval (xyS sqrt g (some .node)) times ds
      (.time (times.map fun ti : Int => plain (A (ti : K)))) pts t e =
      .ok (pts.map fun p => { value := some (f.at p.pos 0 (t : K)), masked := false }) :=
  exact_of_horizontal_surface (xyS sqrt g (some .node)) SPt.pos (OnQuad sqrt g) f
    (fun tk => plain (A tk))
    (fun tk ps hps => xyS_linear sqrt hsq g c' hlon hlat hk0 hk1 f 0 tk (A tk) (hA tk) ps hps)
    times hs ds t e ht pts hpts

/-- C114 in full: also at the depth of the level listed last. -/
def C114_statement : Prop :=
  ∀ (m : UGeom.Mesh ℚ) (f : Multilinear ℚ) (times : List Int) (levels : List ℚ) (sbc bbc : BC)
    (t : Int) (e : Bool) (pts : List (UPt ℚ)), StrictIncr times →
    (StrictIncr levels ∨ StrictDecr levels) → 2 ≤ levels.length → OnAxis times t →
    (∀ p ∈ pts, OnTriangle m p ∧ ∃ first last, levels.head? = some first ∧
      levels.getLast? = some last ∧ min first last ≤ p.z ∧ p.z ≤ max first last) →
    eval (xyU m .node) times (levelSys UPt.z levels sbc bbc)
      (.timeDepth (times.map fun ti : Int => levels.map fun zk => m.nodes.map fun n =>
        some (f.at n zk (ti : ℚ)))) pts t e =
      .ok (pts.map fun p => { value := some (f.at p.pos p.z (t : ℚ)), masked := false })

/-- One triangle. -/
def oneTriangle : UGeom.Mesh ℚ where
  nodes := [(0, 0), (4, 0), (0, 4)]
  faces := [[0, 1, 2]]

theorem oneTriangle_on (x y z : ℚ) : OnTriangle oneTriangle ⟨0, (x, y), z⟩ :=
  ⟨by show (0 : Int) ≠ -1; decide, 0, 1, 2, (0, 0), (4, 0), (0, 4), rfl, rfl, rfl, rfl,
    Or.inl (by unfold TurnsLeft; norm_num)⟩

/-- C114 fails: at the depth of the bottom level, listed last, the query raises. -/
theorem C114_refuted : ¬ C114_statement := by
  intro h
  have := h oneTriangle ⟨(1, 0, 0), (0, 0, 0), (0, 0, 0), (0, 0, 0)⟩ [0, 10] [0, 10] .extrapolate
    .extrapolate 5 false [⟨0, (1, 1), 10⟩] (by unfold StrictIncr; decide)
    (Or.inl (by unfold StrictIncr; decide +kernel)) (by decide) ⟨0, 10, rfl, rfl, by decide, by decide⟩
    (by
      intro p hp
      simp only [List.mem_singleton] at hp
      subst hp
      exact ⟨oneTriangle_on 1 1 10, 0, 10, rfl, rfl, by decide +kernel, by decide +kernel⟩)
  revert this
  decide +kernel

/-- The hypotheses of the exactness theorem hold for a triangle, levels listed from the bottom, three
points at different depths, a field with all kinds of terms, and a time between two times. -/
example : eval (xyU oneTriangle .node) [0, 10, 40] (levelSys UPt.z [20, 5, 0] .extrapolate .mask)
    (.timeDepth ([0, 10, 40].map fun ti : Int => [20, 5, 0].map fun zk => oneTriangle.nodes.map fun n =>
      some ((⟨(1, 2, 3), (1, 0, 1), (2, 1, 0), (0, 1, 1)⟩ : Multilinear ℚ).at n zk (ti : ℚ))))
    [⟨0, (1, 1), 20⟩, ⟨0, (1, 2), 1⟩, ⟨0, (0, 3), 7⟩] 25 false =
    .ok [⟨some 1121, false⟩, ⟨some 162, false⟩, ⟨some 613, false⟩] := by
  rw [C114_triangles_partial oneTriangle _ _ (by unfold StrictIncr; decide) _
    (Or.inr (by unfold StrictDecr; decide +kernel)) (by decide) _ _ _ _
    ⟨0, 40, rfl, rfl, by decide, by decide⟩]
  · decide +kernel
  · intro p hp
    simp only [List.mem_cons, List.not_mem_nil, or_false] at hp
    rcases hp with rfl | rfl | rfl
    · exact ⟨oneTriangle_on _ _ _, 20, 0, rfl, rfl, Or.inr (by decide +kernel)⟩
    · exact ⟨oneTriangle_on _ _ _, 20, 0, rfl, rfl, Or.inr (by decide +kernel)⟩
    · exact ⟨oneTriangle_on _ _ _, 20, 0, rfl, rfl, Or.inr (by decide +kernel)⟩

/-- A grid of one square cell over the reals. -/
def oneSquare : SInterp.Grid ℝ where
  lon := [[0, 2], [0, 2]]
  lat := [[0, 0], [2, 2]]
  pads := fun _ => (.none, .none)
  centerMask := none
  behavior := "zero"

/-- The hypotheses of the theorem for structured grids hold for the real square root, one cell, a point
in it at a depth between two levels, and any field. -/
example (f : Multilinear ℝ) : eval (xyS Real.sqrt oneSquare (some .node)) [0, 10]
    (levelSys SPt.z [0, 5, 20] .extrapolate .extrapolate)
    (.timeDepth ([0, 10].map fun ti : Int => [0, 5, 20].map fun zk => plain
      [[f.at (0, 0) zk (ti : ℝ), f.at (2, 0) zk (ti : ℝ)],
        [f.at (0, 2) zk (ti : ℝ), f.at (2, 2) zk (ti : ℝ)]]))
    [⟨some (0, 0), (1, 1 / 2), 7⟩] 4 true = .ok [⟨some (f.at (1, 1 / 2) 7 4), false⟩] := by
  have := C114_quads_partial Real.sqrt (fun k hk => Real.mul_self_sqrt hk) oneSquare 2
    (by unfold Rectangular oneSquare; simp) (by unfold Rectangular oneSquare; simp) (by decide)
    (by decide) f (fun z t => [[f.at (0, 0) z t, f.at (2, 0) z t], [f.at (0, 2) z t, f.at (2, 2) z t]])
    (by
      intro z t
      refine ⟨⟨2, by unfold Rectangular; simp⟩, ?_⟩
      intro i j x y hx hy
      simp only [oneSquare, lowPads] at hx hy ⊢
      rcases i with _ | _ | i <;> rcases j with _ | _ | j <;>
        simp [entry] at hx hy ⊢ <;> subst hx <;> subst hy <;> rfl)
    [0, 10] (by unfold StrictIncr; decide) [0, 5, 20] (Or.inl (by unfold StrictIncr; norm_num))
    (by simp) .extrapolate .extrapolate 4 true ⟨0, 10, rfl, rfl, by decide, by decide⟩
    [⟨some (0, 0), (1, 1 / 2), 7⟩] (by
      intro p hp
      simp only [List.mem_singleton] at hp
      subst hp
      refine ⟨⟨0, 0, 1 / 2, 1 / 4, (0, 0, 2, 2), (0, 2, 2, 0), rfl, ?_, ?_, ?_⟩, 0, 20, rfl, rfl,
        Or.inl (by norm_num)⟩
      · simp [IsCorners, entry, oneSquare]
      · simp [IsCorners, entry, oneSquare]
      · have h1 : SIndex.byIndex oneSquare.lon (((0 : Nat) : Int), ((0 : Nat) : Int)) =
            .ok (0, 0, 2, 2) := rfl
        have h2 : SIndex.byIndex oneSquare.lat (((0 : Nat) : Int), ((0 : Nat) : Int)) =
            .ok (0, 2, 2, 0) := rfl
        simp only [SInterp.offset, h1, h2, SInterp.xToL, SInterp.coeffs, SInterp.quot]
        norm_num)
  simpa using this

end C114

/-! ## C115 -/

section C115
variable {K P σ : Type} [Field K] [LinearOrder K] [IsStrictOrderedRing K]

omit [IsStrictOrderedRing K] in
private theorem mix_between [IsStrictOrderedRing K] {lo hi v w α : K} (h0 : 0 ≤ α) (h1 : α ≤ 1)
    (hv : lo ≤ v ∧ v ≤ hi) (hw : lo ≤ w ∧ w ≤ hi) :
    lo ≤ (1 - α) * v + α * w ∧ (1 - α) * v + α * w ≤ hi := by
  have a1 := mul_nonneg (sub_nonneg.2 h1) (sub_nonneg.2 hv.1)
  have a2 := mul_nonneg h0 (sub_nonneg.2 hw.1)
  have a3 := mul_nonneg (sub_nonneg.2 h1) (sub_nonneg.2 hv.2)
  have a4 := mul_nonneg h0 (sub_nonneg.2 hw.2)
  constructor <;> linarith

private theorem levelMix_between {lo hi α v : K} {m : Nat} {c : Nat → K} {i : Int} (h0 : 0 ≤ α)
    (h1 : α ≤ 1) (hc : ∀ k, k < m → lo ≤ c k ∧ c k ≤ hi) (hm : 0 < m) (h : LevelMix m c i α v) :
    lo ≤ v ∧ v ≤ hi := by
  rcases h with ⟨j, _, hj, rfl⟩ | ⟨_, _, rfl⟩ | ⟨_, _, rfl⟩
  · exact mix_between h0 h1 (hc j (by omega)) (hc (j + 1) hj)
  · exact hc 0 hm
  · exact hc (m - 1) (by omega)

/-- From bounds on the horizontal values to bounds on the results. -/
private theorem range_levels (xy : σ → List P → Except Err (List (Cell K))) (times : List Int)
    (hs : StrictIncr times) (hne : times ≠ []) (m : Nat) (hm : 2 ≤ m) (data : List (List σ))
    (Q : P → Prop) (g : Nat → Nat → P → K) (h : ServedBy xy times m data Q g) (lo hi : K)
    (hg : ∀ i k p, Q p → i < times.length → k < m → lo ≤ g i k p ∧ g i k p ≤ hi) (t : Int) (e : Bool)
    (ht : Served times t e) (ds : DepthSys K P) (pts : List P) (ents : List (Entry K))
    (hpts : ∀ p ∈ pts, Q p) (hnl : m ≠ ds.numLayers) (ha : ds.alphas pts = .ok ents)
    (hp : PicksBeforeLast m ents pts) :
    ∃ out, eval xy times ds (.timeDepth data) pts t e = .ok out ∧ out.length = pts.length ∧
      ∀ c ∈ out, c.masked = false → ∃ v, c.value = some v ∧ lo ≤ v ∧ v ≤ hi := by
  obtain ⟨i, j, α, hw, hall⟩ := C113_levels_partial xy times hs hne m hm data Q g h t e ht
  obtain ⟨out, ho, hol, hr⟩ := hall ds pts ents hpts hnl ha hp
  obtain ⟨a0, a1, hi', hj', _⟩ := hw
  refine ⟨out, ho, hol, ?_⟩
  intro c hc hu
  obtain ⟨n, hn⟩ := List.getElem?_of_mem hc
  have hnl' : n < out.length := (List.getElem?_eq_some_iff.mp hn).1
  obtain ⟨p, hpn⟩ : ∃ p, pts[n]? = some p := ⟨_, List.getElem?_eq_getElem (by omega)⟩
  obtain ⟨ent, hen⟩ : ∃ ent, ents[n]? = some ent :=
    ⟨_, List.getElem?_eq_getElem (by have := hp.1; omega)⟩
  obtain ⟨c', hc', hm', hv⟩ := hr n p ent hpn hen
  rw [hn] at hc'; cases hc'
  obtain ⟨β, v, w, hβ, h1, h2, h3⟩ := hv (by rw [← hm', hu])
  obtain ⟨_, β', hβ', b0, b1, _⟩ := hp.2 ent (List.mem_of_getElem? hen) (by rw [← hm', hu])
  rw [hβ] at hβ'; cases hβ'
  have hQ := hpts p (List.mem_of_getElem? hpn)
  exact ⟨_, h3, mix_between a0 a1
    (levelMix_between b0 b1 (fun k hk => hg i k p hQ hi' hk) (by omega) h1)
    (levelMix_between b0 b1 (fun k hk => hg j k p hQ hj' hk) (by omega) h2)⟩

/-- The point lies in the triangle it was located in. -/
def InItsTriangle (m : UGeom.Mesh K) (p : UPt K) : Prop :=
  p.face ≠ -1 ∧ ∃ (a b c : Int) (A B C : K × K), Np.pyGet m.faces p.face = .ok [a, b, c] ∧
    Np.pyGet m.nodes a = .ok A ∧ Np.pyGet m.nodes b = .ok B ∧ Np.pyGet m.nodes c = .ok C ∧
    ProperTriangle A B C ∧ InTriangle A B C p.pos

/-- A slice of node data without NaN and with all values between the bounds. -/
def SliceWithin (m : UGeom.Mesh K) (lo hi : K) (s : List (Option K)) : Prop :=
  s.length = m.nodes.length ∧ ∀ v ∈ s, ∃ x, v = some x ∧ lo ≤ x ∧ x ≤ hi

omit [Field K] [LinearOrder K] [IsStrictOrderedRing K] in
theorem pyGet_same {γ δ : Type} {l : List γ} {s : List δ} (h : s.length = l.length) {i : Int}
    {x : γ} (hx : Np.pyGet l i = .ok x) : ∃ y, Np.pyGet s i = .ok y ∧ y ∈ s := by
  unfold Np.pyGet at hx ⊢
  rw [h]
  split_ifs at hx ⊢ with h1 h2
  · split at hx
    · rename_i y hy
      have := (List.getElem?_eq_some_iff.mp hy).1
      rw [List.getElem?_eq_getElem (by omega)]
      exact ⟨_, rfl, List.getElem_mem _⟩
    · cases hx
  · split at hx
    · rename_i y hy
      have := (List.getElem?_eq_some_iff.mp hy).1
      rw [List.getElem?_eq_getElem (by omega)]
      exact ⟨_, rfl, List.getElem_mem _⟩
    · cases hx

/-- The horizontal value at a point; 0 where there is none. -/
def uValue (m : UGeom.Mesh K) (s : List (Option K)) (p : UPt K) : K :=
  match UGeom.interpNode m s p.face p.pos with
  | .ok (some x) => x
  | _ => 0

theorem uValue_spec (m : UGeom.Mesh K) (lo hi : K) (s : List (Option K))
    (hs : SliceWithin m lo hi s) (p : UPt K) (hp : InItsTriangle m p) :
    UGeom.interpNode m s p.face p.pos = .ok (some (uValue m s p)) ∧ lo ≤ uValue m s p ∧
      uValue m s p ≤ hi := by
  obtain ⟨hf, a, b, c, A, B, C, h1, h2, h3, h4, h5, h6⟩ := hp
  obtain ⟨hl, hv⟩ := hs
  obtain ⟨ya, ga, ma⟩ := pyGet_same hl h2
  obtain ⟨yb, gb, mb⟩ := pyGet_same hl h3
  obtain ⟨yc, gc, mc⟩ := pyGet_same hl h4
  obtain ⟨u, rfl, u1, u2⟩ := hv _ ma
  obtain ⟨v, rfl, v1, v2⟩ := hv _ mb
  obtain ⟨w, rfl, w1, w2⟩ := hv _ mc
  obtain ⟨x, hx, x1, x2⟩ := C31_no_overshoot ⟨a, b, c, h1, h2, h3, h4, ga, gb, gc⟩ hf h5 p.pos h6
  have e : uValue m s p = x := by unfold uValue; rw [hx]
  rw [e]
  exact ⟨hx, le_trans (le_min u1 (le_min v1 w1)) x1, le_trans x2 (max_le u2 (max_le v2 w2))⟩

theorem xyU_value (m : UGeom.Mesh K) (lo hi : K) (s : List (Option K))
    (hs : SliceWithin m lo hi s) (ps : List (UPt K)) (h : ∀ p ∈ ps, InItsTriangle m p) :
    xyU m .node s ps = .ok (ps.map fun p => { value := some (uValue m s p), masked := false }) := by
  have hmap : mapE (fun x : Int × (K × K) => UGeom.interpNode m s x.1 x.2)
      (ps.map fun p => (p.face, p.pos)) =
      .ok ((ps.map fun p => (p.face, p.pos)).map fun x => some (uValue m s ⟨x.1, x.2, 0⟩)) := by
    refine mapE_ok ?_
    intro x hx
    obtain ⟨p, hp, rfl⟩ := List.mem_map.mp hx
    exact (uValue_spec m lo hi s hs p (h p hp)).1
  unfold xyU UGeom.interpolate
  simp only [hmap, List.map_map]
  rfl

/-- C115, triangles. With data between two bounds, every result that is not masked is a number between
the same bounds, for any depth object, at any time the variable serves. Missing: points beyond the
level listed last. -/
theorem C115_triangles_partial (m : UGeom.Mesh K) (lo hi : K) (times : List Int)
    (hs : StrictIncr times) (hne : times ≠ []) (n : Nat) (hn : 2 ≤ n)
    (data : List (List (List (Option K)))) (hdl : data.length = times.length)
    (hdr : ∀ r ∈ data, r.length = n) (hd : ∀ r ∈ data, ∀ s ∈ r, SliceWithin m lo hi s) (t : Int)
    (e : Bool) (ht : Served times t e) (ds : DepthSys K (UPt K)) (hnl : n ≠ ds.numLayers)
    (pts : List (UPt K)) (hpts : ∀ p ∈ pts, InItsTriangle m p) (ents : List (Entry K))
    (ha : ds.alphas pts = .ok ents) (hp : PicksBeforeLast n ents pts) :
    ∃ out, eval (xyU m .node) times ds (.timeDepth data) pts t e = .ok out ∧
      out.length = pts.length ∧
      ∀ c ∈ out, c.masked = false → ∃ v, c.value = some v ∧ lo ≤ v ∧ v ≤ hi := by
  have hserve : ServedBy (xyU m .node) times n data (InItsTriangle m) (fun i k p =>
      uValue m (((data[i]?).getD [])[k]?.getD []) p) := by
    refine ⟨hdl, hdr, ?_⟩
    intro i k r s hr hk ps hps
    rw [xyU_value m lo hi s (hd r (List.mem_of_getElem? hr) s (List.mem_of_getElem? hk)) ps hps]
    simp only [hr, hk, Option.getD_some]
  refine range_levels (xyU m .node) times hs hne n hn data (InItsTriangle m) _ hserve lo hi ?_ t e ht
    ds pts ents hpts hnl ha hp
  intro i k p hQ hi' hk
  obtain ⟨r, hr⟩ : ∃ r, data[i]? = some r := ⟨_, List.getElem?_eq_getElem (by omega)⟩
  have hrl := hdr r (List.mem_of_getElem? hr)
  obtain ⟨s, hsl⟩ : ∃ s, r[k]? = some s := ⟨_, List.getElem?_eq_getElem (by omega)⟩
  simp only [hr, hsl, Option.getD_some]
  exact (uValue_spec m lo hi s (hd r (List.mem_of_getElem? hr) s (List.mem_of_getElem? hsl)) p hQ).2

/-- C115, triangles, data over time only: no exception. -/
theorem C115_surface_triangles (m : UGeom.Mesh K) (lo hi : K) (times : List Int)
    (hs : StrictIncr times) (hne : times ≠ []) (data : List (List (Option K)))
    (hdl : data.length = times.length) (hd : ∀ s ∈ data, SliceWithin m lo hi s) (t : Int) (e : Bool)
    (ht : Served times t e) (ds : DepthSys K (UPt K)) (pts : List (UPt K))
    (hpts : ∀ p ∈ pts, InItsTriangle m p) :
    ∃ out, eval (xyU m .node) times ds (.time data) pts t e = .ok out ∧ out.length = pts.length ∧
      ∀ c ∈ out, c.masked = false ∧ ∃ v, c.value = some v ∧ lo ≤ v ∧ v ≤ hi := by
  obtain ⟨i, j, α, ⟨a0, a1, hi', hj', _⟩, hall⟩ := C113_surface (xyU m .node) times hs hne data hdl
    (InItsTriangle m) (fun i p => uValue m ((data[i]?).getD []) p) (by
      intro i s his ps hps
      rw [xyU_value m lo hi s (hd s (List.mem_of_getElem? his)) ps hps]
      simp only [his, Option.getD_some]) t e ht
  refine ⟨_, hall ds pts hpts, by simp, ?_⟩
  intro c hc
  obtain ⟨p, hp, rfl⟩ := List.mem_map.mp hc
  refine ⟨rfl, _, rfl, mix_between a0 a1 ?_ ?_⟩
  · obtain ⟨s, hs'⟩ : ∃ s, data[i]? = some s := ⟨_, List.getElem?_eq_getElem (by omega)⟩
    simp only [hs', Option.getD_some]
    exact (uValue_spec m lo hi s (hd s (List.mem_of_getElem? hs')) p (hpts p hp)).2
  · obtain ⟨s, hs'⟩ : ∃ s, data[j]? = some s := ⟨_, List.getElem?_eq_getElem (by omega)⟩
    simp only [hs', Option.getD_some]
    exact (uValue_spec m lo hi s (hd s (List.mem_of_getElem? hs')) p (hpts p hp)).2

/-- The point was located in a cell of the structured grid, its position in the unit square. -/
def InItsQuad (sqrt : K → K) (g : SInterp.Grid K) (p : SPt K) : Prop :=
  ∃ (i j : Nat) (l m : K), p.cell = some ((i : Int), (j : Int)) ∧ i + 1 < g.lon.length ∧
    (∀ r ∈ g.lon, j + 1 < r.length) ∧ InUnit (l, m) ∧
    SInterp.offset sqrt g p.pos ((i : Int), (j : Int)) = .ok (some (l, m))

/-- An array of node data: as many rows and columns as nodes and the padding before them, or more; all
values between the bounds. -/
def QuadSliceWithin (g : SInterp.Grid K) (lo hi : K) (A : List (List K)) : Prop :=
  ∃ c, Rectangular c A ∧ g.lon.length + lowPads (g.pads .node).1 ≤ A.length ∧
    (∀ r ∈ g.lon, r.length + lowPads (g.pads .node).2 ≤ c) ∧ ∀ r ∈ A, ∀ v ∈ r, lo ≤ v ∧ v ≤ hi

private def sValue (sqrt : K → K) (g : SInterp.Grid K) (A : List (List K)) (p : SPt K) : K :=
  match p.cell with
  | none => 0
  | some ij => match SInterp.nodeValue sqrt g (plain A) p.pos ij with
    | .ok (some x) => x
    | _ => 0

private theorem sValue_spec (sqrt : K → K) (g : SInterp.Grid K) (hk0 : (g.pads .node).1 ≠ .other)
    (hk1 : (g.pads .node).2 ≠ .other) (lo hi : K) (A : List (List K))
    (hA : QuadSliceWithin g lo hi A) (p : SPt K) (hp : InItsQuad sqrt g p) :
    ∃ ij, p.cell = some ij ∧
      SInterp.nodeValue sqrt g (plain A) p.pos ij = .ok (some (sValue sqrt g A p)) ∧
      lo ≤ sValue sqrt g A p ∧ sValue sqrt g A p ≤ hi := by
  obtain ⟨i, j, l, m, hcell, hi1, hj1, hu, ho⟩ := hp
  obtain ⟨c, hc, hlen, hcol, hv⟩ := hA
  have hjc : j + lowPads (g.pads .node).2 + 1 < c := by
    have hmem : g.lon[0]'(by omega) ∈ g.lon := List.getElem_mem _
    have h1 := hj1 _ hmem
    have h2 := hcol _ hmem
    omega
  have hent : ∀ a b : Nat, a < A.length → b < c → ∃ x, entry A a b = some x ∧ lo ≤ x ∧ x ≤ hi := by
    intro a b ha hb
    have hr : A[a] ∈ A := List.getElem_mem ha
    have hb' : b < (A[a]).length := by rw [hc _ hr]; exact hb
    refine ⟨(A[a])[b], ?_, hv _ hr _ (List.getElem_mem hb')⟩
    unfold entry
    rw [List.getElem?_eq_getElem ha]
    exact List.getElem?_eq_getElem hb'
  obtain ⟨v0, e0, b0⟩ := hent (i + lowPads (g.pads .node).1) (j + lowPads (g.pads .node).2)
    (by omega) (by omega)
  obtain ⟨v1, e1, b1⟩ := hent (i + lowPads (g.pads .node).1 + 1) (j + lowPads (g.pads .node).2)
    (by omega) (by omega)
  obtain ⟨v2, e2, b2⟩ := hent (i + lowPads (g.pads .node).1 + 1) (j + lowPads (g.pads .node).2 + 1)
    (by omega) (by omega)
  obtain ⟨v3, e3, b3⟩ := hent (i + lowPads (g.pads .node).1) (j + lowPads (g.pads .node).2 + 1)
    (by omega) (by omega)
  obtain ⟨x, hx, hb⟩ := C46_between sqrt g A c hc p.pos i j l m (v0, v1, v2, v3) ho hu hk0 hk1
    ⟨e0, e1, e2, e3⟩ lo hi b0 b1 b2 b3
  have e : sValue sqrt g A p = x := by
    unfold sValue
    rw [hcell]
    simp only [hx]
  rw [e]
  exact ⟨_, hcell, hx, hb⟩

private theorem xyS_value (sqrt : K → K) (g : SInterp.Grid K) (hk0 : (g.pads .node).1 ≠ .other)
    (hk1 : (g.pads .node).2 ≠ .other) (lo hi : K) (A : List (List K))
    (hA : QuadSliceWithin g lo hi A) (ps : List (SPt K)) (h : ∀ p ∈ ps, InItsQuad sqrt g p) :
    xyS sqrt g (some .node) (plain A) ps =
      .ok (ps.map fun p => { value := some (sValue sqrt g A p), masked := false }) := by
  have hI : SInterp.interpolate sqrt g (some .node) false (plain A)
      (ps.map fun p => (p.pos, p.cell)) = .ok (ps.map fun p => some (sValue sqrt g A p)) := by
    unfold SInterp.interpolate
    split
    · rename_i hall
      rw [List.all_eq_true] at hall
      cases ps with
      | nil => rfl
      | cons p ps =>
        obtain ⟨ij, hc, _⟩ := sValue_spec sqrt g hk0 hk1 lo hi A hA p (h p (by simp))
        have := hall (p.pos, p.cell) (by simp)
        simp [hc] at this
    · simp only [Bool.false_eq_true, if_false]
      have := mapE_ok (f := fun q : (K × K) × Option (Int × Int) => match q.2 with
        | none => .ok none
        | some ij => SInterp.nodeValue sqrt g (plain A) q.1 ij)
        (g := fun q => some (sValue sqrt g A ⟨q.2, q.1, 0⟩))
        (l := ps.map fun p => (p.pos, p.cell)) (by
          intro q hq
          obtain ⟨p, hp, rfl⟩ := List.mem_map.mp hq
          obtain ⟨ij, hc, hv, _⟩ := sValue_spec sqrt g hk0 hk1 lo hi A hA p (h p hp)
          simp only [hc] at hv ⊢
          rw [hv]
          unfold sValue
          rw [hc])
      rw [List.map_map] at this
      exact this
  unfold xyS
  rw [hI]
  simp only [List.map_map]
  rfl

/-- C115, structured grids with data without land. Missing: as above. -/
theorem C115_quads_partial (sqrt : K → K) (g : SInterp.Grid K) (hk0 : (g.pads .node).1 ≠ .other)
    (hk1 : (g.pads .node).2 ≠ .other) (lo hi : K) (times : List Int)
    (hs : StrictIncr times) (hne : times ≠ []) (n : Nat) (hn : 2 ≤ n)
    (data : List (List (List (List K)))) (hdl : data.length = times.length)
    (hdr : ∀ r ∈ data, r.length = n) (hd : ∀ r ∈ data, ∀ A ∈ r, QuadSliceWithin g lo hi A) (t : Int)
    (e : Bool) (ht : Served times t e) (ds : DepthSys K (SPt K)) (hnl : n ≠ ds.numLayers)
    (pts : List (SPt K)) (hpts : ∀ p ∈ pts, InItsQuad sqrt g p) (ents : List (Entry K))
    (ha : ds.alphas pts = .ok ents) (hp : PicksBeforeLast n ents pts) :
    ∃ out, eval (xyS sqrt g (some .node)) times ds (.timeDepth (data.map (List.map plain))) pts t e =
        .ok out ∧ out.length = pts.length ∧
      ∀ c ∈ out, c.masked = false → ∃ v, c.value = some v ∧ lo ≤ v ∧ v ≤ hi := by
  have hserve : ServedBy (xyS sqrt g (some .node)) times n (data.map (List.map plain))
      (InItsQuad sqrt g) (fun i k p => sValue sqrt g (((data[i]?).getD [])[k]?.getD []) p) := by
    refine ⟨by simpa using hdl, ?_, ?_⟩
    · intro r hr
      obtain ⟨r', hr', rfl⟩ := List.mem_map.mp hr
      simpa using hdr r' hr'
    · intro i k r s hr hk ps hps
      rw [List.getElem?_map] at hr
      obtain ⟨r', hr', rfl⟩ := Option.map_eq_some_iff.mp hr
      rw [List.getElem?_map] at hk
      obtain ⟨A, hA, rfl⟩ := Option.map_eq_some_iff.mp hk
      rw [xyS_value sqrt g hk0 hk1 lo hi A
        (hd r' (List.mem_of_getElem? hr') A (List.mem_of_getElem? hA)) ps hps]
      simp only [hr', hA, Option.getD_some]
  refine range_levels (xyS sqrt g (some .node)) times hs hne n hn _ (InItsQuad sqrt g) _ hserve lo hi
    ?_ t e ht ds pts ents hpts hnl ha hp
  intro i k p hQ hi' hk
  obtain ⟨r, hr⟩ : ∃ r, data[i]? = some r := ⟨_, List.getElem?_eq_getElem (by omega)⟩
  have hrl := hdr r (List.mem_of_getElem? hr)
  obtain ⟨A, hA⟩ : ∃ s, r[k]? = some s := ⟨_, List.getElem?_eq_getElem (by omega)⟩
  simp only [hr, hA, Option.getD_some]
  obtain ⟨_, _, _, h⟩ := sValue_spec sqrt g hk0 hk1 lo hi A
    (hd r (List.mem_of_getElem? hr) A (List.mem_of_getElem? hA)) p hQ
  exact h

/-- C115 in full: for level depths every result is a number between the bounds or masked, at whatever
depth the points are. -/
def C115_statement : Prop :=
  ∀ (m : UGeom.Mesh ℚ) (lo hi : ℚ) (times : List Int) (levels : List ℚ)
    (data : List (List (List (Option ℚ)))) (sbc bbc : BC) (t : Int) (e : Bool) (pts : List (UPt ℚ))
    (out : List (Cell ℚ)), StrictIncr times → times ≠ [] → StrictIncr levels → 2 ≤ levels.length →
    data.length = times.length → (∀ r ∈ data, r.length = levels.length) →
    (∀ r ∈ data, ∀ s ∈ r, SliceWithin m lo hi s) → Served times t e →
    (∀ p ∈ pts, InItsTriangle m p) →
    eval (xyU m .node) times (levelSys UPt.z levels sbc bbc) (.timeDepth data) pts t e = .ok out →
    ∀ c ∈ out, c.masked = false → ∃ v, c.value = some v ∧ lo ≤ v ∧ v ≤ hi

theorem oneTriangle_in (z : ℚ) : InItsTriangle oneTriangle ⟨0, (1, 1), z⟩ :=
  ⟨by show (0 : Int) ≠ -1; decide, 0, 1, 2, (0, 0), (4, 0), (0, 4), rfl, rfl, rfl, rfl,
    Or.inl (by unfold TurnsLeft; norm_num), 1 / 2, 1 / 4, 1 / 4, by norm_num, by norm_num,
    by norm_num, by unfold Weighted; norm_num⟩

/-- C115 fails: a point below the bottom level, asked together with one above it, is NaN and not
masked although extrapolation at the bottom is on. -/
theorem C115_refuted : ¬ C115_statement := by
  intro h
  obtain ⟨v, hv, _⟩ := h oneTriangle 1 3 [0] [0, 10]
    [[[some 1, some 2, some 3], [some 1, some 2, some 3]]] .extrapolate .extrapolate 0 false
    [⟨0, (1, 1), 5⟩, ⟨0, (1, 1), 20⟩] [⟨some (7 / 4), false⟩, ⟨none, false⟩]
    (by unfold StrictIncr; decide) (by simp) (by unfold StrictIncr; decide +kernel) (by decide) rfl
    (by simp) (by
      intro r hr s hs
      simp only [List.mem_cons, List.not_mem_nil, or_false] at hr
      subst hr
      simp only [List.mem_cons, List.not_mem_nil, or_false, or_self] at hs
      subst hs
      refine ⟨rfl, ?_⟩
      intro v hv
      simp only [List.mem_cons, List.not_mem_nil, or_false] at hv
      rcases hv with rfl | rfl | rfl
      · exact ⟨1, rfl, by norm_num⟩
      · exact ⟨2, rfl, by norm_num⟩
      · exact ⟨3, rfl, by norm_num⟩) (Or.inr (Or.inl rfl)) (by
      intro p hp
      simp only [List.mem_cons, List.not_mem_nil, or_false] at hp
      rcases hp with rfl | rfl
      · exact oneTriangle_in 5
      · exact oneTriangle_in 20) (by decide +kernel) ⟨none, false⟩ (by simp) rfl
  cases hv

/-- The hypotheses hold for data that are not linear, at two depths, one of them above the levels. -/
example : eval (xyU oneTriangle .node) [0, 8] (levelSys UPt.z [1, 3, 10] .extrapolate .mask)
    (.timeDepth [[[some 1, some 2, some 9], [some 1, some 5, some 3], [some 4, some 4, some 4]],
      [[some 9, some 2, some 1], [some 7, some 2, some 3], [some 4, some 6, some 4]]])
    [⟨0, (1, 1), 2⟩, ⟨0, (1, 1), 0⟩] 6 false = .ok [⟨some (143 / 32), false⟩, ⟨some (19 / 4), false⟩] ∧
    PicksBeforeLast 3 [(⟨0, some (1 / 2), false⟩ : Entry ℚ), ⟨-1, some 1, false⟩]
      [(⟨0, (1, 1), 2⟩ : UPt ℚ), ⟨0, (1, 1), 0⟩] ∧
    (levelSys UPt.z [1, 3, 10] .extrapolate .mask).alphas
      [(⟨0, (1, 1), 2⟩ : UPt ℚ), ⟨0, (1, 1), 0⟩] =
      .ok [(⟨0, some (1 / 2), false⟩ : Entry ℚ), ⟨-1, some 1, false⟩] := by
  refine ⟨by decide +kernel, ⟨rfl, ?_⟩, by decide +kernel⟩
  intro e he _
  simp only [List.mem_cons, List.not_mem_nil, or_false] at he
  rcases he with rfl | rfl
  · exact ⟨by decide, 1 / 2, rfl, by norm_num, by norm_num, Or.inl (by norm_num)⟩
  · exact ⟨by decide, 1, rfl, by norm_num, by norm_num, Or.inr (Or.inl (by norm_num))⟩

end C115

/-! ## C116 -/

section C116
variable {K P σ : Type} [Field K] [LinearOrder K] [IsStrictOrderedRing K]

omit [LinearOrder K] [IsStrictOrderedRing K] in
private theorem levelMix_unique {m : Nat} {c : Nat → K} {i : Int} {α v w : K} (hm : 2 ≤ m)
    (hv : LevelMix m c i α v) (hw : LevelMix m c i α w) : v = w := by
  rcases hv with ⟨j, h1, h2, rfl⟩ | ⟨h1, _, rfl⟩ | ⟨h1, _, rfl⟩ <;>
    rcases hw with ⟨j', g1, g2, rfl⟩ | ⟨g1, _, rfl⟩ | ⟨g1, _, rfl⟩
  · obtain rfl : j = j' := by omega
    rfl
  all_goals first | rfl | omega

/-- The two results agree: both masked, or the same value (or NaN). -/
def Agree (c c' : Cell K) : Prop := c.masked = c'.masked ∧ (c.masked = false → c.value = c'.value)

/-- C116, level depths: asked for some of the points, in any order and any number of times, a variable
gives for each of them what it gives when asked for all. Missing: queries with a point beyond the level
listed last. -/
theorem C116_levels_partial (xy : σ → List P → Except Err (List (Cell K))) (times : List Int)
    (hs : StrictIncr times) (hne : times ≠ []) (z : P → K) (levels : List K) (hm : 2 ≤ levels.length)
    (sbc bbc : BC) (data : List (List σ)) (Q : P → Prop) (g : Nat → Nat → P → K)
    (h : ServedBy xy times levels.length data Q g) (t : Int) (e : Bool) (ht : Served times t e)
    (pts : List P) (hQ : ∀ p ∈ pts, Q p) (ents : List (Entry K))
    (ha : (levelSys z levels sbc bbc).alphas pts = .ok ents)
    (hp : PicksBeforeLast levels.length ents pts) (pts' : List P) (hsub : ∀ p ∈ pts', p ∈ pts) :
    ∃ out out', eval xy times (levelSys z levels sbc bbc) (.timeDepth data) pts t e = .ok out ∧
      eval xy times (levelSys z levels sbc bbc) (.timeDepth data) pts' t e = .ok out' ∧
      out.length = pts.length ∧ out'.length = pts'.length ∧
      ∀ (n n' : Nat) (p : P), pts[n]? = some p → pts'[n']? = some p →
        ∃ c c', out[n]? = some c ∧ out'[n']? = some c' ∧ Agree c c' := by
  obtain ⟨F, rfl, hF⟩ := levelAlphas_pointwise (fun x : K => x) levels (some levels.length) sbc bbc
    (pts.map z) ents ha
  have ha' := hF (pts'.map z) (by
    intro d hd
    obtain ⟨p, hp', rfl⟩ := List.mem_map.mp hd
    exact List.mem_map.mpr ⟨p, hsub p hp', rfl⟩)
  have hp' : PicksBeforeLast levels.length ((pts'.map z).map F) pts' := by
    refine ⟨by simp, ?_⟩
    intro ent he hu
    obtain ⟨d, hd, rfl⟩ := List.mem_map.mp he
    obtain ⟨p, hpp, rfl⟩ := List.mem_map.mp hd
    exact hp.2 _ (List.mem_map.mpr ⟨_, List.mem_map.mpr ⟨p, hsub p hpp, rfl⟩, rfl⟩) hu
  have hnl : levels.length ≠ (levelSys z levels sbc bbc).numLayers := by
    simp only [levelSys]; omega
  obtain ⟨i, j, α, _, hall⟩ := C113_levels_partial xy times hs hne levels.length hm data Q g h t e ht
  obtain ⟨out, ho, hol, hr⟩ := hall _ pts _ hQ hnl ha hp
  obtain ⟨out', ho', hol', hr'⟩ := hall _ pts' _ (fun p hp => hQ p (hsub p hp)) hnl ha' hp'
  refine ⟨out, out', ho, ho', hol, hol', ?_⟩
  intro n n' p hn hn'
  have he : ((pts.map z).map F)[n]? = some (F (z p)) := by simp [hn]
  have he' : ((pts'.map z).map F)[n']? = some (F (z p)) := by simp [hn']
  obtain ⟨c, hc, hcm, hcv⟩ := hr n p _ hn he
  obtain ⟨c', hc', hcm', hcv'⟩ := hr' n' p _ hn' he'
  refine ⟨c, c', hc, hc', by rw [hcm, hcm'], fun hu => ?_⟩
  obtain ⟨β, v, w, b1, b2, b3, b4⟩ := hcv (by rw [← hcm, hu])
  obtain ⟨β', v', w', b1', b2', b3', b4'⟩ := hcv' (by rw [← hcm, hu])
  rw [b1] at b1'; cases b1'
  rw [b4, b4', levelMix_unique hm b2 b2', levelMix_unique hm b3 b3']

/-- C116, data over time only: no exception. -/
theorem C116_surface (xy : σ → List P → Except Err (List (Cell K))) (times : List Int)
    (hs : StrictIncr times) (hne : times ≠ []) (data : List σ) (hlen : data.length = times.length)
    (Q : P → Prop) (g : Nat → P → K)
    (hxy : ∀ (i : Nat) (s : σ), data[i]? = some s → ∀ ps : List P, (∀ p ∈ ps, Q p) →
      xy s ps = .ok (ps.map fun p => { value := some (g i p), masked := false }))
    (t : Int) (e : Bool) (ht : Served times t e) (ds : DepthSys K P) :
    ∃ F : P → Cell K, ∀ pts : List P, (∀ p ∈ pts, Q p) →
      eval xy times ds (.time data) pts t e = .ok (pts.map F) := by
  obtain ⟨i, j, α, _, hall⟩ := C113_surface xy times hs hne data hlen Q g hxy t e ht
  exact ⟨_, fun pts hp => hall ds pts hp⟩

/-- C116 in full: whenever both queries succeed, the results for the same point agree. -/
def C116_statement : Prop :=
  ∀ (m : UGeom.Mesh ℚ) (times : List Int) (levels : List ℚ) (data : List (List (List (Option ℚ))))
    (sbc bbc : BC) (t : Int) (e : Bool) (pts : List (UPt ℚ)) (p : UPt ℚ) (out : List (Cell ℚ))
    (c : Cell ℚ), StrictIncr times → StrictIncr levels → 2 ≤ levels.length → Served times t e →
    data.length = times.length → (∀ r ∈ data, r.length = levels.length) →
    (∀ r ∈ data, ∀ s ∈ r, s.length = m.nodes.length) → (∀ p ∈ pts, OnTriangle m p) →
    eval (xyU m .node) times (levelSys UPt.z levels sbc bbc) (.timeDepth data) pts t e = .ok out →
    eval (xyU m .node) times (levelSys UPt.z levels sbc bbc) (.timeDepth data) [p] t e = .ok [c] →
    ∀ (n : Nat) (c' : Cell ℚ), pts[n]? = some p → out[n]? = some c' → Agree c' c

/-- C116 fails: a point between the levels has the value 2 when asked alone, and the value 3 of the
bottom level when a point below the bottom is asked with it. -/
theorem C116_refuted : ¬ C116_statement := by
  intro h
  have := h oneTriangle [0] [0, 10] [[[some 1, some 1, some 1], [some 3, some 3, some 3]]] .extrapolate
    .extrapolate 0 false [⟨0, (1, 1), 5⟩, ⟨0, (1, 1), 20⟩] ⟨0, (1, 1), 5⟩
    [⟨some 3, false⟩, ⟨none, false⟩] ⟨some 2, false⟩ (by unfold StrictIncr; decide)
    (by unfold StrictIncr; decide +kernel) (by decide) (Or.inr (Or.inl rfl)) rfl (by simp)
    (by simp [oneTriangle]) (by
      intro p hp
      simp only [List.mem_cons, List.not_mem_nil, or_false] at hp
      rcases hp with rfl | rfl
      · exact oneTriangle_on _ _ _
      · exact oneTriangle_on _ _ _) (by decide +kernel) (by decide +kernel) 0 ⟨some 3, false⟩ rfl rfl
  revert this
  unfold Agree
  decide +kernel

end C116

/-! ## C117 -/

section C117
variable {K P σ : Type} [Field K] [LinearOrder K] [IsStrictOrderedRing K]

/-- The nearest time of the axis' span. -/
def nearest (lo hi t : Int) : Int := max lo (min hi t)

omit [LinearOrder K] [IsStrictOrderedRing K] in
private theorem stage_clamp [DecidableEq K] (times : List Int) (lo hi : Int)
    (h0 : times.head? = some lo) (h1 : times.getLast? = some hi) (hlt : lo < hi)
    (val : Int → Except Err (List (Cell K))) (t : Int) :
    timeStage times val t true = timeStage times val (nearest lo hi t) false := by
  have g0 : minTime times = .ok lo := by
    unfold minTime
    rw [List.head?_eq_getElem?] at h0
    exact Np.pyGet_nonneg (i := 0) h0
  have g1 : maxTime times = .ok hi := by
    unfold maxTime
    exact Np.pyGet_neg_one h1
  unfold timeStage
  simp only [g0, g1, true_and, Bool.false_eq_true, false_and, or_false]
  rcases lt_trichotomy t lo with h | h | h
  · have e : nearest lo hi t = lo := by unfold nearest; omega
    rw [e]
    simp [h]
  · subst h
    have e : nearest t hi t = t := by unfold nearest; omega
    rw [e]
    simp
  · rcases lt_trichotomy t hi with h' | h' | h'
    · have e : nearest lo hi t = t := by unfold nearest; omega
      rw [e]
      have n1 : ¬ (t = lo ∨ t < lo) := by omega
      have n2 : ¬ (t = hi ∨ hi < t) := by omega
      have n3 : ¬ t = lo := by omega
      have n4 : ¬ t = hi := by omega
      rw [if_neg n1, if_neg n2, if_neg n3, if_neg n4]
      have hv : validTime times t = .ok () := by
        unfold validTime timeInBounds
        simp only [g0, g1]
        have m1 : ¬ t < lo := by omega
        have m2 : ¬ t > hi := by omega
        simp [m1, m2]
      have hidx : indexOf times t true = indexOf times t false := by
        unfold indexOf
        simp only [hv, ite_self]
      have ha : interpAlpha (fun x : K => x) times t true =
          interpAlpha (fun x : K => x) times t false := by
        unfold interpAlpha
        simp only [hv, hidx, ite_self]
      rw [ha]
    · subst h'
      have e : nearest lo t t = t := by unfold nearest; omega
      rw [e]
      have n1 : ¬ (t = lo ∨ t < lo) := by omega
      have n2 : ¬ t = lo := by omega
      rw [if_neg n1, if_neg n2, if_pos (Or.inl rfl), if_pos rfl]
    · have e : nearest lo hi t = hi := by unfold nearest; omega
      rw [e]
      have n1 : ¬ (t = lo ∨ t < lo) := by omega
      have n2 : ¬ hi = lo := by omega
      rw [if_neg n1, if_neg n2, if_pos (Or.inr h'), if_pos rfl]

/-- C117. With extrapolation on, a query at any time gives what the query at the nearest time of the
axis gives with extrapolation off: values, masks and exceptions, for every kind of data, grid and
depth object. -/
theorem C117_clamps (xy : σ → List P → Except Err (List (Cell K))) (times : List Int) (lo hi : Int)
    (h0 : times.head? = some lo) (h1 : times.getLast? = some hi) (hlt : lo < hi) (ds : DepthSys K P)
    (d : Data σ) (pts : List P) (t : Int) :
    eval xy times ds d pts t true = eval xy times ds d pts (nearest lo hi t) false := by
  unfold eval
  cases d with
  | timeDepth d => exact stage_clamp times lo hi h0 h1 hlt _ t
  | time d => exact stage_clamp times lo hi h0 h1 hlt _ t
  | depth d => rfl
  | flat s => rfl

/-- So at times on the axis the flag makes no difference. -/
theorem C117_neutral (xy : σ → List P → Except Err (List (Cell K))) (times : List Int) (lo hi : Int)
    (h0 : times.head? = some lo) (h1 : times.getLast? = some hi) (hlt : lo < hi) (ds : DepthSys K P)
    (d : Data σ) (pts : List P) (t : Int) (hl : lo ≤ t) (hh : t ≤ hi) (e e' : Bool) :
    eval xy times ds d pts t e = eval xy times ds d pts t e' := by
  have hn : nearest lo hi t = t := by unfold nearest; omega
  have h := C117_clamps xy times lo hi h0 h1 hlt ds d pts t
  rw [hn] at h
  cases e <;> cases e' <;> first | rfl | exact h | exact h.symm

/-- With one time on the axis, neither the time asked for nor the flag makes a difference. -/
theorem C117_one_time (xy : σ → List P → Except Err (List (Cell K))) (x : Int) (ds : DepthSys K P)
    (s : σ) (r : List σ) (pts : List P) (t : Int) (e : Bool) :
    eval xy [x] ds (.time [s]) pts t e = xy s pts ∧
      eval xy [x] ds (.timeDepth [r]) pts t e = eval xy [x] ds (.depth r) pts t e := by
  have key : ∀ val : Int → Except Err (List (Cell K)), val (-1) = val 0 →
      timeStage [x] val t e = val 0 := by
    intro val hv
    have g0 : minTime [x] = .ok x := rfl
    have g1 : maxTime [x] = .ok x := rfl
    unfold timeStage
    simp only [g0, g1, hv]
    split
    · rfl
    · split
      · rfl
      · have hi : indexOf [x] t false = .ok 0 := rfl
        have ha : interpAlpha (fun x : K => x) [x] t e = .ok 0 := by cases e <;> rfl
        simp only [hi, ha]
        rw [show (((0 : Nat) : Int) - 1) = -1 by rfl, hv]
        cases hz : val 0 with
        | error er => simp [hz]
        | ok vs =>
          simp only [Nat.cast_zero, hz]
          congr 1
          have hc : ∀ c : Cell K, mixCell c c (some 0) = c := by
            rintro ⟨v, m⟩
            cases v <;> simp [mixCell]
          clear hz
          induction vs with
          | nil => rfl
          | cons c vs ih => simp only [List.zipWith_cons_cons, hc, ih]
  constructor
  · unfold eval
    exact key _ rfl
  · unfold eval
    exact key _ rfl

/-- On a triangle with three times: far after the last time and at the last time. -/
example : eval (xyU oneTriangle .node) [0, 8, 9] (levelSys UPt.z [1, 3] .mask .mask)
    (.time [[some 1, some 2, some 9], [some 1, some 5, some 3], [some 4, some 6, some 4]])
    [⟨0, (1, 1), 2⟩] 100 true = .ok [⟨some (9 / 2), false⟩] ∧ nearest 0 9 100 = 9 ∧
    eval (xyU oneTriangle .node) [0, 8, 9] (levelSys UPt.z [1, 3] .mask .mask)
    (.time [[some 1, some 2, some 9], [some 1, some 5, some 3], [some 4, some 6, some 4]])
    [⟨0, (1, 1), 2⟩] 100 false = .error .outOfTimeRange := by
  decide +kernel

end C117

end Verif
