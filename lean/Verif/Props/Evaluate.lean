import Verif.Lemmas.Evaluate
import Verif.Props.At

/-!
# C197–C199: which dimensions a variable is evaluated along
-/

set_option autoImplicit false

namespace Verif
open Verif.At Verif.DepthM Verif.Spec Verif.TimeM
open Verif.Evaluate (Variable Lead Rest DepthObj ofFile at')

namespace EvalSpec

/-- The data have the horizontal dimensions of the grid, and no order of dimensions was assigned. -/
def Plain {K P σ : Type} (v : Variable K P σ) : Prop :=
  v.order = none ∧ v.horiz.length = if v.structured then 2 else 1

/-- A horizontal stage for the examples: a slice is one number, the value everywhere. -/
def same (r : Rest ℚ) (ps : List ℚ) : Except Err (List (Cell ℚ)) :=
  match r with
  | .slice s => .ok (ps.map fun _ => { value := some s, masked := false })
  | .other => .error .valueError

/-- Levels at depths 0, 10 and 20; a point is its depth. -/
def levels : DepthSys ℚ ℚ := levelSys id [0, 10, 20] .extrapolate .extrapolate

end EvalSpec

open EvalSpec

section
variable {K P σ : Type} [Field K] [LinearOrder K]

theorem plain_two {v : Variable K P σ} (h : Plain v) {d : List (List σ)} (hd : v.data = .two d) :
    ∃ x rest, x ≠ "time" ∧ v.ordering = .ok ("time" :: "depth" :: x :: rest) := by
  obtain ⟨s, ti, de, da, ho, o⟩ := v
  obtain ⟨h1, h2⟩ := h
  dsimp only at h1 h2 hd
  subst h1 hd
  cases s <;> simp only [Bool.false_eq_true, if_false, if_true] at h2
  · exact ⟨"ele", [], by decide, by simp [Variable.ordering, Var.generate, Lead.shape, h2]⟩
  · exact ⟨"lon", ["lat"], by decide, by simp [Variable.ordering, Var.generate, Lead.shape, h2]⟩

theorem plain_time {v : Variable K P σ} (h : Plain v) {d : List σ} (hd : v.data = .one d)
    {times : List Int} (ht : v.time = some times) :
    ∃ x rest, x ≠ "depth" ∧ v.ordering = .ok ("time" :: x :: rest) := by
  obtain ⟨s, ti, de, da, ho, o⟩ := v
  obtain ⟨h1, h2⟩ := h
  dsimp only at h1 h2 hd ht
  subst h1 hd ht
  cases s <;> simp only [Bool.false_eq_true, if_false, if_true] at h2
  · exact ⟨"ele", [], by decide, by simp [Variable.ordering, Var.generate, Lead.shape, h2]⟩
  · exact ⟨"lon", ["lat"], by decide, by simp [Variable.ordering, Var.generate, Lead.shape, h2]⟩

theorem plain_depth {v : Variable K P σ} (h : Plain v) {d : List σ} (hd : v.data = .one d)
    (ht : v.time = none) (hs : v.depth ≠ .absent) :
    ∃ x rest, x ≠ "time" ∧ v.ordering = .ok ("depth" :: x :: rest) := by
  obtain ⟨s, ti, de, da, ho, o⟩ := v
  obtain ⟨h1, h2⟩ := h
  dsimp only at h1 h2 hd ht hs
  subst h1 hd ht
  have h3 : de.isSome = true := by cases de <;> simp_all [DepthObj.isSome]
  cases s <;> simp only [Bool.false_eq_true, if_false, if_true] at h2
  · exact ⟨"ele", [], by decide, by simp [Variable.ordering, Var.generate, Lead.shape, h2, h3]⟩
  · exact ⟨"lon", ["lat"], by decide, by simp [Variable.ordering, Var.generate, Lead.shape, h2, h3]⟩

theorem plain_flat {v : Variable K P σ} (h : Plain v) {s : σ} (hd : v.data = .zero s) :
    ∃ x rest, x ≠ "time" ∧ x ≠ "depth" ∧ v.ordering = .ok (x :: rest) := by
  obtain ⟨s, ti, de, da, ho, o⟩ := v
  obtain ⟨h1, h2⟩ := h
  dsimp only at h1 h2 hd
  subst h1 hd
  cases s <;> simp only [Bool.false_eq_true, if_false, if_true] at h2
  · exact ⟨"ele", [], by decide, by decide,
      by simp [Variable.ordering, Var.generate, Lead.shape, h2]⟩
  · exact ⟨"lon", ["lat"], by decide, by decide,
      by simp [Variable.ordering, Var.generate, Lead.shape, h2]⟩

end

/-! ## C197 -/

section C197
variable {K P σ : Type} [Field K] [LinearOrder K] [IsStrictOrderedRing K]
  (xy : Rest σ → List P → Except Err (List (Cell K))) (limit : Nat)

/-- Data over time and depth of a variable with both axes: between two times and, for each point,
between the levels of its depth. -/
theorem C197_time_depth (v : Variable K P σ) (hv : Plain v) (data : List (List σ))
    (hd : v.data = .two data) (times : List Int) (htm : v.time = some times) (ds : DepthSys K P)
    (hds : v.depth = .sys ds) (hs : StrictIncr times) (hne : times ≠ []) (m : Nat) (hm : 2 ≤ m)
    (Q : P → Prop) (g : Nat → Nat → P → K)
    (h : ServedBy (fun s ps => xy (.slice s) ps) times m data Q g) (t : Int) (e : Bool)
    (ht : Served times t e) :
    ∃ (i j : Nat) (α : K), TimeWeights times t e i j α ∧
      ∀ (pts : List P) (ents : List (Entry K)), (∀ p ∈ pts, Q p) →
        m ≠ ds.numLayers → ds.alphas pts = .ok ents → PicksBeforeLast m ents pts →
        ∃ out, at' v xy (limit + 3) pts t e = .ok out ∧ out.length = pts.length ∧
          ∀ (n : Nat) (p : P) (ent : Entry K), pts[n]? = some p → ents[n]? = some ent →
            ∃ c, out[n]? = some c ∧ c.masked = ent.masked ∧ (ent.masked = false → ∃ β v w,
              ent.alpha = some β ∧ LevelMix m (fun k => g i k p) ent.idx β v ∧
              LevelMix m (fun k => g j k p) ent.idx β w ∧
              c.value = some ((1 - α) * v + α * w)) := by
  obtain ⟨x, rest, hx, ho⟩ := plain_two hv hd
  obtain ⟨i, j, α, hw, hr⟩ := C113_levels_partial (fun s ps => xy (.slice s) ps) times hs hne m hm
    data Q g h t e ht
  refine ⟨i, j, α, hw, fun pts ents h1 h2 h3 h4 => ?_⟩
  rw [Evaluate.at_time_depth v xy limit pts t e ho hx hd htm hds]
  exact hr ds pts ents h1 h2 h3 h4

/-- Data over time of a variable with a time axis: between two times, whatever depth the variable
has. -/
theorem C197_time (v : Variable K P σ) (hv : Plain v) (data : List σ) (hd : v.data = .one data)
    (times : List Int) (htm : v.time = some times) (hs : StrictIncr times) (hne : times ≠ [])
    (hlen : data.length = times.length) (Q : P → Prop) (g : Nat → P → K)
    (hxy : ∀ (i : Nat) (s : σ), data[i]? = some s → ∀ ps : List P, (∀ p ∈ ps, Q p) →
      xy (.slice s) ps = .ok (ps.map fun p => { value := some (g i p), masked := false }))
    (t : Int) (e : Bool) (ht : Served times t e) :
    ∃ (i j : Nat) (α : K), TimeWeights times t e i j α ∧
      ∀ pts : List P, (∀ p ∈ pts, Q p) →
        at' v xy (limit + 2) pts t e = .ok (pts.map fun p =>
          { value := some ((1 - α) * g i p + α * g j p), masked := false }) := by
  obtain ⟨x, rest, hx, ho⟩ := plain_time hv hd htm
  obtain ⟨i, j, α, hw, hr⟩ := C113_surface (fun s ps => xy (.slice s) ps) times hs hne data hlen Q g
    hxy t e ht
  refine ⟨i, j, α, hw, fun pts h1 => ?_⟩
  rw [Evaluate.at_time v xy limit pts t e ⟨0, fun _ => .ok []⟩ ho hx hd htm]
  exact hr _ pts h1

/-- Data over depth of a variable without a time axis: for each point between the levels of its
depth, at any time asked for. -/
theorem C197_depth (v : Variable K P σ) (hv : Plain v) (data : List σ) (hd : v.data = .one data)
    (htm : v.time = none) (ds : DepthSys K P) (hds : v.depth = .sys ds) (hm : 2 ≤ data.length)
    (Q : P → Prop) (g : Nat → P → K)
    (hxy : ∀ (k : Nat) (s : σ), data[k]? = some s → ∀ ps : List P, (∀ p ∈ ps, Q p) →
      xy (.slice s) ps = .ok (ps.map fun p => { value := some (g k p), masked := false }))
    (t : Int) (e : Bool) (pts : List P) (ents : List (Entry K)) (hpts : ∀ p ∈ pts, Q p)
    (hnl : data.length ≠ ds.numLayers) (ha : ds.alphas pts = .ok ents)
    (hp : PicksBeforeLast data.length ents pts) :
    ∃ out, at' v xy (limit + 2) pts t e = .ok out ∧ out.length = pts.length ∧
      ∀ (n : Nat) (p : P) (ent : Entry K), pts[n]? = some p → ents[n]? = some ent →
        ∃ c, out[n]? = some c ∧ c.masked = ent.masked ∧ (ent.masked = false → ∃ β v,
          ent.alpha = some β ∧ c.value = some v ∧
          LevelMix data.length (fun k => g k p) ent.idx β v) := by
  obtain ⟨x, rest, hx, ho⟩ := plain_depth hv hd htm (by rw [hds]; exact nofun)
  rw [Evaluate.at_depth v xy limit pts t e [] ho hx hd hds]
  exact C113_still_levels_partial (fun s ps => xy (.slice s) ps) [] data hm Q g hxy t e ds pts ents
    hpts hnl ha hp

/-- Data over neither: the horizontal interpolation alone, whatever axes the variable has and
whatever the time. -/
theorem C197_flat (v : Variable K P σ) (hv : Plain v) (s : σ) (hd : v.data = .zero s) (pts : List P)
    (t : Int) (e : Bool) : at' v xy (limit + 1) pts t e = xy (.slice s) pts := by
  obtain ⟨x, rest, hx, hx', ho⟩ := plain_flat hv hd
  exact Evaluate.at_flat v xy limit pts t e ho hx hx' hd

/-- Data with a dimension and a variable without the axis for it give no values. -/
theorem C197_no_axis (v : Variable K P σ) (hv : Plain v) (pts : List P) (t : Int) (e : Bool)
    (h : (∃ d, v.data = .two d ∧ v.time = none) ∨
      (∃ d, v.data = .one d ∧ v.time = none ∧ v.depth = .absent)) (out : List (Cell K)) :
    at' v xy limit pts t e ≠ .ok out := by
  rcases h with ⟨d, hd, ht⟩ | ⟨d, hd, ht, hs⟩
  · obtain ⟨x, rest, hx, ho⟩ := plain_two hv hd
    simp only [at', ho, List.getElem?_cons_zero, if_true]
    cases limit with
    | zero => exact nofun
    | succ n =>
      simp only [Evaluate.stage, ht]
      split <;> exact nofun
  · obtain ⟨s, ti, de, da, ho, o⟩ := v
    obtain ⟨h1, h2⟩ := hv
    dsimp only at h1 h2 hd ht hs
    subst h1 hd ht hs
    cases s <;> simp only [Bool.false_eq_true, if_false, if_true] at h2 <;>
      simp [at', Variable.ordering, Var.generate, Lead.shape, h2, DepthObj.isSome]

end C197

/-- A variable with two times and three levels, asked halfway in time and depth. -/
example :
    let v : Variable ℚ ℚ ℚ := { structured := false, time := some [0, 10], depth := .sys levels,
                                data := .two [[0, 100, 200], [1000, 1100, 1200]], horiz := [4],
                                order := none }
    Plain v ∧ at' v same 3 [5, 12] 5 false
      = .ok [⟨some 550, false⟩, ⟨some 620, false⟩] := by
  refine ⟨⟨rfl, rfl⟩, by decide +kernel⟩

example :
    let v : Variable ℚ ℚ ℚ := { structured := true, time := none, depth := .sys levels,
                                data := .one [0, 100, 200], horiz := [4, 4], order := none }
    Plain v ∧ levels.alphas [5, 12] = .ok [⟨0, some (1 / 2), false⟩, ⟨1, some (1 / 5), false⟩] ∧
      at' v same 3 [5, 12] 5 false = .ok [⟨some 50, false⟩, ⟨some 120, false⟩] := by
  refine ⟨⟨rfl, rfl⟩, by decide +kernel, by decide +kernel⟩

/-! ## C62 for arrays -/

section C62
variable {K P σ : Type} [Field K] [LinearOrder K] [IsStrictOrderedRing K]

/-- Data over depth and then time, whose order of dimensions says so: strictly between the first and
the last time each point gets the value between its levels, of which each has the value between the
two times. Missing: the first and the last time and beyond (`C62_refuted`). -/
theorem C62_arrays_partial (xy : Rest σ → List P → Except Err (List (Cell K))) (limit : Nat)
    (v : Variable K P σ) (x : String) (rest : List String) (hx : x ≠ "depth")
    (hv : v.order = some ("depth" :: "time" :: x :: rest)) (rows : List (List σ))
    (hd : v.data = .two rows) (times : List Int) (htm : v.time = some times) (ds : DepthSys K P)
    (hds : v.depth = .sys ds) (hs : StrictIncr times) (lo hi : Int) (h0 : times.head? = some lo)
    (h1 : times.getLast? = some hi) (hm : 2 ≤ rows.length)
    (hlen : ∀ r ∈ rows, r.length = times.length) (Q : P → Prop) (g : Nat → Nat → P → K)
    (h : ∀ (k i : Nat) (r : List σ) (s : σ), rows[k]? = some r → r[i]? = some s →
      ∀ ps : List P, (∀ p ∈ ps, Q p) →
        xy (.slice s) ps = .ok (ps.map fun p => { value := some (g k i p), masked := false }))
    (t : Int) (e : Bool) (hlo : lo < t) (hhi : t < hi) :
    ∃ (i j : Nat) (α : K), TimeWeights times t e i j α ∧
      ∀ (pts : List P) (ents : List (Entry K)), (∀ p ∈ pts, Q p) →
        rows.length ≠ ds.numLayers → ds.alphas pts = .ok ents →
        PicksBeforeLast rows.length ents pts →
        ∃ out, at' v xy (limit + 3) pts t e = .ok out ∧ out.length = pts.length ∧
          ∀ (n : Nat) (p : P) (ent : Entry K), pts[n]? = some p → ents[n]? = some ent →
            ∃ c, out[n]? = some c ∧ c.masked = ent.masked ∧ (ent.masked = false → ∃ β w,
              ent.alpha = some β ∧ c.value = some w ∧
              LevelMix rows.length (fun k => (1 - α) * g k i p + α * g k j p) ent.idx β w) := by
  have hne : times ≠ [] := by rintro rfl; cases h0
  have ho : v.ordering = .ok ("depth" :: "time" :: x :: rest) := by
    simp only [Variable.ordering, hv]
  obtain ⟨i, j, α, hw, hcase⟩ := timeStage_cases (K := K) hs hne t e
    (Or.inr (Or.inr ⟨lo, hi, h0, h1, by omega, by omega⟩))
  refine ⟨i, j, α, hw, fun pts ents hpts hnl ha hp => ?_⟩
  rw [Evaluate.at_depth_time v xy limit pts t e ho hx hd htm hds]
  refine depth_levels hm ds hnl ha hp (g := fun k p => (1 - α) * g k i p + α * g k j p) ?_
  intro k hk1 hk2 ps hps
  beta_reduce
  rw [Evaluate.timeBody_inner _ _ e h0 h1 hlo hhi]
  obtain ⟨n, hn, hkn⟩ : ∃ n : Nat, n = (if k = -1 then rows.length - 1 else k.toNat) ∧
      n < rows.length := by
    refine ⟨_, rfl, ?_⟩
    split <;> omega
  have hrn : rows[n]? = some rows[n] := List.getElem?_eq_getElem hkn
  have hrl := hlen _ (List.getElem_mem hkn)
  generalize rows[n] = row at hrn hrl
  have hrow : Np.pyGet rows k = .ok row := by
    by_cases hk : k = -1
    · subst hk
      rw [if_pos rfl] at hn
      subst hn
      apply Np.pyGet_neg_one
      rw [List.getLast?_eq_getElem?]
      exact hrn
    · rw [if_neg hk] at hn
      have := Np.pyGet_nonneg hrn
      rwa [show ((n : Nat) : Int) = k by omega] at this
  have hread : ∀ z : Int, Evaluate.read (.two rows) xy ([k] ++ [z]) ps
      = withSlice (fun s ps => xy (.slice s) ps) (Np.pyGet row z) ps := by
    intro z
    have := Evaluate.get_two rows xy k z ps
    simpa only [List.singleton_append, slice2, hrow] using this
  simp only [hread, ← hn]
  exact surface_of_case (fun s ps => xy (.slice s) ps) times row hrl Q (g n)
    (fun i s hi ps hps => h n i row s hrn hi ps hps) t e i j α hw hcase ds ps
    (fun p hp => hpts p (hps p hp))

private theorem no_cells {m : Nat} {ds : DepthSys K P} {pts : List P} {ents : List (Entry K)}
    (ha : ds.alphas pts = .ok ents) (hu : ∃ ent ∈ ents, ent.masked = false)
    (val : Int → List P → Except Err (List (Cell K))) (hval : ∀ k ps out, val k ps ≠ .ok out)
    (out : List (Cell K)) : depthStage ds m val pts ≠ .ok out := by
  have hall : ¬ (ents.all Entry.masked = true) := by
    obtain ⟨ent, he, hm⟩ := hu
    intro h
    rw [List.all_eq_true] at h
    rw [h ent he] at hm
    cases hm
  have hq : uniqIdx ents ≠ [] := by
    obtain ⟨ent, he, hm⟩ := hu
    intro h
    obtain ⟨j, hj⟩ := List.getElem?_of_mem he
    have : ent.idx ∈ uniqIdx ents := mem_uniqIdx.mpr ⟨j, ent, hj, hm, rfl⟩
    rw [h] at this
    cases this
  simp only [depthStage, ha, if_neg hall]
  obtain ⟨k, ks, hk⟩ : ∃ k ks, uniqIdx ents = k :: ks := List.exists_cons_of_ne_nil hq
  rw [hk]
  split
  · simp only [layerCells]
    split
    · exact nofun
    · rename_i h
      exact absurd h (hval _ _ _)
  · simp only [levelCells]
    by_cases hkm : k = (m : Int) - 1
    · simp only [if_pos hkm]
      exact nofun
    · simp only [if_neg hkm]
      cases h1 : val (k + 1) (pick pts (groupOf ents k)) with
      | ok v => exact absurd h1 (hval _ _ _)
      | error x =>
        cases h2 : val k (pick pts (groupOf ents k)) with
        | ok v => exact absurd h2 (hval _ _ _)
        | error y => exact nofun

/-- At the first and the last time, and beyond when extrapolating, the level is forgotten: what is
left of the data is no horizontal slice, and there are no values for any list of points of which one
is within the depths. -/
theorem C62_ends (xy : Rest σ → List P → Except Err (List (Cell K))) (limit : Nat)
    (hxy : ∀ ps out, xy .other ps ≠ .ok out)
    (v : Variable K P σ) (x : String) (rest : List String) (hx : x ≠ "depth")
    (hv : v.order = some ("depth" :: "time" :: x :: rest)) (rows : List (List σ))
    (hd : v.data = .two rows) (times : List Int) (htm : v.time = some times) (ds : DepthSys K P)
    (hds : v.depth = .sys ds) (lo hi : Int) (h0 : times.head? = some lo)
    (h1 : times.getLast? = some hi) (t : Int) (e : Bool)
    (ht : t = lo ∨ t = hi ∨ (e = true ∧ (t < lo ∨ hi < t))) (pts : List P) (ents : List (Entry K))
    (ha : ds.alphas pts = .ok ents) (hu : ∃ ent ∈ ents, ent.masked = false) (out : List (Cell K)) :
    at' v xy (limit + 3) pts t e ≠ .ok out := by
  have ho : v.ordering = .ok ("depth" :: "time" :: x :: rest) := by
    simp only [Variable.ordering, hv]
  rw [Evaluate.at_depth_time v xy limit pts t e ho hx hd htm hds]
  refine no_cells ha hu _ ?_ out
  intro k ps out
  have hmin : minTime times = .ok lo := by
    unfold minTime
    rw [List.head?_eq_getElem?] at h0
    exact Np.pyGet_nonneg h0
  have hmax : maxTime times = .ok hi := Np.pyGet_neg_one h1
  simp only [Evaluate.timeBody, hmin, hmax]
  by_cases c1 : t = lo ∨ (e = true ∧ t < lo)
  · rw [if_pos c1]
    exact hxy _ _
  · have c2 : t = hi ∨ (e = true ∧ hi < t) := by
      rcases ht with h | h | ⟨h, h' | h'⟩
      · exact absurd (Or.inl h) c1
      · exact Or.inl h
      · exact absurd (Or.inr ⟨h, h'⟩) c1
      · exact Or.inr ⟨h, h'⟩
    rw [if_neg c1, if_pos c2]
    exact hxy _ _

example :
    let v : Variable ℚ ℚ ℚ := { structured := false, time := some [0, 10], depth := .sys levels,
                                data := .two [[0, 1000], [100, 1100], [200, 1200]], horiz := [4],
                                order := some ["depth", "time", "ele"] }
    at' v same 3 [5, 12] 5 false = .ok [⟨some 550, false⟩, ⟨some 620, false⟩] ∧
    at' v same 3 [5, 12] 0 false = .error .valueError ∧
    at' v same 3 [5, 12] 10 false = .error .valueError := by
  refine ⟨?_, ?_, ?_⟩ <;> decide +kernel

end C62

/-! ## C198: surface-only mode -/

section C198

/-- The full claim: a variable in surface-only mode has, at every point and time, the value of the
level at the surface index. -/
def C198_statement : Prop :=
  ∀ (structured : Bool) (horiz : List Nat) (data : List ℚ) (index : Int) (s : ℚ) (pts : List ℚ)
    (t : Int), Np.pyGet data index = .ok s →
    horiz.length = (if structured then 2 else 1) →
    at' ⟨structured, none, .surface index, .one data, horiz, none⟩ same 1000 pts t false
      = same (.slice s) pts

variable {K P σ : Type} [Field K] [LinearOrder K]

private theorem time_no_value (times : List Int) (val : List Int → Except Err (List (Cell K)))
    (pre : List Int) (t : Int) (e : Bool) (h : ∀ s out, val s ≠ .ok out) (out : List (Cell K)) :
    Evaluate.timeBody times val pre t e ≠ .ok out := by
  unfold Evaluate.timeBody
  split
  · exact nofun
  · split
    · exact h _ _
    · split
      · exact nofun
      · split
        · exact h _ _
        · split
          · exact nofun
          · rename_i ind _
            cases h1 : val (pre ++ [(ind : Int) - 1]) with
            | ok v => exact absurd h1 (h _ _)
            | error x => exact nofun

/-- Data with a dimension for the depth never get values in surface-only mode: not at any time, any
point, any index. -/
theorem C198_never (v : Variable K P σ) (hv : Plain v) (index : Int)
    (hs : v.depth = .surface index)
    (hd : (∃ d, v.data = .two d) ∨ (∃ d, v.data = .one d ∧ v.time = none))
    (xy : Rest σ → List P → Except Err (List (Cell K))) (limit : Nat) (pts : List P) (t : Int)
    (e : Bool) (out : List (Cell K)) : at' v xy limit pts t e ≠ .ok out := by
  have hdep : ∀ order n pre ps out, Evaluate.stage v order xy t e n .depth pre ps ≠ .ok out := by
    intro order n pre ps out
    cases n with
    | zero => exact nofun
    | succ n =>
      simp only [Evaluate.stage, hs]
      split <;> exact nofun
  rcases hd with ⟨d, hd⟩ | ⟨d, hd, ht⟩
  · obtain ⟨x, rest, hx, ho⟩ := plain_two hv hd
    simp only [at', ho, List.getElem?_cons_zero, if_true]
    cases limit with
    | zero => exact nofun
    | succ n =>
      have h1 : Evaluate.place ("time" :: "depth" :: x :: rest) "time" = .ok (0, "depth") := by
        simp [Evaluate.place, List.findIdx?_cons]
      simp only [Evaluate.stage, h1, if_true]
      cases v.time with
      | none => exact nofun
      | some times => exact time_no_value _ _ _ _ _ (fun s out => hdep _ _ _ _ _) out
  · obtain ⟨x, rest, hx, ho⟩ := plain_depth hv hd ht (by rw [hs]; exact nofun)
    have h2 : ¬ (("depth" : String) = "time") := by decide
    simp only [at', ho, List.getElem?_cons_zero, if_true, if_neg h2]
    exact hdep _ _ _ _ _

theorem C198_refuted : ¬ C198_statement := by
  intro h
  have h1 := h false [4] [0, 100] (-1) 100 [0] 0 rfl rfl
  exact C198_never ⟨false, none, .surface (-1), .one [0, 100], [4], none⟩ ⟨rfl, rfl⟩ (-1) rfl
    (Or.inr ⟨_, rfl, rfl⟩) same 1000 [0] 0 false _ h1

/-- Data without a dimension for the depth have the same values in surface-only mode as with any
other depth or none. -/
theorem C198_no_levels_partial (v : Variable K P σ) (hv : Plain v) (depth : DepthObj K P)
    (hd : (∃ s, v.data = .zero s) ∨ (∃ d times, v.data = .one d ∧ v.time = some times))
    (xy : Rest σ → List P → Except Err (List (Cell K))) (limit : Nat) (pts : List P) (t : Int)
    (e : Bool) :
    at' v xy (limit + 2) pts t e = at' { v with depth := depth } xy (limit + 2) pts t e := by
  rcases hd with ⟨s, hd⟩ | ⟨d, times, hd, ht⟩
  · obtain ⟨x, rest, hx, hx', ho⟩ := plain_flat hv hd
    obtain ⟨y, rest', hy, hy', ho'⟩ := plain_flat (v := { v with depth := depth }) hv hd
    rw [Evaluate.at_flat v xy (limit + 1) pts t e ho hx hx' hd,
      Evaluate.at_flat { v with depth := depth } xy (limit + 1) pts t e ho' hy hy' hd]
  · obtain ⟨x, rest, hx, ho⟩ := plain_time hv hd ht
    obtain ⟨y, rest', hy, ho'⟩ := plain_time (v := { v with depth := depth }) hv hd ht
    rw [Evaluate.at_time v xy limit pts t e ⟨0, fun _ => .ok []⟩ ho hx hd ht,
      Evaluate.at_time { v with depth := depth } xy limit pts t e ⟨0, fun _ => .ok []⟩ ho' hy hd ht]

example :
    let v : Variable ℚ ℚ ℚ := { structured := true, time := some [0, 10], depth := .surface 7,
                                data := .one [0, 100], horiz := [4, 4], order := none }
    Plain v ∧ at' v same 2 [5, 12] 5 false = .ok [⟨some 50, false⟩, ⟨some 50, false⟩] := by
  refine ⟨⟨rfl, rfl⟩, by decide +kernel⟩

end C198

/-! ## C199: depth without time -/

section C199

/-- The full claim: a variable of a file, with data over depth and not over time, has at each point
the value between the levels of the point's depth. -/
def C199_statement : Prop :=
  ∀ (structured : Bool) (horiz : List Nat) (now : Int) (ds : DepthSys ℚ ℚ) (data : List ℚ)
    (pts : List ℚ) (ents : List (Entry ℚ)) (t : Int) (e : Bool),
    horiz.length = (if structured then 2 else 1) → 2 ≤ data.length →
    data.length ≠ ds.numLayers → ds.alphas pts = .ok ents → PicksBeforeLast data.length ents pts →
    ∃ out, at' (ofFile structured none now (.sys ds) (.one data) horiz) same 1000 pts t e = .ok out ∧
      ∀ (n : Nat) (ent : Entry ℚ), ents[n]? = some ent → ent.masked = false →
        ∃ c β v, out[n]? = some c ∧ ent.alpha = some β ∧ c.value = some v ∧
          LevelMix data.length (fun k => data.getD k 0) ent.idx β v

variable {K P σ : Type} [Field K] [LinearOrder K]

/-- The depth is never looked at: all points get the value of the level listed first if the time
asked for is that of the `Time()` made for the variable or, extrapolating, earlier; at all other times that of the
level listed last. -/
theorem C199_first_or_last (structured : Bool) (now : Int) (axis : DepthObj K P) (data : List σ)
    (horiz : List Nat) (hh : horiz.length = if structured then 2 else 1) (hne : data ≠ [])
    (xy : Rest σ → List P → Except Err (List (Cell K))) (g : σ → P → K)
    (hxy : ∀ s ∈ data, ∀ ps : List P,
      xy (.slice s) ps = .ok (ps.map fun p => { value := some (g s p), masked := false }))
    (limit : Nat) (pts : List P) (t : Int) (e : Bool) :
    at' (ofFile structured none now axis (.one data) horiz) xy (limit + 2) pts t e
      = .ok (pts.map fun p =>
          { value := some (g (if t = now ∨ (e = true ∧ t < now) then data.head hne
              else data.getLast hne) p), masked := false }) := by
  set v := ofFile structured none now axis (.one data) horiz with hvdef
  have hv : Plain v := ⟨rfl, hh⟩
  obtain ⟨x, rest, hx, ho⟩ := plain_time hv (d := data) rfl (times := [now]) rfl
  rw [Evaluate.at_time v xy limit pts t e ⟨0, fun _ => .ok []⟩ ho hx (d := data) rfl
    (times := [now]) rfl]
  have h0 : Np.pyGet data 0 = .ok (data.head hne) := by
    have : data[0]? = some (data.head hne) := by
      rw [← List.head?_eq_getElem?, List.head?_eq_some_head hne]
    exact Np.pyGet_nonneg (i := 0) this
  have h1 : Np.pyGet data (-1) = .ok (data.getLast hne) :=
    Np.pyGet_neg_one (List.getLast?_eq_some_getLast hne)
  have e0 := hxy _ (List.head_mem hne) pts
  have e1 := hxy _ (List.getLast_mem hne) pts
  have hmin : minTime [now] = .ok now := rfl
  have hmax : maxTime [now] = .ok now := rfl
  have hidx : indexOf [now] t false = .ok 0 := rfl
  have halp : interpAlpha (K := K) (fun x => x) [now] t e = .ok 0 := by
    cases e <;> simp [interpAlpha, indexOf, alphaFrom]
  simp only [eval, timeStage, hmin, hmax, hidx, halp]
  by_cases hc : t = now ∨ (e = true ∧ t < now)
  · simp only [if_pos hc, withSlice, h0, e0]
  · simp only [if_neg hc]
    split
    · simp only [withSlice, h1, e1]
    · simp only [Nat.cast_zero, zero_sub, withSlice, h0, h1, e0, e1, Except.ok.injEq]
      simp [List.zipWith_map, mixCell, List.zipWith_self]

theorem C199_refuted : ¬ C199_statement := by
  intro h
  obtain ⟨out, ho, hr⟩ := h false [4] 0 levels [0, 100, 200] [5] [⟨0, some (1 / 2), false⟩] 0 false
    rfl (by decide) (by decide) (by decide +kernel)
    ⟨rfl, by
      intro e he _
      simp only [List.mem_cons, List.not_mem_nil, or_false] at he
      subst he
      exact ⟨by norm_num, 1 / 2, rfl, by norm_num, by norm_num, Or.inl (by norm_num)⟩⟩
  have h1 : at' (ofFile false none 0 (.sys levels) (.one [0, 100, 200]) [4]) same 1000 [5] 0 false
      = .ok [⟨some 0, false⟩] := by
    have := C199_first_or_last false 0 (.sys levels) ([0, 100, 200] : List ℚ) [4] rfl (by simp) same
      (fun s _ => s) (fun _ _ _ => rfl) 998 [5] 0 false
    simpa using this
  rw [h1] at ho
  cases ho
  obtain ⟨c, β, v, h2, h3, h4, h5⟩ := hr 0 _ rfl rfl
  cases h2
  cases h3
  cases h4
  rcases h5 with ⟨j, h6, h7, h8⟩ | ⟨h6, -⟩ | ⟨h6, -⟩
  · obtain rfl : j = 0 := by simpa using h6.symm
    norm_num at h8
  · norm_num at h6
  · norm_num at h6

/-- With a time axis in the file, the values are between the levels as they should be
(`C197_time_depth`); and so they are for data without a time once the time made for the variable is
taken away. -/
theorem C199_time_removed_partial [IsStrictOrderedRing K] (structured : Bool) (now : Int)
    (ds : DepthSys K P) (data : List σ) (horiz : List Nat)
    (hh : horiz.length = if structured then 2 else 1)
    (xy : Rest σ → List P → Except Err (List (Cell K))) (limit : Nat) (hm : 2 ≤ data.length)
    (Q : P → Prop) (g : Nat → P → K)
    (hxy : ∀ (k : Nat) (s : σ), data[k]? = some s → ∀ ps : List P, (∀ p ∈ ps, Q p) →
      xy (.slice s) ps = .ok (ps.map fun p => { value := some (g k p), masked := false }))
    (t : Int) (e : Bool) (pts : List P) (ents : List (Entry K)) (hpts : ∀ p ∈ pts, Q p)
    (hnl : data.length ≠ ds.numLayers) (ha : ds.alphas pts = .ok ents)
    (hp : PicksBeforeLast data.length ents pts) :
    ∃ out, at' { ofFile structured none now (.sys ds) (.one data) horiz with time := none } xy
        (limit + 2) pts t e = .ok out ∧ out.length = pts.length ∧
      ∀ (n : Nat) (p : P) (ent : Entry K), pts[n]? = some p → ents[n]? = some ent →
        ∃ c, out[n]? = some c ∧ c.masked = ent.masked ∧ (ent.masked = false → ∃ β v,
          ent.alpha = some β ∧ c.value = some v ∧
          LevelMix data.length (fun k => g k p) ent.idx β v) := by
  refine C197_depth xy limit _ ⟨rfl, hh⟩ data rfl rfl ds ?_ hm Q g hxy t e pts ents hpts hnl ha hp
  have h1 : (Lead.one data).shape.length + horiz.length
      = (if structured then 3 else 2) + (if (none : Option (List Int)).isSome then 1 else 0) := by
    rw [hh]
    cases structured <;> rfl
  simp only [ofFile, if_pos h1]

/-- With a time axis in the file, data over time and depth get the depth of the file. -/
theorem C199_with_time_partial (structured : Bool) (now : Int) (times : List Int)
    (ds : DepthSys K P) (data : List (List σ)) (horiz : List Nat)
    (hh : horiz.length = if structured then 2 else 1) :
    let v := ofFile structured (some times) now (.sys ds) (.two data) horiz
    Plain v ∧ v.time = some times ∧ v.depth = .sys ds ∧ v.data = .two data := by
  refine ⟨⟨rfl, hh⟩, rfl, ?_, rfl⟩
  have h1 : (Lead.two data).shape.length + horiz.length
      = (if structured then 3 else 2) + (if (some times).isSome then 1 else 0) := by
    rw [hh]
    cases structured <;> rfl
  simp only [ofFile, if_pos h1]

example :
    at' (ofFile false none 0 (.sys levels) (.one [0, 100, 200]) [4]) same 2 [5, 12] 7 false
        = .ok [⟨some 200, false⟩, ⟨some 200, false⟩] ∧
    at' { ofFile false none 0 (.sys levels) (.one [0, 100, 200]) [4] with time := none } same 2
        [5, 12] 7 false = .ok [⟨some 50, false⟩, ⟨some 120, false⟩] := by
  constructor <;> decide +kernel

end C199

end Verif
