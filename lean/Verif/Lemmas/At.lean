import Verif.Model.At
import Verif.Spec.At
import Verif.Props.TimeInterp
import Verif.Props.DepthInterp
import Mathlib.Tactic.Linarith
import Mathlib.Tactic.Ring
import Mathlib.Tactic.LinearCombination

set_option autoImplicit false

namespace Verif.At
open Verif.TimeM Verif.DepthM Verif.Spec

/-! ## Time -/

section time
variable {K : Type} [Field K] [LinearOrder K] [IsStrictOrderedRing K]

/-- The time stage reads one slice, or mixes two, with the weights of the specification. -/
theorem timeStage_cases {times : List Int} (hs : StrictIncr times) (hne : times ≠ []) (t : Int)
    (e : Bool) (hr : e = true ∨ times.length = 1 ∨
      ∃ lo hi, times.head? = some lo ∧ times.getLast? = some hi ∧ lo ≤ t ∧ t ≤ hi) :
    ∃ (i j : Nat) (α : K), TimeWeights times t e i j α ∧
      ((i = j ∧ α = 0 ∧ ∃ z : Int, (z = (i : Int) ∨ (z = -1 ∧ i + 1 = times.length)) ∧
        ∀ val : Int → Except Err (List (Cell K)), timeStage times val t e = val z) ∨
       (∃ z : Int, (z = (i : Int) ∨ (z = -1 ∧ i + 1 = times.length)) ∧
        ∀ (val : Int → Except Err (List (Cell K))) (v0 v1 : List (Cell K)), val z = .ok v0 →
          val (j : Int) = .ok v1 →
          timeStage times val t e = .ok (List.zipWith (fun x y => mixCell x y (some α)) v0 v1))) := by
  obtain ⟨lo, h0⟩ : ∃ lo, times.head? = some lo := by
    cases times with
    | nil => exact absurd rfl hne
    | cons x _ => exact ⟨x, rfl⟩
  obtain ⟨hi, h1⟩ : ∃ hi, times.getLast? = some hi := ⟨_, List.getLast?_eq_some_getLast hne⟩
  have h0' : times[0]? = some lo := by rw [← List.head?_eq_getElem?]; exact h0
  have hpos : 0 < times.length := List.length_pos_iff.mpr hne
  have h1' : times[times.length - 1]? = some hi := by
    rw [← List.getLast?_eq_getElem?]; exact h1
  have hlohi : lo ≤ hi := head_le_last hs h0 h1
  have hmin : ∀ x ∈ times, lo ≤ x := by
    intro x hx
    obtain ⟨k, hk⟩ := List.getElem?_of_mem hx
    rcases Nat.eq_zero_or_pos k with rfl | hp
    · rw [hk] at h0'; cases h0'; exact le_refl _
    · exact le_of_lt (Np.pairwise_get?_lt hs hp h0' hk)
  have hmax : ∀ x ∈ times, x ≤ hi := by
    intro x hx
    obtain ⟨k, hk⟩ := List.getElem?_of_mem hx
    have hkl : k < times.length := (List.getElem?_eq_some_iff.mp hk).1
    rcases Nat.lt_or_eq_of_le (show k ≤ times.length - 1 by omega) with h | h
    · exact le_of_lt (Np.pairwise_get?_lt hs h hk h1')
    · rw [← h, hk] at h1'; cases h1'; exact le_refl _
  by_cases c1 : t = lo ∨ (e = true ∧ t < lo)
  · refine ⟨0, 0, 0, ⟨le_refl _, zero_le_one, hpos, hpos, ?_⟩, Or.inl ⟨rfl, rfl, 0, Or.inl rfl, ?_⟩⟩
    · rcases c1 with rfl | ⟨he, hlt⟩
      · exact Or.inl ⟨le_refl _, by omega, t, t, h0', h0', by ring⟩
      · exact Or.inr (Or.inr ⟨he, rfl, Or.inl ⟨rfl, fun x hx => lt_of_lt_of_le hlt (hmin x hx)⟩⟩)
    · intro val
      unfold timeStage
      rw [minTime_of_head h0]
      simp only [if_pos c1]
  by_cases c2 : t = hi ∨ (e = true ∧ hi < t)
  · refine ⟨times.length - 1, times.length - 1, 0, ⟨le_refl _, zero_le_one, by omega, by omega, ?_⟩,
      Or.inl ⟨rfl, rfl, -1, Or.inr ⟨rfl, by omega⟩, ?_⟩⟩
    · rcases c2 with rfl | ⟨he, hlt⟩
      · exact Or.inl ⟨le_refl _, by omega, t, t, h1', h1', by ring⟩
      · exact Or.inr (Or.inr ⟨he, rfl, Or.inr ⟨by omega, fun x hx =>
          lt_of_le_of_lt (hmax x hx) hlt⟩⟩)
    · intro val
      unfold timeStage
      rw [minTime_of_head h0, maxTime_of_last h1]
      simp only [if_neg c1, if_pos c2]
  by_cases c3 : times.length = 1
  · obtain ⟨x, rfl⟩ : ∃ x, times = [x] := List.length_eq_one_iff.mp c3
    refine ⟨0, 0, 0, ⟨le_refl _, zero_le_one, hpos, hpos, Or.inr (Or.inl rfl)⟩,
      Or.inr ⟨-1, Or.inr ⟨rfl, rfl⟩, ?_⟩⟩
    intro val v0 v1 hv0 hv1
    unfold timeStage
    rw [minTime_of_head h0, maxTime_of_last h1]
    have hα : interpAlpha (fun x : K => x) [x] t e = .ok 0 := by
      simp [interpAlpha, indexOf, alphaFrom]
    have hv1' : val 0 = .ok v1 := hv1
    simp only [if_neg c1, if_neg c2, C02_index_single, hα, Nat.cast_zero, zero_sub, hv0, hv1']
  · have hin : lo < t ∧ t < hi := by
      rcases hr with he | hl | ⟨lo', hi', h0'', h1'', ha, hb⟩
      · subst he
        simp only [true_and, not_or, not_lt] at c1 c2
        exact ⟨lt_of_le_of_ne c1.2 (fun h => c1.1 h.symm), lt_of_le_of_ne c2.2 c2.1⟩
      · exact absurd hl c3
      · rw [h0] at h0''; rw [h1] at h1''; cases h0''; cases h1''
        simp only [not_or] at c1 c2
        exact ⟨lt_of_le_of_ne ha (fun h => c1.1 h.symm), lt_of_le_of_ne hb c2.1⟩
    obtain ⟨ind, b, hind, hbi, htb, hz, hprev⟩ := C02_index_neighbours times hs c3 lo hi t h0 h1
      ⟨le_of_lt hin.1, le_of_lt hin.2⟩ false
    have hindl : ind < times.length := (List.getElem?_eq_some_iff.mp hbi).1
    have hi0 : ind ≠ 0 := fun h => by
      have := hz.mp h
      omega
    obtain ⟨k, rfl⟩ : ∃ k, ind = k + 1 := ⟨ind - 1, by omega⟩
    have hk : times[k]? = some times[k] := List.getElem?_eq_getElem (by omega)
    have hkt := hprev times[k] (by omega) hk
    obtain ⟨α, hα⟩ : ∃ α, interpAlpha (fun x : K => x) times t e = .ok α :=
      ⟨_, C04_alpha_interval (fun x : K => x) Rounding.id (by norm_num) times hs k _ b t e hk hbi hkt
        htb⟩
    have hrec := C04_alpha_reconstructs_time times hs k _ b t e α hk hbi hkt htb hα
    obtain ⟨hα0, hα1⟩ := C04_alpha_in_unit_interval (fun x : K => x) Rounding.id (by norm_num) times
      hs hne t e α hα
    refine ⟨k, k + 1, α, ⟨hα0, hα1, by omega, hindl, Or.inl ⟨by omega, le_refl _, _, b, hk, hbi, hrec⟩⟩,
      Or.inr ⟨(k : Int), Or.inl rfl, ?_⟩⟩
    intro val v0 v1 hv0 hv1
    unfold timeStage
    rw [minTime_of_head h0, maxTime_of_last h1]
    have e1 : (((k + 1 : Nat) : Int) - 1) = (k : Int) := by push_cast; ring
    simp only [if_neg c1, if_neg c2, hind, e1, hv0, hv1, hα]

end time

/-! ## Depth -/

section depth
variable {K P : Type} [Field K]

theorem pick_map {γ : Type} (pts : List P) (l : List Nat) (hl : ∀ i ∈ l, i < pts.length)
    (f : P → γ) (d : Nat → γ) (hd : ∀ i p, pts[i]? = some p → d i = f p) :
    (pick pts l).map f = l.map d := by
  induction l with
  | nil => rfl
  | cons i t ih =>
    have hi : pts[i]? = some (pts[i]'(hl i (by simp))) :=
      List.getElem?_eq_getElem (hl i (by simp))
    have ih' := ih (fun j hj => hl j (by simp [hj]))
    unfold pick at ih' ⊢
    rw [List.filterMap_cons_some hi, List.map_cons, List.map_cons, ih', hd i _ hi]

theorem mem_pick {pts : List P} {l : List Nat} {p : P} (h : p ∈ pick pts l) : p ∈ pts := by
  unfold pick at h
  obtain ⟨i, _, hi⟩ := List.mem_filterMap.mp h
  exact List.mem_of_getElem? hi

theorem putCells_eq (out : List (Cell K)) (l : List (Nat × Option K)) :
    putCells out (l.map fun q => (q.1, { value := q.2, masked := false })) = putAll out l := by
  induction l generalizing out with
  | nil => rfl
  | cons q t ih => obtain ⟨i, v⟩ := q; simp only [List.map_cons, putCells, putAll, ih]

theorem zip_self_map {γ δ : Type} (l : List γ) (f : γ → δ) :
    l.zip (l.map f) = l.map fun i => (i, f i) := by
  induction l with
  | nil => rfl
  | cons a t ih => simp [ih]

theorem groupOf_lt {ents : List (Entry K)} {k : Int} {i : Nat} (h : i ∈ groupOf ents k) :
    i < ents.length := by
  obtain ⟨e, he, _⟩ := mem_groupOf.mp h
  exact (List.getElem?_eq_some_iff.mp he).1

/-- The columns of all points when the next stage gives `g k p` for level `k` at point `p`. -/
def colsOf (m : Nat) (g : Nat → P → K) (pts : List P) : List (List K) :=
  pts.map fun p => (List.range m).map fun k => g k p

theorem pyGet_range {m : Nat} (c : Nat → K) (k : Int) (h : -1 ≤ k) (h' : k < (m : Int)) (hm : 0 < m) :
    Np.pyGet ((List.range m).map c) k = .ok (c (if k = -1 then m - 1 else k.toNat)) := by
  by_cases hk : k = -1
  · subst hk
    rw [if_pos rfl]
    apply Np.pyGet_neg_one
    rw [List.getLast?_eq_getElem?]
    simp [List.getElem?_map, List.getElem?_range, show m - 1 < m by omega]
  · rw [if_neg hk]
    have : Np.pyGet ((List.range m).map c) ((k.toNat : Nat) : Int) = .ok (c k.toNat) := by
      apply Np.pyGet_nonneg
      rw [List.getElem?_map, List.getElem?_range (by omega)]
      rfl
    rwa [show ((k.toNat : Nat) : Int) = k by omega] at this

/-- The next stage gives, for every level, the value `g k p` at each of the points. -/
def Serves (m : Nat) (val : Int → List P → Except Err (List (Cell K))) (g : Nat → P → K)
    (pts : List P) : Prop :=
  ∀ k : Int, -1 ≤ k → k < (m : Int) → ∀ ps : List P, (∀ p ∈ ps, p ∈ pts) →
    val k ps = .ok (ps.map fun p =>
      { value := some (g (if k = -1 then m - 1 else k.toNat) p), masked := false })

theorem valAt_cols {m : Nat} (hm : 0 < m) (g : Nat → P → K) (pts : List P) (k : Int) (h : -1 ≤ k)
    (h' : k < (m : Int)) (i : Nat) (p : P) (hp : pts[i]? = some p) :
    valAt (colsOf m g pts) k i = .ok (g (if k = -1 then m - 1 else k.toNat) p) := by
  unfold valAt colsOf
  rw [List.getElem?_map, hp]
  simp only [Option.map_some]
  exact pyGet_range (fun k => g k p) k h h' hm

theorem levelCells_eq {m : Nat} (hm : 0 < m) {ents : List (Entry K)}
    {val : Int → List P → Except Err (List (Cell K))} {g : Nat → P → K} {pts : List P}
    (hlen : ents.length = pts.length) (hval : Serves m val g pts) (ks : List Int)
    (hks : ∀ k ∈ ks, -1 ≤ k ∧ k < (m : Int)) (lay : Option (List Nat))
    (hlay : ∀ l, lay = some l → ∀ i ∈ l, i < pts.length) (out : List (Cell K)) :
    levelCells m ents val pts ks (lay, out) = levelLoop m ents (colsOf m g pts) ks (lay, out) := by
  induction ks generalizing lay out with
  | nil => rfl
  | cons k ks ih =>
    obtain ⟨hk1, hk2⟩ := hks k (by simp)
    have hget : ∀ i, i < pts.length → ∃ p, pts[i]? = some p := fun i hi =>
      ⟨_, List.getElem?_eq_getElem hi⟩
    -- a level read at a list of indices
    have hread : ∀ (q : Int), -1 ≤ q → q < (m : Int) → ∀ l : List Nat, (∀ i ∈ l, i < pts.length) →
        ∃ f : Nat → K, val q (pick pts l) = .ok (l.map fun i => { value := some (f i), masked := false })
          ∧ ∀ i ∈ l, valAt (colsOf m g pts) q i = .ok (f i) := by
      intro q hq1 hq2 l hl
      let f : Nat → K := fun i => match pts[i]? with
        | some p => g (if q = -1 then m - 1 else q.toNat) p
        | none => 0
      refine ⟨f, ?_, ?_⟩
      · rw [hval q hq1 hq2 _ (fun p hp => mem_pick hp)]
        congr 1
        refine pick_map pts l hl _ _ ?_
        intro i p hp
        simp only [f, hp]
      · intro i hi
        obtain ⟨p, hp⟩ := hget i (hl i hi)
        rw [valAt_cols hm g pts q hq1 hq2 i p hp]
        simp only [f, hp]
    simp only [levelCells, levelLoop]
    by_cases hlast : k = (m : Int) - 1
    · simp only [if_pos hlast]
      cases lay with
      | none => rfl
      | some l =>
        obtain ⟨f, hf1, hf2⟩ := hread k hk1 hk2 l (hlay l rfl)
        have hplain : mapE (plainAt (colsOf m g pts) k) l = .ok (l.map fun i => (i, some (f i))) :=
          mapE_ok fun i hi => by simp only [plainAt, hf2 i hi]
        simp only [hf1, hplain]
        rw [zip_self_map, ← putCells_eq, List.map_map]
        exact ih (fun k hk => hks k (by simp [hk])) (some l) hlay _
    · simp only [if_neg hlast]
      have hgl : ∀ i ∈ groupOf ents k, i < pts.length := fun i hi => by
        rw [← hlen]; exact groupOf_lt hi
      obtain ⟨f0, h01, h02⟩ := hread k hk1 hk2 _ hgl
      obtain ⟨f1, h11, h12⟩ := hread (k + 1) (by omega) (by omega) _ hgl
      have hblend : mapE (blendAt ents (colsOf m g pts) k) (groupOf ents k) = .ok
          ((groupOf ents k).map fun i =>
            (i, (alphaAt ents i).map fun a => f0 i + (f1 i - f0 i) * a)) := by
        refine mapE_ok fun i hi => ?_
        obtain ⟨e, he, _⟩ := mem_groupOf.mp hi
        simp only [blendAt, h02 i hi, h12 i hi, he, alphaAt, Option.bind_some]
      simp only [h01, h11, hblend]
      have hz : List.zipWith (fun (vv : Cell K × Cell K) i => mixCell vv.1 vv.2 (alphaAt ents i))
          (((groupOf ents k).map fun i => ({ value := some (f0 i), masked := false } : Cell K)).zip
            ((groupOf ents k).map fun i => ({ value := some (f1 i), masked := false } : Cell K)))
          (groupOf ents k) = (groupOf ents k).map fun i =>
            ({ value := (alphaAt ents i).map fun a => f0 i + (f1 i - f0 i) * a, masked := false }
              : Cell K) := by
        generalize groupOf ents k = l
        induction l with
        | nil => rfl
        | cons a t iht =>
          simp only [List.map_cons, List.zip_cons_cons, List.zipWith_cons_cons, iht]
          congr 1
          cases hα : alphaAt ents a <;> simp [mixCell]
      rw [hz, zip_self_map, ← putCells_eq, List.map_map]
      exact ih (fun k hk => hks k (by simp [hk])) _ (fun l hl => by cases hl; exact hgl) _

theorem layerCells_eq {m : Nat} (hm : 0 < m) {ents : List (Entry K)}
    {val : Int → List P → Except Err (List (Cell K))} {g : Nat → P → K} {pts : List P}
    (hlen : ents.length = pts.length) (hval : Serves m val g pts) (ks : List Int)
    (hks : ∀ k ∈ ks, -1 ≤ k ∧ k < (m : Int)) (out : List (Cell K)) :
    layerCells ents val pts ks out = layerLoop ents (colsOf m g pts) ks out := by
  induction ks generalizing out with
  | nil => rfl
  | cons k ks ih =>
    obtain ⟨hk1, hk2⟩ := hks k (by simp)
    simp only [layerCells, layerLoop]
    generalize hq : (if k = -1 then (0 : Int) else k) = q
    have hq1 : 0 ≤ q ∧ q < (m : Int) := by
      split_ifs at hq <;> omega
    have hgl : ∀ i ∈ groupOf ents q, i < pts.length := fun i hi => by
      rw [← hlen]; exact groupOf_lt hi
    let f : Nat → K := fun i => match pts[i]? with
      | some p => g (if q = -1 then m - 1 else q.toNat) p
      | none => 0
    have h1 : val q (pick pts (groupOf ents q)) =
        .ok ((groupOf ents q).map fun i => { value := some (f i), masked := false }) := by
      rw [hval q (by omega) hq1.2 _ (fun p hp => mem_pick hp)]
      congr 1
      refine pick_map pts _ hgl _ _ ?_
      intro i p hp
      simp only [f, hp]
    have h2 : mapE (plainAt (colsOf m g pts) q) (groupOf ents q) =
        .ok ((groupOf ents q).map fun i => (i, some (f i))) := by
      refine mapE_ok fun i hi => ?_
      have hp : pts[i]? = some (pts[i]'(hgl i hi)) := List.getElem?_eq_getElem (hgl i hi)
      simp only [plainAt, valAt_cols hm g pts q (by omega) hq1.2 i _ hp, f, hp]
    simp only [h1, h2]
    rw [zip_self_map, ← putCells_eq, List.map_map]
    exact ih (fun k hk => hks k (by simp [hk])) _

/-- The depth stage is the interpolation of the points' own columns. -/
theorem depthStage_eq {m : Nat} (hm : 0 < m) (ds : DepthSys K P) {ents : List (Entry K)}
    {val : Int → List P → Except Err (List (Cell K))} {g : Nat → P → K} {pts : List P}
    (ha : ds.alphas pts = .ok ents) (hlen : ents.length = pts.length) (hval : Serves m val g pts)
    (hidx : ∀ e ∈ ents, e.masked = false → -1 ≤ e.idx ∧ e.idx < (m : Int)) :
    depthStage ds m val pts = depthInterp m ds.numLayers ents (colsOf m g pts) := by
  have hks : ∀ k ∈ uniqIdx ents, -1 ≤ k ∧ k < (m : Int) := by
    intro k hk
    obtain ⟨j, e, he, hu, rfl⟩ := mem_uniqIdx.mp hk
    exact hidx e (List.mem_of_getElem? he) hu
  unfold depthStage depthInterp
  simp only [ha, layerCells_eq hm hlen hval _ hks,
    levelCells_eq hm hlen hval _ hks none (by simp)]
  rfl

end depth

section
variable {K : Type} [Field K] [LinearOrder K]

/-- If the whole list succeeds, every element does and the results are in order. -/
theorem mapE_inv {α β : Type} [Inhabited β] {f : α → Except Err β} {l : List α} {bs : List β}
    (h : mapE f l = .ok bs) : ∃ g : α → β, (∀ a ∈ l, f a = .ok (g a)) ∧ bs = l.map g := by
  refine ⟨fun a => match f a with
    | .ok b => b
    | .error _ => default, ?_⟩
  induction l generalizing bs with
  | nil => simp only [mapE] at h; cases h; simp
  | cons a as ih =>
    simp only [mapE] at h
    cases ha : f a with
    | error e => rw [ha] at h; cases h
    | ok b =>
      rw [ha] at h
      cases hr : mapE f as with
      | error e => rw [hr] at h; cases h
      | ok cs =>
        rw [hr] at h
        cases h
        obtain ⟨h1, h2⟩ := ih hr
        refine ⟨?_, by rw [List.map_cons, ha, ← h2]⟩
        intro x hx
        rcases List.mem_cons.mp hx with rfl | hx
        · simp only [ha]
        · exact h1 x hx

/-- The entries of level depths are found one by one: asked for some of the depths, the levels give the
same entries. -/
theorem levelAlphas_pointwise (rnd : K → K) (levels : List K) (sh : Option Nat) (sbc bbc : BC)
    (ds : List K) (ents : List (Entry K)) (h : levelAlphas rnd levels sh sbc bbc ds = .ok ents) :
    ∃ F : K → Entry K, ents = ds.map F ∧ ∀ ds' : List K, (∀ d ∈ ds', d ∈ ds) →
      levelAlphas rnd levels sh sbc bbc ds' = .ok (ds'.map F) := by
  haveI : Inhabited (Entry K) := ⟨⟨0, none, false⟩⟩
  unfold levelAlphas at h ⊢
  split_ifs at h ⊢ with h1
  · cases hs : argmin levels with
    | error e => rw [hs] at h; cases h
    | ok s =>
      rw [hs] at h
      have h' := (Except.ok.inj h).symm
      have hc : ∀ l : List K, surfaceOnly (K := K) (s : Int) l.length =
          l.map fun _ => { idx := (s : Int), alpha := some 0, masked := false } := by
        intro l
        unfold surfaceOnly
        rw [List.map_const']
      exact ⟨fun _ => { idx := (s : Int), alpha := some 0, masked := false }, by rw [h', hc],
        fun ds' _ => by simp only [hc]⟩
  · cases h2 : Np.pyGet levels 0 with
    | error e => rw [h2] at h; cases h
    | ok l0 =>
      cases h3 : Np.pyGet levels (-1) with
      | error e => rw [h2, h3] at h; cases h
      | ok l1 =>
        simp only [h2, h3] at h ⊢
        cases h4 : mapE (fun d => Np.digitize d levels (!decide (l0 < l1))) ds with
        | error e => rw [h4] at h; cases h
        | ok ks =>
          simp only [h4] at h
          obtain ⟨g, hg, rfl⟩ := mapE_inv h4
          cases h5 : mapE (fun p : K × Entry K => levelWithin rnd levels p.1 p.2)
              (ds.zip ((ds.map g).map fun k : Nat =>
                levelEnds levels.length (decide (l0 < l1)) sbc bbc ((k : Int) - 1))) with
          | error e => rw [h5] at h; cases h
          | ok out =>
            simp only [h5] at h
            split_ifs at h with h6
            cases h
            have hz : ∀ l : List K, l.zip ((l.map g).map fun k : Nat =>
                (levelEnds levels.length (decide (l0 < l1)) sbc bbc ((k : Int) - 1) : Entry K)) =
                l.map fun d => (d, levelEnds levels.length (decide (l0 < l1)) sbc bbc
                  ((g d : Int) - 1)) := by
              intro l
              induction l with
              | nil => rfl
              | cons a l ih => simp only [List.map_cons, List.zip_cons_cons, ih]
            rw [hz] at h5
            obtain ⟨w, hw, rfl⟩ := mapE_inv h5
            refine ⟨fun d => w (d, levelEnds levels.length (decide (l0 < l1)) sbc bbc
              ((g d : Int) - 1)), by rw [List.map_map]; rfl, ?_⟩
            intro ds' hsub
            rw [mapE_ok (g := g) (fun d hd => hg d (hsub d hd))]
            simp only [hz]
            rw [mapE_ok (g := w) (by
              intro q hq
              obtain ⟨d, hd, rfl⟩ := List.mem_map.mp hq
              exact hw _ (List.mem_map.mpr ⟨d, hsub d hd, rfl⟩))]
            simp only [List.map_map]
            rw [if_neg]
            · rfl
            · intro hany
              apply h6
              rw [List.any_eq_true] at hany ⊢
              obtain ⟨x, hx, hx'⟩ := hany
              obtain ⟨d, hd, rfl⟩ := List.mem_map.mp hx
              refine ⟨_, ?_, hx'⟩
              rw [List.map_map]
              exact List.mem_map.mpr ⟨d, hsub d hd, rfl⟩

end

end Verif.At
