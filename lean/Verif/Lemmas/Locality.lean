import Verif.Lemmas.Only
import Verif.Spec.Locality

/-!
# Evaluations read only what is next to the query
-/

set_option autoImplicit false

namespace Verif
open Spec Verif.DepthM Verif.TimeM Verif.At

section
variable {K : Type} [Field K] [LinearOrder K] [IsStrictOrderedRing K]

/-! ## Indexing -/

/-- Reading the same place of two lists of the same length: both fail, or both give the entry there. -/
theorem pyGet_pair {α β : Type*} {l : List α} {l' : List β} (h : l.length = l'.length) (k : Int) :
    (Np.pyGet l k = .error .indexError ∧ Np.pyGet l' k = .error .indexError) ∨
    ∃ (n : Nat) (x : α) (x' : β), n < l.length ∧ (k = n ∨ k + l.length = n) ∧ l[n]? = some x ∧
      l'[n]? = some x' ∧ Np.pyGet l k = .ok x ∧ Np.pyGet l' k = .ok x' := by
  by_cases hk : 0 ≤ k
  · by_cases hn : k.toNat < l.length
    · refine Or.inr ⟨k.toNat, l[k.toNat], l'[k.toNat]'(h ▸ hn), hn, Or.inl (by omega),
        List.getElem?_eq_getElem hn, List.getElem?_eq_getElem (h ▸ hn), ?_, ?_⟩
      · unfold Np.pyGet
        rw [if_pos hk, List.getElem?_eq_getElem hn]
      · unfold Np.pyGet
        rw [if_pos hk, List.getElem?_eq_getElem (h ▸ hn)]
    · refine Or.inl ⟨?_, ?_⟩
      · unfold Np.pyGet
        rw [if_pos hk, List.getElem?_eq_none (by omega)]
      · unfold Np.pyGet
        rw [if_pos hk, List.getElem?_eq_none (by omega)]
  · by_cases hn : (-k).toNat ≤ l.length
    · have hn' : l.length - (-k).toNat < l.length := by omega
      have hn2 : l'.length - (-k).toNat < l'.length := by omega
      refine Or.inr ⟨l.length - (-k).toNat, l[l.length - (-k).toNat], l'[l'.length - (-k).toNat], hn',
        Or.inr (by omega), List.getElem?_eq_getElem hn', ?_, ?_, ?_⟩
      · rw [h]; exact List.getElem?_eq_getElem hn2
      · unfold Np.pyGet
        rw [if_neg hk, if_pos hn, List.getElem?_eq_getElem hn']
      · unfold Np.pyGet
        rw [if_neg hk, if_pos (h ▸ hn), List.getElem?_eq_getElem hn2]
    · refine Or.inl ⟨?_, ?_⟩
      · unfold Np.pyGet
        rw [if_neg hk, if_neg hn]
      · unfold Np.pyGet
        rw [if_neg hk, if_neg (h ▸ hn)]

theorem mapE_congr {α β : Type} {f g : α → Except Err β} {l : List α} (h : ∀ x ∈ l, f x = g x) :
    mapE f l = mapE g l := by
  induction l with
  | nil => rfl
  | cons x l ih =>
    simp only [mapE, h x List.mem_cons_self, ih fun y hy => h y (List.mem_cons_of_mem _ hy)]

/-! ## Time -/

/-- The time stage reads only time steps next to the time asked for. -/
theorem timeStage_local {times : List Int} (hs : StrictIncr times) (t : Int) (e : Bool)
    {val val' : Int → Except Err (List (Cell K))}
    (h : ∀ (k : Int) (n : Nat), n < times.length → (k = n ∨ k + times.length = n) →
      NextTo times t n → val' k = val k) :
    timeStage times val' t e = timeStage times val t e := by
  by_cases hne : times = []
  · subst hne; rfl
  obtain ⟨lo, h0⟩ : ∃ lo, times.head? = some lo := by
    cases times with
    | nil => exact absurd rfl hne
    | cons x _ => exact ⟨x, rfl⟩
  obtain ⟨hi, h1⟩ : ∃ hi, times.getLast? = some hi := ⟨_, List.getLast?_eq_some_getLast hne⟩
  have h0' : times[0]? = some lo := by rw [← List.head?_eq_getElem?]; exact h0
  have hpos : 0 < times.length := List.length_pos_iff.mpr hne
  have h1' : times[times.length - 1]? = some hi := by
    rw [← List.getLast?_eq_getElem?]; exact h1
  have hmin : ∀ x ∈ times, lo ≤ x := by
    intro x hx
    obtain ⟨k, hk⟩ := List.getElem?_of_mem hx
    rcases Nat.eq_zero_or_pos k with rfl | hp
    · rw [hk] at h0'; cases h0'; exact le_refl _
    · exact le_of_lt (Np.pairwise_get?_lt hs hp h0' hk)
  have hmax : ∀ x ∈ times, x ≤ hi := by
    intro x hx
    obtain ⟨k, hk⟩ := List.getElem?_of_mem hx
    have hkl : k < times.length := (List.getElem?_eq_some_iff.mp hk).1
    rcases Nat.lt_or_eq_of_le (show k ≤ times.length - 1 by omega) with h | h
    · exact le_of_lt (Np.pairwise_get?_lt hs h hk h1')
    · rw [← h, hk] at h1'; cases h1'; exact le_refl _
  unfold timeStage
  rw [minTime_of_head h0, maxTime_of_last h1]
  simp only
  by_cases c1 : t = lo ∨ (e = true ∧ t < lo)
  · rw [if_pos c1, if_pos c1]
    refine h 0 0 hpos (Or.inl rfl) ⟨lo, h0', fun z hz => ?_⟩
    have := hmin z hz
    omega
  rw [if_neg c1, if_neg c1]
  by_cases c2 : t = hi ∨ (e = true ∧ hi < t)
  · rw [if_pos c2, if_pos c2]
    refine h (-1) (times.length - 1) (by omega) (Or.inr (by omega)) ⟨hi, h1', fun z hz => ?_⟩
    have := hmax z hz
    omega
  rw [if_neg c2, if_neg c2]
  by_cases c3 : times.length = 1
  · obtain ⟨x, rfl⟩ : ∃ x, times = [x] := List.length_eq_one_iff.mp c3
    have hx : NextTo [x] t 0 := ⟨x, rfl, fun z hz => by
      simp only [List.mem_singleton] at hz; omega⟩
    simp only [C02_index_single, Nat.cast_zero, zero_sub]
    rw [h (-1) 0 (by simp) (Or.inr (by simp)) hx, h 0 0 (by simp) (Or.inl rfl) hx]
  by_cases c4 : lo ≤ t ∧ t ≤ hi
  · obtain ⟨ind, b, hind, hbi, htb, hz, hprev⟩ := C02_index_neighbours times hs c3 lo hi t h0 h1
      c4 false
    have hindl : ind < times.length := (List.getElem?_eq_some_iff.mp hbi).1
    have hi0 : ind ≠ 0 := fun h => by
      have := hz.mp h
      omega
    obtain ⟨k, rfl⟩ : ∃ k, ind = k + 1 := ⟨ind - 1, by omega⟩
    have hk : times[k]? = some times[k] := List.getElem?_eq_getElem (by omega)
    have hkt := hprev times[k] (by omega) hk
    have before : ∀ z ∈ times, z ≤ times[k] ∨ b ≤ z := by
      intro z hz
      obtain ⟨n, hn⟩ := List.getElem?_of_mem hz
      rcases Nat.lt_trichotomy n k with g | rfl | g
      · exact Or.inl (le_of_lt (Np.pairwise_get?_lt hs g hn hk))
      · rw [hk] at hn; cases hn; exact Or.inl le_rfl
      · rcases Nat.lt_or_eq_of_le (show k + 1 ≤ n by omega) with g | rfl
        · exact Or.inr (le_of_lt (Np.pairwise_get?_lt hs g hbi hn))
        · rw [hbi] at hn; cases hn; exact Or.inr le_rfl
    have e1 : (((k + 1 : Nat) : Int) - 1) = (k : Int) := by push_cast; ring
    simp only [hind, e1]
    rw [h (k : Int) k (by omega) (Or.inl rfl) ⟨_, hk, fun z hz => by
        have := before z hz; omega⟩,
      h ((k + 1 : Nat) : Int) (k + 1) hindl (Or.inl rfl) ⟨b, hbi, fun z hz => by
        have := before z hz; omega⟩]
  · rw [indexOf_eq t false h0 h1, if_pos ⟨rfl, c3, c4⟩]

/-! ## Depth -/

/-- A depth object reads only the levels `L` allows for each point. -/
def DepthLocal {P : Type} (ds : DepthSys K P) (m : Nat) (L : P → Nat → Prop) (pts : List P) : Prop :=
  ∀ val val' : Int → List P → Except Err (List (Cell K)),
    (∀ (k : Int) (ps : List P), (∀ p ∈ ps, p ∈ pts ∧ ∀ n < m, (k = n ∨ k + m = n) → L p n) →
      val' k ps = val k ps) →
    depthStage ds m val' pts = depthStage ds m val pts

/-- With no restriction on the levels this holds of every depth object. -/
theorem depthLocal_all {P : Type} (ds : DepthSys K P) (m : Nat) (pts : List P) :
    DepthLocal ds m (fun _ _ => True) pts := by
  intro val val' h
  have hv : ∀ (k : Int) (l : List Nat), val' k (pick pts l) = val k (pick pts l) := fun k l =>
    h k _ fun p hp => ⟨mem_pick hp, fun _ _ _ => trivial⟩
  unfold depthStage
  rcases ds.alphas pts with x | ents
  · rfl
  simp only
  split
  · rfl
  split
  · generalize (ents.map fun e => ({ value := none, masked := e.masked } : Cell K)) = out
    generalize uniqIdx ents = ks
    induction ks generalizing out with
    | nil => rfl
    | cons k ks ih =>
      simp only [layerCells, hv]
      split
      · rfl
      · exact ih _
  · generalize (ents.map fun e => ({ value := none, masked := e.masked } : Cell K)) = out
    generalize (none : Option (List Nat)) = lay
    have : ∀ (ks : List Int) (lay : Option (List Nat)) (out : List (Cell K)),
        levelCells m ents val' pts ks (lay, out) = levelCells m ents val pts ks (lay, out) := by
      intro ks
      induction ks with
      | nil => intro _ _; rfl
      | cons k ks ih =>
        intro lay out
        simp only [levelCells, hv, ih]
    rw [this]

theorem consecutive_gap {levels : List K} (hs : StrictIncr levels ∨ StrictDecr levels) {j : Nat}
    {a b : K} (ha : levels[j]? = some a) (hb : levels[j + 1]? = some b) :
    ∀ x ∈ levels, ¬ (a < x ∧ x < b) ∧ ¬ (b < x ∧ x < a) := by
  intro x hx
  obtain ⟨n, hn⟩ := List.getElem?_of_mem hx
  rcases Nat.lt_trichotomy n j with g | rfl | g
  · rcases hs with hs | hs
    · have h1 := Np.pairwise_get?_lt hs g hn ha
      have h2 := Np.pairwise_get?_lt hs (Nat.lt_succ_self j) ha hb
      exact ⟨fun h => absurd h.1 (lt_asymm h1), fun h => absurd (lt_trans h.1 h.2) (lt_asymm h2)⟩
    · have h1 := Np.pairwise_get?_lt hs g hn ha
      have h2 := Np.pairwise_get?_lt hs (Nat.lt_succ_self j) ha hb
      exact ⟨fun h => absurd (lt_trans h.1 h.2) (lt_asymm h2), fun h => absurd h.2 (lt_asymm h1)⟩
  · rw [ha] at hn; cases hn
    exact ⟨fun h => lt_irrefl _ h.1, fun h => lt_irrefl _ h.2⟩
  · rcases Nat.lt_or_eq_of_le (show j + 1 ≤ n by omega) with g | rfl
    · rcases hs with hs | hs
      · have h1 := Np.pairwise_get?_lt hs g hb hn
        have h2 := Np.pairwise_get?_lt hs (Nat.lt_succ_self j) ha hb
        exact ⟨fun h => absurd h.2 (lt_asymm h1), fun h => absurd (lt_trans h.1 h.2) (lt_asymm h2)⟩
      · have h1 := Np.pairwise_get?_lt hs g hb hn
        have h2 := Np.pairwise_get?_lt hs (Nat.lt_succ_self j) ha hb
        exact ⟨fun h => absurd (lt_trans h.1 h.2) (lt_asymm h2), fun h => absurd h.1 (lt_asymm h1)⟩
    · rw [hb] at hn; cases hn
      exact ⟨fun h => lt_irrefl _ h.2, fun h => lt_irrefl _ h.1⟩

/-- Levels and points strictly before the level listed last. -/
theorem depthLocal_levels {P : Type} (z : P → K) (levels : List K)
    (hs : StrictIncr levels ∨ StrictDecr levels) (hn : 2 ≤ levels.length) (sbc bbc : BC)
    (pts : List P) (hz : ∀ p ∈ pts, WithinLevels levels (z p)) :
    DepthLocal (levelSys z levels sbc bbc) levels.length (fun p n => NextTo levels (z p) n) pts := by
  intro val val' h
  obtain ⟨ents, he, ⟨hlen, hbefore⟩, hp⟩ := levelSys_picks z levels hs hn sbc bbc pts hz
  have hv : ∀ (k : Int) (i : Int), (i = k ∨ i = k + 1) →
      val' i (pick pts (groupOf ents k)) = val i (pick pts (groupOf ents k)) := by
    intro k i hi
    refine h i _ fun p hpp => ⟨mem_pick hpp, ?_⟩
    obtain ⟨q, hq, hpq⟩ := List.mem_filterMap.mp hpp
    obtain ⟨en, hen, _, hk⟩ := mem_groupOf.mp hq
    obtain ⟨hun, α, j, a, b, hα, hj, ha, hb, hab⟩ := hp q p en hpq hen
    obtain ⟨_, α', hα', h0, h1, _⟩ := hbefore en (List.mem_of_getElem? hen) hun
    rw [hα] at hα'; cases hα'
    intro n hnl hni
    have hnj : n = j ∨ n = j + 1 := by omega
    have hgap := consecutive_gap hs ha hb
    have hbet : (a ≤ z p ∧ z p ≤ b) ∨ (b ≤ z p ∧ z p ≤ a) := by
      rcases le_total a b with g | g
      · refine Or.inl ⟨?_, ?_⟩ <;> nlinarith [mul_nonneg (sub_nonneg.mpr g) h0,
          mul_nonneg (sub_nonneg.mpr g) (sub_nonneg.mpr h1)]
      · refine Or.inr ⟨?_, ?_⟩ <;> nlinarith [mul_nonneg (sub_nonneg.mpr g) h0,
          mul_nonneg (sub_nonneg.mpr g) (sub_nonneg.mpr h1)]
    rcases hnj with rfl | rfl
    · refine ⟨a, ha, fun x hx => ⟨fun hh => ?_, fun hh => ?_⟩⟩
      · rcases hbet with g | g
        · exact (hgap x hx).1 ⟨hh.1, lt_of_lt_of_le hh.2 g.2⟩
        · exact absurd (lt_trans hh.1 hh.2) (not_lt.mpr g.2)
      · rcases hbet with g | g
        · exact absurd (lt_trans hh.1 hh.2) (not_lt.mpr g.1)
        · exact (hgap x hx).2 ⟨lt_of_le_of_lt g.1 hh.1, hh.2⟩
    · refine ⟨b, hb, fun x hx => ⟨fun hh => ?_, fun hh => ?_⟩⟩
      · rcases hbet with g | g
        · exact absurd (lt_trans hh.1 hh.2) (not_lt.mpr g.2)
        · exact (hgap x hx).2 ⟨hh.1, lt_of_lt_of_le hh.2 g.2⟩
      · rcases hbet with g | g
        · exact (hgap x hx).1 ⟨lt_of_le_of_lt g.1 hh.1, hh.2⟩
        · exact absurd (lt_trans hh.1 hh.2) (not_lt.mpr g.1)
  have hk : ∀ k ∈ uniqIdx ents, k ≠ (levels.length : Int) - 1 := by
    intro k hk
    obtain ⟨j, en, hen, hun, rfl⟩ := mem_uniqIdx.mp hk
    exact (hbefore en (List.mem_of_getElem? hen) hun).1
  unfold depthStage
  rw [he]
  simp only
  split
  · rfl
  have hne : levels.length ≠ (levelSys z levels sbc bbc).numLayers := by
    show levels.length ≠ levels.length - 1; omega
  rw [if_neg hne, if_neg hne]
  have : ∀ (ks : List Int), (∀ k ∈ ks, k ≠ (levels.length : Int) - 1) →
      ∀ (lay : Option (List Nat)) (out : List (Cell K)),
      levelCells levels.length ents val' pts ks (lay, out) =
        levelCells levels.length ents val pts ks (lay, out) := by
    intro ks
    induction ks with
    | nil => intro _ _ _; rfl
    | cons k ks ih =>
      intro hk lay out
      simp only [levelCells, if_neg (hk k List.mem_cons_self), hv k k (Or.inl rfl),
        hv k (k + 1) (Or.inr rfl), ih fun x hx => hk x (List.mem_cons_of_mem _ hx)]
  rw [this _ hk]

/-! ## Whole evaluations -/

/-- Data with times and levels: if the slices of the times next to `t` and of the levels allowed for
some of the points give the same, the evaluations agree. -/
theorem eval_local {P σ : Type} (xy : σ → List P → Except Err (List (Cell K))) {times : List Int}
    (hs : StrictIncr times) (ds : DepthSys K P) (d d' : List (List σ)) (hl : d.length = times.length)
    (hd : Alike (fun r r' => r.length = r'.length) d d') (hr : ∀ r ∈ d, r.length = (d.headD []).length)
    (t : Int) (e : Bool) (L : P → Nat → Prop) (pts : List P)
    (hD : DepthLocal ds (d.headD []).length L pts)
    (h : ∀ (i k : Nat) (r r' : List σ) (s s' : σ), NextTo times t i → d[i]? = some r →
      d'[i]? = some r' → r[k]? = some s → r'[k]? = some s' → ∀ ps : List P,
      (∀ p ∈ ps, p ∈ pts ∧ L p k) → xy s' ps = xy s ps) :
    eval xy times ds (.timeDepth d') pts t e = eval xy times ds (.timeDepth d) pts t e := by
  have hm : (d'.headD []).length = (d.headD []).length := by
    obtain ⟨h1, h2⟩ := hd
    cases d with
    | nil => cases d' with
      | nil => rfl
      | cons => simp at h1
    | cons x d => cases d' with
      | nil => simp at h1
      | cons y d' => exact (h2 0 x y rfl rfl).symm
  unfold eval
  simp only [hm]
  refine timeStage_local hs t e fun i n hn hi hnext => hD _ _ fun k ps hps => ?_
  unfold slice2
  rcases pyGet_pair hd.1 i with ⟨g, g'⟩ | ⟨n', r, r', hn', hi', hr1, hr2, g, g'⟩
  · rw [g, g']
  have : n' = n := by omega
  subst this
  rw [g, g']
  simp only
  have hrl := hd.2 n' r r' hr1 hr2
  have hr0 := hr r (List.mem_of_getElem? hr1)
  rcases pyGet_pair hrl k with ⟨q, q'⟩ | ⟨k', s, s', hk', hki, hs1, hs2, q, q'⟩
  · rw [q, q']
  rw [q, q']
  exact h n' k' r r' s s' hnext hr1 hr2 hs1 hs2 ps fun p hp =>
    ⟨(hps p hp).1, (hps p hp).2 k' (by omega) (by omega)⟩

/-- Data with times only. -/
theorem eval_local_time {P σ : Type} (xy : σ → List P → Except Err (List (Cell K))) {times : List Int}
    (hs : StrictIncr times) (ds : DepthSys K P) (d d' : List σ) (hl : d.length = times.length)
    (hd : d.length = d'.length) (t : Int) (e : Bool) (pts : List P)
    (h : ∀ (i : Nat) (s s' : σ), NextTo times t i → d[i]? = some s → d'[i]? = some s' →
      xy s' pts = xy s pts) :
    eval xy times ds (.time d') pts t e = eval xy times ds (.time d) pts t e := by
  unfold eval
  refine timeStage_local hs t e fun i n hn hi hnext => ?_
  rcases pyGet_pair hd i with ⟨g, g'⟩ | ⟨n', r, r', hn', hi', hr1, hr2, g, g'⟩
  · rw [g, g']
  have : n' = n := by omega
  subst this
  rw [g, g']
  exact h n' r r' hnext hr1 hr2

/-! ## Horizontally -/

theorem xyU_local (m : UGeom.Mesh K) (hm : ∀ f ∈ m.faces, ∀ a ∈ f, 0 ≤ a) (loc : UGeom.Loc)
    (s s' : List (Option K)) (hl : s.length = s'.length) (ps : List (UPt K))
    (hp : ∀ p ∈ ps, p.face = -1 ∨ ∃ k : Nat, p.face = k)
    (h : ∀ p ∈ ps, ∀ n, UsesU m loc p n → s[n]? = s'[n]?)
    (hf : (∀ p ∈ ps, p.face ≠ -1) ∨ ((∀ v ∈ s, v ≠ none) ∧ ∀ v ∈ s', v ≠ none)) :
    xyU m loc s' ps = xyU m loc s ps := by
  have get : ∀ (n : Nat), s[n]? = s'[n]? → Np.pyGet s' (n : Int) = Np.pyGet s (n : Int) := by
    intro n hn
    unfold Np.pyGet
    simp only [Int.natCast_nonneg, if_true, Int.toNat_natCast, hn]
  have zero : ∀ (a : Int), ((∀ v ∈ s, v ≠ none) ∧ ∀ v ∈ s', v ≠ none) →
      (Np.pyGet s a = .error .indexError ∧ Np.pyGet s' a = .error .indexError) ∨
      ∃ x y : K, Np.pyGet s a = .ok (some x) ∧ Np.pyGet s' a = .ok (some y) := by
    intro a hfin
    rcases pyGet_pair hl a with g | ⟨n, x, x', _, _, h1, h2, g, g'⟩
    · exact Or.inl g
    · have n1 := hfin.1 x (List.mem_of_getElem? h1)
      have n2 := hfin.2 x' (List.mem_of_getElem? h2)
      rcases x with _ | x
      · exact absurd rfl n1
      rcases x' with _ | y
      · exact absurd rfl n2
      exact Or.inr ⟨x, y, g, g'⟩
  have key : UGeom.interpolate m loc s' (ps.map fun p => (p.face, p.pos)) =
      UGeom.interpolate m loc s (ps.map fun p => (p.face, p.pos)) := by
    unfold UGeom.interpolate
    cases loc with
    | boundary => rfl
    | face =>
      simp only
      rw [mapE_congr (l := ps.map fun p => (p.face, p.pos))
        (f := fun q => UGeom.interpFace s' q.1) (g := fun q => UGeom.interpFace s q.1)]
      intro q hq
      obtain ⟨p, hpp, rfl⟩ := List.mem_map.mp hq
      simp only [UGeom.interpFace]
      rcases hp p hpp with h1 | ⟨k, h1⟩
      · rcases hf with hf | hf
        · exact absurd h1 (hf p hpp)
        rw [h1]
        rcases zero (-1) hf with ⟨g, g'⟩ | ⟨x, y, g, g'⟩
        · rw [g, g']
        · rw [g, g']; simp [UGeom.fmul]
      · rw [h1, get k (h p hpp k h1)]
    | node =>
      simp only
      rw [mapE_congr (l := ps.map fun p => (p.face, p.pos))
        (f := fun q => UGeom.interpNode m s' q.1 q.2) (g := fun q => UGeom.interpNode m s q.1 q.2)]
      intro q hq
      obtain ⟨p, hpp, rfl⟩ := List.mem_map.mp hq
      simp only [UGeom.interpNode]
      rcases hp p hpp with h1 | ⟨k, h1⟩
      · rcases hf with hf | hf
        · exact absurd h1 (hf p hpp)
        rw [h1]
        split
        · rfl
        · rename_i a b c _
          split
          · rcases zero a hf with ⟨g, g'⟩ | ⟨x, y, g, g'⟩ <;>
              rcases zero b hf with ⟨i, i'⟩ | ⟨x2, y2, i, i'⟩ <;>
              rcases zero c hf with ⟨j, j'⟩ | ⟨x3, y3, j, j'⟩ <;>
              simp [g, g', i, i', j, j', UGeom.fmul]
          · rfl
        · rfl
      · rw [h1]
        have corner : ∀ f, Np.pyGet m.faces (k : Int) = .ok f → ∀ a ∈ f,
            Np.pyGet s' a = Np.pyGet s a := by
          intro f hfa a ha
          have hfk : m.faces[k]? = some f := by
            unfold Np.pyGet at hfa
            simp only [Int.natCast_nonneg, if_true, Int.toNat_natCast] at hfa
            split at hfa
            · rename_i x hx; cases hfa; exact hx
            · cases hfa
          have h0 := hm f (List.mem_of_getElem? hfk) a ha
          obtain ⟨n, rfl⟩ : ∃ n : Nat, a = n := ⟨a.toNat, by omega⟩
          exact get n (h p hpp n ⟨k, f, h1, hfk, ha⟩)
        split
        · rfl
        · rename_i a b c hfa
          have hc := corner _ hfa
          rw [hc a (by simp), hc b (by simp), hc c (by simp)]
        · rfl
  unfold xyU
  rw [key]

theorem applyPadding_low {p : SIndex.Pad × SIndex.Pad} {i j : Nat} {idx : Int × Int}
    (h : SIndex.applyPadding p ((i : Int), (j : Int)) = .ok idx) :
    idx = (((i + lowPads p.1 : Nat) : Int), ((j + lowPads p.2 : Nat) : Int)) := by
  obtain ⟨p, q⟩ := p
  cases p <;> cases q <;> simp [SIndex.applyPadding, SIndex.shift] at h <;> simp [← h, lowPads]

theorem Spec.SameAt.atIndex {α : Type*} {A A' : List (List α)} {c c' : Nat} (hr : Rectangular c A)
    (hr' : Rectangular c' A') {i j : Nat} (h : SameAt A A' i j) :
    SIndex.atIndex A' ((i : Int), (j : Int)) = SIndex.atIndex A ((i : Int), (j : Int)) := by
  obtain ⟨v, h1, h2⟩ := h
  rw [SIndex.atIndex_eq c A hr i j v h1, SIndex.atIndex_eq c' A' hr' i j v h2]

theorem Spec.SameAt.byIndex {α : Type*} {A A' : List (List α)} {c c' : Nat} (hr : Rectangular c A)
    (hr' : Rectangular c' A') {i j : Nat} (h0 : SameAt A A' i j) (h1 : SameAt A A' (i + 1) j)
    (h2 : SameAt A A' (i + 1) (j + 1)) (h3 : SameAt A A' i (j + 1)) :
    SIndex.byIndex A' ((i : Int), (j : Int)) = SIndex.byIndex A ((i : Int), (j : Int)) := by
  obtain ⟨v0, a0, b0⟩ := h0
  obtain ⟨v1, a1, b1⟩ := h1
  obtain ⟨v2, a2, b2⟩ := h2
  obtain ⟨v3, a3, b3⟩ := h3
  rw [SIndex.byIndex_eq c A hr i j _ _ _ _ a0 a1 a2 a3, SIndex.byIndex_eq c' A' hr' i j _ _ _ _ b0 b1 b2 b3]

theorem edgeValues_local (g : SInterp.Grid K) (loc : SIndex.Loc) (hloc : loc = .edge1 ∨ loc = .edge2)
    {A A' : List (List (SInterp.MV K))} {c c' : Nat} (hr : Rectangular c A) (hr' : Rectangular c' A')
    (p : SPt K) (i j : Nat) (hc : p.cell = some ((i : Int), (j : Int)))
    (h : ∀ r c, UsesS g loc p r c → SameAt A A' r c) :
    SInterp.edgeValues g loc A' ((i : Int), (j : Int)) =
      SInterp.edgeValues g loc A ((i : Int), (j : Int)) := by
  unfold SInterp.edgeValues
  rcases SIndex.applyPadding (g.pads .center) ((i : Int), (j : Int)) with x | ctr
  · rfl
  rcases hi : SIndex.applyPadding (g.pads loc) ((i : Int), (j : Int)) with x | idx
  · rfl
  have := applyPadding_low hi
  subst this
  simp only
  rcases hloc with rfl | rfl
  · have e2 : SInterp.plus (((i + lowPads (g.pads .edge1).1 : Nat) : Int),
        ((j + lowPads (g.pads .edge1).2 : Nat) : Int)) (SInterp.edgeStep .edge1) =
        (((i + lowPads (g.pads .edge1).1 : Nat) : Int),
          ((j + lowPads (g.pads .edge1).2 + 1 : Nat) : Int)) := by
      simp [SInterp.plus, SInterp.edgeStep]
    rw [e2, (h _ _ ⟨i, j, hc, rfl, Or.inl rfl⟩).atIndex hr hr',
      (h _ _ ⟨i, j, hc, rfl, Or.inr rfl⟩).atIndex hr hr']
  · have e2 : SInterp.plus (((i + lowPads (g.pads .edge2).1 : Nat) : Int),
        ((j + lowPads (g.pads .edge2).2 : Nat) : Int)) (SInterp.edgeStep .edge2) =
        (((i + lowPads (g.pads .edge2).1 + 1 : Nat) : Int),
          ((j + lowPads (g.pads .edge2).2 : Nat) : Int)) := by
      simp [SInterp.plus, SInterp.edgeStep]
    rw [e2, (h _ _ ⟨i, j, hc, Or.inl rfl, rfl⟩).atIndex hr hr',
      (h _ _ ⟨i, j, hc, Or.inr rfl, rfl⟩).atIndex hr hr']

theorem xyS_local (sqrt : K → K) (g : SInterp.Grid K) (loc : SIndex.Loc)
    {A A' : List (List (SInterp.MV K))} {c c' : Nat} (hr : Rectangular c A) (hr' : Rectangular c' A')
    (ps : List (SPt K))
    (hp : ∀ p ∈ ps, p.cell = none ∨ ∃ i j : Nat, p.cell = some ((i : Int), (j : Int)))
    (h : ∀ p ∈ ps, ∀ r c, UsesS g loc p r c → SameAt A A' r c) :
    xyS sqrt g (some loc) A' ps = xyS sqrt g (some loc) A ps := by
  have edges : ∀ l : SIndex.Loc, (l = .edge1 ∨ l = .edge2) → loc = l →
      mapE (SInterp.edgeRow sqrt g l A') (ps.map fun p => (p.pos, p.cell)) =
        mapE (SInterp.edgeRow sqrt g l A) (ps.map fun p => (p.pos, p.cell)) := by
    intro l hl hll
    subst hll
    refine mapE_congr fun q hq => ?_
    obtain ⟨p, hpp, rfl⟩ := List.mem_map.mp hq
    unfold SInterp.edgeRow
    rcases hp p hpp with hc | ⟨i, j, hc⟩
    · simp only [hc]
    · simp only [hc, edgeValues_local g loc hl hr hr' p i j hc (h p hpp)]
  have key : SInterp.interpolate sqrt g (some loc) false A' (ps.map fun p => (p.pos, p.cell)) =
      SInterp.interpolate sqrt g (some loc) false A (ps.map fun p => (p.pos, p.cell)) := by
    unfold SInterp.interpolate
    split
    · rfl
    cases loc with
    | center =>
      refine mapE_congr fun q hq => ?_
      obtain ⟨p, hpp, rfl⟩ := List.mem_map.mp hq
      rcases hp p hpp with hc | ⟨i, j, hc⟩
      · simp only [hc]
      · simp only [hc, SInterp.centerValue]
        rcases hi : SIndex.applyPadding (g.pads .center) ((i : Int), (j : Int)) with x | idx
        · rfl
        have := applyPadding_low hi
        subst this
        simp only
        rw [(h p hpp _ _ ⟨i, j, hc, rfl, rfl⟩).atIndex hr hr']
    | node =>
      simp only [Bool.false_eq_true, if_false]
      refine mapE_congr fun q hq => ?_
      obtain ⟨p, hpp, rfl⟩ := List.mem_map.mp hq
      rcases hp p hpp with hc | ⟨i, j, hc⟩
      · simp only [hc]
      · simp only [hc, SInterp.nodeValue]
        rcases hi : SIndex.applyPadding (g.pads .node) ((i : Int), (j : Int)) with x | idx
        · rfl
        have := applyPadding_low hi
        subst this
        simp only
        have hh := fun r c hu => h p hpp r c ⟨i, j, hc, hu⟩
        rw [SameAt.byIndex hr hr' (hh _ _ ⟨Or.inl rfl, Or.inl rfl⟩) (hh _ _ ⟨Or.inr rfl, Or.inl rfl⟩)
          (hh _ _ ⟨Or.inr rfl, Or.inr rfl⟩) (hh _ _ ⟨Or.inl rfl, Or.inr rfl⟩)]
    | edge1 =>
      simp only [Bool.false_eq_true, if_false]
      rw [edges .edge1 (Or.inl rfl) rfl]
    | edge2 =>
      simp only [Bool.false_eq_true, if_false]
      rw [edges .edge2 (Or.inr rfl) rfl]
  unfold xyS
  rw [key]

end

end Verif
