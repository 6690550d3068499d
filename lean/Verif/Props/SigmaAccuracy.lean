import Verif.Props.Accuracy
import Verif.Props.SigmaAt

/-!
# C172, C173: how close results on sigma levels are to the field the data were taken from
-/

set_option autoImplicit false

namespace Verif
open Verif.At Verif.DepthM Verif.Spec Verif.TimeM Verif.UGeom

section
variable {K P σ N : Type} [Field K] [LinearOrder K] [IsStrictOrderedRing K]

/-! ## The horizontal stage as a mean -/

/-- `I p F` is a mean of the values of `F` at the corners of the cell of `p`, exact for linear
functions. -/
structure MeanAt (I : P → (N → K) → K) (pos : P → K × K) (npos : N → K × K) (Corner : P → N → Prop)
    (p : P) : Prop where
  add : ∀ F G, I p (fun n => F n + G n) = I p F + I p G
  mul : ∀ c F, I p (fun n => c * F n) = c * I p F
  lin : ∀ c : K × K × K, I p (fun n => c.1 + c.2.1 * (npos n).1 + c.2.2 * (npos n).2) =
    c.1 + c.2.1 * (pos p).1 + c.2.2 * (pos p).2
  nonneg : ∀ F, (∀ n, Corner p n → 0 ≤ F n) → 0 ≤ I p F

variable {I : P → (N → K) → K} {pos : P → K × K} {npos : N → K × K} {Corner : P → N → Prop} {p : P}

theorem MeanAt.const (M : MeanAt I pos npos Corner p) (c : K) : I p (fun _ => c) = c := by
  have := M.lin (c, 0, 0)
  simpa using this

theorem MeanAt.sub (M : MeanAt I pos npos Corner p) (F G : N → K) :
    I p (fun n => F n - G n) = I p F - I p G := by
  have h1 := M.mul (-1) G
  have h2 := M.add F (fun n => -1 * G n)
  rw [h1] at h2
  rw [show (fun n => F n - G n) = fun n => F n + -1 * G n by funext n; ring, h2]
  ring

theorem MeanAt.mono (M : MeanAt I pos npos Corner p) (F G : N → K)
    (h : ∀ n, Corner p n → F n ≤ G n) : I p F ≤ I p G := by
  have := M.nonneg (fun n => G n - F n) (fun n hn => sub_nonneg.2 (h n hn))
  rw [M.sub] at this
  linarith

theorem MeanAt.close (M : MeanAt I pos npos Corner p) (F G : N → K) (E : K)
    (h : ∀ n, Corner p n → |F n - G n| ≤ E) : |I p F - I p G| ≤ E := by
  have h1 := M.mono (fun n => F n - G n) (fun _ => E) (fun n hn => (abs_le.mp (h n hn)).2)
  have h2 := M.mono (fun _ => -E) (fun n => F n - G n) (fun n hn => (abs_le.mp (h n hn)).1)
  rw [M.sub, M.const] at h1 h2
  exact abs_le.mpr ⟨h2, h1⟩

theorem MeanAt.near (M : MeanAt I pos npos Corner p) (F : N → K) (c E : K)
    (h : ∀ n, Corner p n → |F n - c| ≤ E) : |I p F - c| ≤ E := by
  have := M.close F (fun _ => c) E h
  rwa [M.const] at this

/-! ## What is computed -/

/-- Two times that are the same or next to each other on the axis. -/
def NextTimes (times : List Int) (a b : Int) : Prop :=
  ∃ i j : Nat, times[i]? = some a ∧ times[j]? = some b ∧ i ≤ j + 1 ∧ j ≤ i + 1

theorem NextTimes.symm {times : List Int} {a b : Int} (h : NextTimes times a b) :
    NextTimes times b a := by
  obtain ⟨i, j, h1, h2, h3, h4⟩ := h
  exact ⟨j, i, h2, h1, h4, h3⟩

theorem NextTimes.left {times : List Int} {a b : Int} (h : NextTimes times a b) :
    NextTimes times a a := by
  obtain ⟨i, j, h1, h2, h3, h4⟩ := h
  exact ⟨i, i, h1, h1, by omega, by omega⟩

private theorem nextTimes_of {times : List Int} {t : Int} {e : Bool} {i j : Nat} {α : K} {a b : Int}
    (hw : TimeWeights times t e i j α) (ha : times[i]? = some a) (hb : times[j]? = some b) :
    NextTimes times a b := by
  obtain ⟨_, _, hi, hj, hc⟩ := hw
  refine ⟨i, j, ha, hb, ?_⟩
  rcases hc with ⟨h1, h2, _⟩ | h1 | ⟨_, h, _⟩ <;> omega

/-- The value between two levels and two times. -/
def mixed (α β : K) (x00 x01 x10 x11 : K) : K :=
  (1 - α) * ((1 - β) * x00 + β * x01) + α * ((1 - β) * x10 + β * x11)

theorem near_mixed {α β x00 x01 x10 x11 y00 y01 y10 y11 E : K} (a0 : 0 ≤ α) (a1 : α ≤ 1)
    (b0 : 0 ≤ β) (b1 : β ≤ 1) (h0 : |x00 - y00| ≤ E) (h1 : |x01 - y01| ≤ E) (h2 : |x10 - y10| ≤ E)
    (h3 : |x11 - y11| ≤ E) : |mixed α β x00 x01 x10 x11 - mixed α β y00 y01 y10 y11| ≤ E :=
  near_mix a0 a1 (near_mix b0 b1 h0 h1) (near_mix b0 b1 h2 h3)

/-- What an evaluation with data over time and levels computes: the mean over two times and two levels of
what the horizontal stage gives, with the weight in time that also gives the free surface. -/
theorem sigma_formula (xy : σ → List P → Except Err (List (Cell K)))
    (Q : P → Prop) (Hold : (N → K) → σ → Prop)
    (hxy : ∀ F s, Hold F s → ∀ ps : List P, (∀ p ∈ ps, Q p) →
      xy s ps = .ok (ps.map fun p => { value := some (I p F), masked := false }))
    (times : List Int) (hs : StrictIncr times) {τ : K} (hτ : 0 ≤ τ)
    (hst : StepsAtMost (times.map fun x : Int => (x : K)) τ) (m : Nat) (hn : 2 ≤ m)
    (V : Int → Nat → N → K) (ζ : Int → N → K) (zs : List σ)
    (hzs : List.Forall₂ (fun (ti : Int) s => Hold (ζ ti) s) times zs) (data : List (List σ))
    (hdata : List.Forall₂ (fun (ti : Int) row => row.length = m ∧
      ∀ (k : Nat) (s : σ), row[k]? = some s → Hold (V ti k) s) times data)
    (t : Int) (e : Bool) (ht : OnAxis times t) (pts : List P) (hq : ∀ p ∈ pts, Q p) (Z : P → K)
    (ds : DepthSys K P)
    (hZ : eval xy times ds (.time zs) pts t e =
      .ok (pts.map fun p => { value := some (Z p), masked := false }))
    (hnl : m ≠ ds.numLayers) (ents : List (Entry K)) (ha : ds.alphas pts = .ok ents)
    (hpk : PicksBeforeLast m ents pts)
    (hun : ∀ en ∈ ents, en.masked = false ∧ ∃ (β : K) (k : Nat), en.alpha = some β ∧
      en.idx = (k : Int) ∧ k + 1 < m) :
    ∃ (ta tb : Int) (α : K), 0 ≤ α ∧ α ≤ 1 ∧ (ta : K) + α * ((tb : K) - (ta : K)) = (t : K) ∧
      NextTimes times ta tb ∧ |(ta : K) - t| ≤ τ ∧ |(tb : K) - t| ≤ τ ∧
      (∀ p ∈ pts, Z p = (1 - α) * I p (ζ ta) + α * I p (ζ tb)) ∧
      ∃ out, eval xy times ds (.timeDepth data) pts t e = .ok out ∧ out.length = pts.length ∧
        ∀ (n : Nat) (p : P) (c : Cell K), pts[n]? = some p → out[n]? = some c →
          ∃ (en : Entry K) (β : K) (k : Nat), ents[n]? = some en ∧ en.alpha = some β ∧
            en.idx = (k : Int) ∧ 0 ≤ β ∧ β ≤ 1 ∧ c.masked = false ∧
            c.value = some (mixed α β (I p (V ta k)) (I p (V ta (k + 1))) (I p (V tb k))
              (I p (V tb (k + 1)))) := by
  have hne : times ≠ [] := by
    obtain ⟨lo, hi, h0, _⟩ := ht
    rintro rfl
    simp at h0
  let T : Nat → Int := fun i => (times[i]?).getD 0
  have hg := List.forall₂_iff_get.mp hdata
  have hserve : ServedBy xy times m data Q (fun i k p => I p (V (T i) k)) := by
    refine ⟨hg.1.symm, ?_, ?_⟩
    · intro r hr
      obtain ⟨i, hi, rfl⟩ := List.getElem_of_mem hr
      exact (hg.2 i (by omega) hi).1
    · intro i k r s hr hsl ps hps
      obtain ⟨hi, rfl⟩ := List.getElem?_eq_some_iff.mp hr
      have hi' : i < times.length := by omega
      have := hxy _ _ ((hg.2 i hi' hi).2 k s hsl) ps hps
      rw [this]
      simp only [T, List.getElem?_eq_getElem hi', Option.getD_some, List.get_eq_getElem]
  obtain ⟨i, j, α, hw, hcase⟩ := timeStage_cases (K := K) hs hne t e (Or.inr (Or.inr ht))
  obtain ⟨ta, tb, hta, htb, hab, na, nb⟩ := times_near hs ht hτ hst hw
  have hTi : T i = ta := by simp only [T, hta, Option.getD_some]
  have hTj : T j = tb := by simp only [T, htb, Option.getD_some]
  have hgz := List.forall₂_iff_get.mp hzs
  have hZ' := surface_of_case xy times zs hgz.1.symm Q (fun i p => I p (ζ (T i))) (by
    intro i s hi ps hps
    obtain ⟨hi2, rfl⟩ := List.getElem?_eq_some_iff.mp hi
    have hi' : i < times.length := by omega
    have := hxy _ _ (hgz.2 i hi' hi2) ps hps
    rw [show zs[i] = zs.get ⟨i, hi2⟩ from rfl, this]
    simp only [T, List.getElem?_eq_getElem hi', Option.getD_some, List.get_eq_getElem])
    t e i j α hw hcase ds pts hq
  rw [hZ] at hZ'
  refine ⟨ta, tb, α, hw.1, hw.2.1, hab, nextTimes_of hw hta htb, na, nb, ?_, ?_⟩
  · intro p hp
    simp only [Except.ok.injEq] at hZ'
    have := List.map_inj_left.mp hZ' p hp
    rw [hTi, hTj] at this
    simpa using this
  obtain ⟨out, ho, hol, hr⟩ := levels_of_case xy times hne m hn data Q _ hserve t e i j α hw
    hcase ds pts ents hq hnl ha hpk
  refine ⟨out, ho, hol, ?_⟩
  intro n p c hp hc
  have hnl' : n < pts.length := (List.getElem?_eq_some_iff.mp hp).1
  obtain ⟨en, hen⟩ : ∃ en, ents[n]? = some en :=
    ⟨_, List.getElem?_eq_getElem (by rw [hpk.1]; exact hnl')⟩
  have hmem := List.mem_of_getElem? hen
  obtain ⟨hm, β, k, hβ, hk, hk1⟩ := hun en hmem
  obtain ⟨_, β', hβ', b0, b1, _⟩ := hpk.2 en hmem hm
  rw [hβ] at hβ'; cases hβ'
  obtain ⟨cc, hc', hcm, hcv⟩ := hr n p en hp hen
  rw [hc] at hc'; cases hc'
  obtain ⟨β', v, w, hβ', hv, hw', hval⟩ := hcv hm
  rw [hβ] at hβ'; cases hβ'
  have hmix : ∀ (x : K) (i : Nat), LevelMix m (fun k => I p (V (T i) k)) en.idx β x →
      x = (1 - β) * I p (V (T i) k) + β * I p (V (T i) (k + 1)) := by
    intro x i hx
    rcases hx with ⟨k', h1, h2, h3⟩ | ⟨h1, _, _⟩ | ⟨h1, _, _⟩
    · obtain rfl : k' = k := by omega
      exact h3
    · omega
    · omega
  refine ⟨en, β, k, hen, hβ, hk, b0, b1, by rw [hcm, hm], ?_⟩
  rw [hval, hmix v i hv, hmix w j hw', hTi, hTj]
  rfl

/-! ## Levels near a point -/

/-- In cells and between neighbouring times the depth of the water changes no more than `η`; it is at
most `deep`. `Share` relates the nodes of a cell. -/
def WaterAtMost (Share : N → N → Prop) (times : List Int) (D : Int → N → K) (η deep : K) : Prop :=
  ∀ n n', Share n n' → ∀ ta tb, NextTimes times ta tb → |D ta n - D tb n'| ≤ η ∧ |D ta n| ≤ deep

/-- In cells the parts of the water above a level and above the next differ at most by `ρ`. -/
def SharesAtMost (Share : N → N → Prop) (m : Nat) (sh : Nat → N → K) (ρ : K) : Prop :=
  ∀ n n', Share n n' → ∀ k k' : Nat, k < m → k' < m → k ≤ k' + 1 → k' ≤ k + 1 → |sh k n - sh k' n'| ≤ ρ

/-- A point between two levels of its own column is close in depth to these levels at the corners. -/
theorem level_near (M : MeanAt I pos npos Corner p) {times : List Int} {h : N → K} {ζ : Int → N → K}
    {H Z z α β : K} {ta tb : Int} (hH : H = I p h) (hZ : Z = (1 - α) * I p (ζ ta) + α * I p (ζ tb))
    (a0 : 0 ≤ α) (a1 : α ≤ 1) (b0 : 0 ≤ β) (b1 : β ≤ 1) (hnext : NextTimes times ta tb)
    {Share : N → N → Prop} (hcs : ∀ n n', Corner p n → Corner p n' → Share n n') {η deep ρ : K}
    (hw : WaterAtMost Share times (fun ti n => h n + ζ ti n) η deep) (sa sb : K)
    (ua : |sa| ≤ 1) (ub : |sb| ≤ 1) (hz : -(H + Z) * sa + (-(H + Z) * sb - -(H + Z) * sa) * β = z)
    (s : K) (n : N) (hn : Corner p n) (da : |sa - s| ≤ ρ) (db : |sb - s| ≤ ρ) (ti : Int)
    (hti : ti = ta ∨ ti = tb) : |-(h n + ζ ti n) * s - z| ≤ η + deep * ρ := by
  have hni : NextTimes times ti ta ∧ NextTimes times ti tb := by
    rcases hti with rfl | rfl
    · exact ⟨hnext.left, hnext⟩
    · exact ⟨hnext.symm, hnext.symm.left⟩
  have hW : ∀ tj, NextTimes times ti tj → |I p (fun n => h n + ζ tj n) - (h n + ζ ti n)| ≤ η := by
    intro tj hj
    refine M.near _ _ _ fun n' hn' => ?_
    rw [abs_sub_comm]
    exact (hw n n' (hcs n n' hn hn') ti tj hj).1
  have hdeep : |h n + ζ ti n| ≤ deep := (hw n n (hcs n n hn hn) ti ta hni.1).2
  have hHZ : |(H + Z) - (h n + ζ ti n)| ≤ η := by
    have g := near_mix (x := h n + ζ ti n) (y := h n + ζ ti n) a0 a1 (hW ta hni.1) (hW tb hni.2)
    rw [M.add, M.add] at g
    have e1 : (1 - α) * (I p h + I p (ζ ta)) + α * (I p h + I p (ζ tb)) = H + Z := by
      rw [hH, hZ]; ring
    have e2 : (1 - α) * (h n + ζ ti n) + α * (h n + ζ ti n) = h n + ζ ti n := by ring
    rwa [e1, e2] at g
  have hS : |((1 - β) * sa + β * sb) - s| ≤ ρ := by
    have g := near_mix (x := s) (y := s) b0 b1 da db
    have e2 : (1 - β) * s + β * s = s := by ring
    rwa [e2] at g
  have hS1 : |(1 - β) * sa + β * sb| ≤ 1 := by
    have g := near_mix (v := sa) (w := sb) (x := 0) (y := 0) (E := 1) b0 b1 (by rw [sub_zero]; exact ua)
      (by rw [sub_zero]; exact ub)
    simpa using g
  have e : -(h n + ζ ti n) * s - z = ((H + Z) - (h n + ζ ti n)) * ((1 - β) * sa + β * sb) +
      (h n + ζ ti n) * (((1 - β) * sa + β * sb) - s) := by
    rw [← hz]; ring
  rw [e]
  refine le_trans (abs_add_le _ _) ?_
  rw [abs_mul, abs_mul]
  have g1 : |H + Z - (h n + ζ ti n)| * |(1 - β) * sa + β * sb| ≤ η := by
    have := mul_le_mul hHZ hS1 (abs_nonneg _) (le_trans (abs_nonneg _) hHZ)
    rwa [mul_one] at this
  have g2 := mul_le_mul hdeep hS (abs_nonneg _) (le_trans (abs_nonneg _) hdeep)
  linarith

omit [LinearOrder K] [IsStrictOrderedRing K] in
/-- A linear function given on levels at the same shares of the water everywhere is exact. -/
theorem mixed_linear (M : ∀ F G, I p (fun n => F n + G n) = I p F + I p G)
    (Mm : ∀ c F, I p (fun n => c * F n) = c * I p F)
    (Ml : ∀ c : K × K × K, I p (fun n => c.1 + c.2.1 * (npos n).1 + c.2.2 * (npos n).2) =
      c.1 + c.2.1 * (pos p).1 + c.2.2 * (pos p).2) (a c : K × K × K) (δ : K) {h : N → K}
    {ζ : Int → N → K} {H Z z α β t : K} {ta tb : Int} (hH : H = I p h)
    (hZ : Z = (1 - α) * I p (ζ ta) + α * I p (ζ tb)) (hab : (ta : K) + α * ((tb : K) - (ta : K)) = t)
    (sa sb : K) (hz : -(H + Z) * sa + (-(H + Z) * sb - -(H + Z) * sa) * β = z) :
    mixed α β (I p fun n => (inDepth a c δ).at (npos n) (-(h n + ζ ta n) * sa) (ta : K))
      (I p fun n => (inDepth a c δ).at (npos n) (-(h n + ζ ta n) * sb) (ta : K))
      (I p fun n => (inDepth a c δ).at (npos n) (-(h n + ζ tb n) * sa) (tb : K))
      (I p fun n => (inDepth a c δ).at (npos n) (-(h n + ζ tb n) * sb) (tb : K)) =
      (inDepth a c δ).at (pos p) z t := by
  have hF : ∀ (ti : Int) (s : K), I p (fun n => (inDepth a c δ).at (npos n)
      (-(h n + ζ ti n) * s) (ti : K)) =
      (inDepth a c δ).at (pos p) (-(I p h + I p (ζ ti)) * s) (ti : K) := by
    intro ti s
    have e1 : (fun n => (inDepth a c δ).at (npos n) (-(h n + ζ ti n) * s) (ti : K)) =
        fun n => ((a.1 + (ti : K) * c.1) + (a.2.1 + (ti : K) * c.2.1) * (npos n).1 +
          (a.2.2 + (ti : K) * c.2.2) * (npos n).2) + (-(δ * s)) * (h n + ζ ti n) := by
      funext n
      unfold Multilinear.at inDepth
      ring
    have hl := Ml (a.1 + (ti : K) * c.1, a.2.1 + (ti : K) * c.2.1, a.2.2 + (ti : K) * c.2.2)
    simp only at hl
    rw [e1, M (fun n => (a.1 + (ti : K) * c.1) +
      (a.2.1 + (ti : K) * c.2.1) * (npos n).1 + (a.2.2 + (ti : K) * c.2.2) * (npos n).2), hl,
      Mm, M h]
    unfold Multilinear.at inDepth
    ring
  rw [hF, hF, hF, hF, ← hz, hH, hZ, ← hab]
  unfold mixed Multilinear.at inDepth
  ring

/-- From the horizontal stage and the picked levels to a bound for the whole evaluation. `sh k n` is the
part of the water above level `k` at the node `n`, negative; `SH p k` that at the point `p`. -/
theorem sigma_close (xy : σ → List P → Except Err (List (Cell K))) (z : P → K)
    (Q : P → Prop) (Hold : (N → K) → σ → Prop)
    (hxy : ∀ F s, Hold F s → ∀ ps : List P, (∀ p ∈ ps, Q p) →
      xy s ps = .ok (ps.map fun p => { value := some (I p F), masked := false }))
    (times : List Int) (hs : StrictIncr times) {τ : K} (hτ : 0 ≤ τ)
    (hst : StepsAtMost (times.map fun x : Int => (x : K)) τ) (m : Nat) (hn : 2 ≤ m)
    (F : SpaceTime K) (h : N → K) (ζ : Int → N → K) (sh : Nat → N → K) (zs : List σ)
    (hzs : List.Forall₂ (fun (ti : Int) s => Hold (ζ ti) s) times zs) (data : List (List σ))
    (hdata : List.Forall₂ (fun (ti : Int) row => row.length = m ∧
      ∀ (k : Nat) (s : σ), row[k]? = some s →
        Hold (fun n => F (npos n) (-(h n + ζ ti n) * sh k n) (ti : K)) s) times data)
    (t : Int) (e : Bool) (ht : OnAxis times t) (pts : List P) (hq : ∀ p ∈ pts, Q p) (H Z : P → K)
    (hH : ∀ p ∈ pts, H p = I p h) (ds : DepthSys K P)
    (hZ : eval xy times ds (.time zs) pts t e =
      .ok (pts.map fun p => { value := some (Z p), masked := false }))
    (hnl : m ≠ ds.numLayers) (ents : List (Entry K)) (ha : ds.alphas pts = .ok ents)
    (hlen : ents.length = pts.length) (SH : P → Nat → K)
    (hdetail : ∀ (n : Nat) (p : P) (en : Entry K), pts[n]? = some p → ents[n]? = some en →
      en.masked = false ∧ ∃ (β : K) (k : Nat), en.alpha = some β ∧ en.idx = (k : Int) ∧ k + 1 < m ∧
        -(H p + Z p) * SH p k + (-(H p + Z p) * SH p (k + 1) - -(H p + Z p) * SH p k) * β = z p ∧
        0 ≤ β ∧ β ≤ 1)
    (hM : ∀ p ∈ pts, MeanAt I pos npos Corner p) (Share : N → N → Prop)
    (hcs : ∀ p ∈ pts, ∀ n n', Corner p n → Corner p n' → Share n n') {η deep ρ E : K}
    (hw : WaterAtMost Share times (fun ti n => h n + ζ ti n) η deep)
    (hS1 : ∀ p ∈ pts, ∀ k < m, |SH p k| ≤ 1)
    (hSn : ∀ p ∈ pts, ∀ n, Corner p n → ∀ k k' : Nat, k < m → k' < m → k ≤ k' + 1 → k' ≤ k + 1 →
      |SH p k - sh k' n| ≤ ρ)
    (A : P → Multilinear K)
    (hE : ∀ p ∈ pts, ∀ n, Corner p n → ∀ zk tk : K, |zk - z p| ≤ η + deep * ρ → |tk - (t : K)| ≤ τ →
      |F (npos n) zk tk - (A p).at (npos n) zk tk| ≤ E)
    (hx : ∀ p ∈ pts, ∀ (ta tb : Int) (α β : K) (k : Nat), k + 1 < m →
      Z p = (1 - α) * I p (ζ ta) + α * I p (ζ tb) → (ta : K) + α * ((tb : K) - (ta : K)) = (t : K) →
      -(H p + Z p) * SH p k + (-(H p + Z p) * SH p (k + 1) - -(H p + Z p) * SH p k) * β = z p →
      mixed α β (I p fun n => (A p).at (npos n) (-(h n + ζ ta n) * sh k n) (ta : K))
        (I p fun n => (A p).at (npos n) (-(h n + ζ ta n) * sh (k + 1) n) (ta : K))
        (I p fun n => (A p).at (npos n) (-(h n + ζ tb n) * sh k n) (tb : K))
        (I p fun n => (A p).at (npos n) (-(h n + ζ tb n) * sh (k + 1) n) (tb : K)) =
        F (pos p) (z p) t) :
    ∃ out, eval xy times ds (.timeDepth data) pts t e = .ok out ∧ CloseResults pos z F t E pts out := by
  have hun : ∀ en ∈ ents, ∃ p ∈ pts, en.masked = false ∧ ∃ (β : K) (k : Nat), en.alpha = some β ∧
      en.idx = (k : Int) ∧ k + 1 < m ∧ 0 ≤ β ∧ β ≤ 1 := by
    intro en hen
    obtain ⟨n, hen⟩ := List.getElem?_of_mem hen
    have hn2 : n < pts.length := by
      rw [← hlen]; exact (List.getElem?_eq_some_iff.mp hen).1
    obtain ⟨hm, β, k, h1, h2, h3, _, h4, h5⟩ := hdetail n _ en (List.getElem?_eq_getElem hn2) hen
    exact ⟨_, List.getElem_mem hn2, hm, β, k, h1, h2, h3, h4, h5⟩
  obtain ⟨ta, tb, α, a0, a1, hab, hnext, na, nb, hZp, out, ho, hol, hall⟩ := sigma_formula (I := I)
    xy Q Hold hxy times hs hτ hst m hn
    (fun ti k n => F (npos n) (-(h n + ζ ti n) * sh k n) (ti : K)) ζ zs hzs data hdata t e ht pts hq Z
    ds hZ hnl ents ha ⟨hlen, by
      intro en hen _
      obtain ⟨_, _, _, β, k, h1, h2, h3, h4, h5⟩ := hun en hen
      exact ⟨by omega, β, h1, h4, h5, Or.inl ⟨by omega, by omega⟩⟩⟩ (by
      intro en hen
      obtain ⟨_, _, hm, β, k, h1, h2, h3, _, _⟩ := hun en hen
      exact ⟨hm, β, k, h1, h2, h3⟩)
  refine ⟨out, ho, List.forall₂_iff_get.mpr ⟨hol.symm, ?_⟩⟩
  intro n h1 h2
  have hpn : pts[n]? = some (pts.get ⟨n, h1⟩) := List.getElem?_eq_getElem h1
  have hcn : out[n]? = some (out.get ⟨n, h2⟩) := List.getElem?_eq_getElem h2
  generalize pts.get ⟨n, h1⟩ = p at hpn ⊢
  generalize out.get ⟨n, h2⟩ = c at hcn ⊢
  have hp := List.mem_of_getElem? hpn
  obtain ⟨en, β, k, hen, hβ, hk, b0, b1, hcm, hcv⟩ := hall n p c hpn hcn
  obtain ⟨_, β', k', hβ', hk', hk1, hz, _, _⟩ := hdetail n p en hpn hen
  rw [hβ] at hβ'; cases hβ'
  obtain rfl : k' = k := by omega
  refine ⟨hcm, _, hcv, ?_⟩
  rw [← hx p hp ta tb α β k' hk1 (hZp p hp) hab hz]
  have M := hM p hp
  have term : ∀ (ti : Int) (j : Nat), (ti = ta ∨ ti = tb) → (j = k' ∨ j = k' + 1) →
      |(I p fun n => F (npos n) (-(h n + ζ ti n) * sh j n) (ti : K)) -
        I p fun n => (A p).at (npos n) (-(h n + ζ ti n) * sh j n) (ti : K)| ≤ E := by
    intro ti j hti hj
    refine M.close _ _ _ fun n hn => hE p hp n hn _ _ ?_ ?_
    · refine level_near M (hH p hp) (hZp p hp) a0 a1 b0 b1 hnext (hcs p hp) hw (SH p k') (SH p (k' + 1))
        (hS1 p hp _ (by omega)) (hS1 p hp _ (by omega)) hz _ n hn
        (hSn p hp n hn _ _ (by omega) (by omega) (by omega) (by omega))
        (hSn p hp n hn _ _ (by omega) (by omega) (by omega) (by omega)) ti hti
    · rcases hti with rfl | rfl
      · exact na
      · exact nb
  exact near_mixed a0 a1 b0 b1 (term ta k' (Or.inl rfl) (Or.inl rfl))
    (term ta _ (Or.inl rfl) (Or.inr rfl)) (term tb k' (Or.inr rfl) (Or.inl rfl))
    (term tb _ (Or.inr rfl) (Or.inr rfl))

end

/-! ## Triangles -/

section
variable {K : Type} [Field K] [LinearOrder K] [IsStrictOrderedRing K]

/-- A corner of a triangle, as position and number of a node. -/
def CornerNode (m : UGeom.Mesh K) (f : Int) (n : (K × K) × Nat) : Prop :=
  ∃ a b c i : Int, Np.pyGet m.faces f = .ok [a, b, c] ∧ i ∈ [a, b, c] ∧
    Np.pyGet m.nodes.zipIdx i = .ok n

/-- Two nodes of one triangle. -/
def OneTri (m : UGeom.Mesh K) (n n' : (K × K) × Nat) : Prop :=
  ∃ f, CornerNode m f n ∧ CornerNode m f n'

private theorem tri_mean (m : UGeom.Mesh K) (p : UPt K) (hp : InItsTriangle m p) :
    MeanAt (fun p => uAt m p) UPt.pos (fun n : (K × K) × Nat => n.1)
      (fun p n => CornerNode m p.face n) p := by
  have hl := uAt_linear m p (inTri_on hp)
  refine ⟨hl.1, hl.2.1, hl.2.2.1, ?_⟩
  intro F hF
  obtain ⟨ia, ib, ic, q1, q2, q3, a, b, c, hf, g1, g2, g3, hw, hin, hv⟩ :=
    uAt_corners m p (inTri_on hp)
  obtain ⟨ha, hb, hc⟩ := hin hp
  show 0 ≤ uAt m p F
  rw [uAt_of (hv F)]
  have e1 := mul_nonneg (hF q1 ⟨ia, ib, ic, ia, hf, by simp, g1⟩) ha
  have e2 := mul_nonneg (hF q2 ⟨ia, ib, ic, ib, hf, by simp, g2⟩) hb
  have e3 := mul_nonneg (hF q3 ⟨ia, ib, ic, ic, hf, by simp, g3⟩) hc
  linarith

private theorem corner_near {m : UGeom.Mesh K} {h : K} (hm : TrianglesAtMost m h) {p : UPt K}
    (hp : InItsTriangle m p) {n : (K × K) × Nat} (hc : CornerNode m p.face n) :
    sqDist n.1 p.pos ≤ h ^ 2 := by
  obtain ⟨_, a, b, c, A, B, C, h1, h2, h3, h4, _, h6⟩ := hp
  obtain ⟨a', b', c', i, g1, hi, g2⟩ := hc
  rw [h1] at g1; cases g1
  have hn := pyGet_map' (Prod.fst : (K × K) × Nat → K × K) _ _ _ g2
  rw [show m.nodes.zipIdx.map Prod.fst = m.nodes by simp] at hn
  have hmem : n.1 ∈ [A, B, C] := by
    simp only [List.mem_cons, List.not_mem_nil, or_false] at hi ⊢
    rcases hi with rfl | rfl | rfl
    · rw [h2] at hn; cases hn; simp
    · rw [h3] at hn; cases hn; simp
    · rw [h4] at hn; cases hn; simp
  have := hm p.face a b c A B C h1 h2 h3 h4 n.1 hmem
  exact sqDist_three h6 (this A (by simp)) (this B (by simp)) (this C (by simp))

/-- The data of a field on the sigma levels of the nodes. -/
def sigmaSamples (m : UGeom.Mesh K) (F : SpaceTime K) (h : (K × K) × Nat → K)
    (ζ : Int → (K × K) × Nat → K) (times : List Int) (sg : List ((K × K) × Nat → K)) :
    List (List (List (Option K))) :=
  times.map fun ti : Int => sg.map fun s => nodeSlice m fun n =>
    F n.1 (-(h n + ζ ti n) * s n) (ti : K)

/-- The levels of the nodes as parts of the water above them. -/
def shareOf {N : Type} (sg : List (N → K)) (k : Nat) : N → K := (sg[k]?).getD fun _ => 0

private theorem share_le_one {sg : List K} (h : SigmaDown sg) {k : Nat} {s : K}
    (hk : sg[k]? = some s) : |s| ≤ 1 := by
  obtain ⟨h1, h2, h3⟩ := h
  have hl := (List.getElem?_eq_some_iff.mp hk).1
  rw [List.head?_eq_getElem?] at h2
  rw [List.getLast?_eq_getElem?] at h3
  have hle : ∀ {i j : Nat} {x y : K}, i ≤ j → sg[i]? = some x → sg[j]? = some y → y ≤ x := by
    intro i j x y hij hx hy
    rcases Nat.lt_or_ge i j with h | h
    · obtain ⟨g1, rfl⟩ := List.getElem?_eq_some_iff.mp hx
      obtain ⟨g2, rfl⟩ := List.getElem?_eq_some_iff.mp hy
      exact le_of_lt (List.pairwise_iff_getElem.mp h1 i j g1 g2 h)
    · obtain rfl : i = j := by omega
      rw [hx] at hy; cases hy; exact le_refl _
  have u := hle (Nat.zero_le k) h2 hk
  have l := hle (by omega) hk h3
  exact abs_le.mpr ⟨l, by linarith⟩

/-- Depth query of points in the water of an unstructured grid with its sigma levels. -/
private theorem fvcom_picks (m : UGeom.Mesh K) (h : (K × K) × Nat → K)
    (ζ : Int → (K × K) × Nat → K) (times : List Int) (sg : List ((K × K) × Nat → K))
    (hsg : ∀ q, SigmaDown (sg.map fun s => s q)) (q0 : (K × K) × Nat) (layers : Nat)
    (forms : MaskForm × MaskForm × MaskForm) (hf : HasMaskArray forms) (sbc bbc : BC) (t : Int)
    (e : Bool) (pts : List (UPt K)) (H Z : UPt K → K)
    (hpts : ∀ p ∈ pts, InItsTriangle m p ∧ 0 ≤ p.z ∧ p.z < H p + Z p)
    (hHZ : ColumnsAt m times (nodeFvcom m h ζ times sg (sg.map fun s => s q0) layers forms) sbc bbc t
      e pts H Z) :
    ∃ ents, (fvcomSys (xyU m .node) UPt.z times
        (nodeFvcom m h ζ times sg (sg.map fun s => s q0) layers forms) sbc bbc t e).alphas pts =
        .ok ents ∧ ents.length = pts.length ∧
      ∀ (n : Nat) (p : UPt K) (en : Entry K), pts[n]? = some p → ents[n]? = some en →
        en.masked = false ∧ ∃ (β : K) (k : Nat), en.alpha = some β ∧ en.idx = (k : Int) ∧
          k + 1 < sg.length ∧ -(H p + Z p) * uAt m p (shareOf sg k) +
            (-(H p + Z p) * uAt m p (shareOf sg (k + 1)) - -(H p + Z p) * uAt m p (shareOf sg k)) * β =
              p.z ∧ 0 ≤ β ∧ β ≤ 1 := by
  have hwater : ∀ p ∈ pts, 0 < H p + Z p := fun p hp => lt_of_le_of_lt (hpts p hp).2.1 (hpts p hp).2.2
  have hn : 2 ≤ (sg.map fun s => s q0).length :=
    sigma_two (hsg q0).2.1 (hsg q0).2.2 (by norm_num)
  have hcol : ∀ p ∈ pts, 0 < H p + Z p ∧ SigmaDown (sg.map fun s => uAt m p s) := fun p hp =>
    ⟨hwater p hp, sigma_at m p (hpts p hp).1 sg hsg⟩
  have halpha := fvcom_alphas m h ζ times sg _ layers forms sbc bbc t e pts H Z
    (fun p hp => inTri_on (hpts p hp).1) hHZ hn hcol
  have hfc : (nodeFvcom m h ζ times sg (sg.map fun s => s q0) layers forms).form.column = .ok () :=
    column_ok forms hf
  rw [hfc] at halpha
  simp only at halpha
  obtain ⟨ents, he, hr⟩ := C13_fvcom (fun x : K => x) Rounding.id (fun _ h => h)
    (sg.map fun s => s q0) (hsg q0).1 hn layers sbc bbc
    (pts.map fun p => (p.z, H p, Z p, false, sg.map fun s => uAt m p s)) (by
      intro r hr
      obtain ⟨p, hp, rfl⟩ := List.mem_map.mp hr
      obtain ⟨c1, c2, c3, c4⟩ := hcol p hp
      exact ⟨c1, c2, by simp, c3, c4⟩)
  rw [he] at halpha
  rw [List.forall₂_map_left_iff, List.forall₂_iff_get] at hr
  refine ⟨ents, halpha, hr.1.symm, ?_⟩
  intro n p en hp hen
  obtain ⟨i1, rfl⟩ := List.getElem?_eq_some_iff.mp hp
  obtain ⟨i2, rfl⟩ := List.getElem?_eq_some_iff.mp hen
  have hpm := hpts _ (List.getElem_mem i1)
  obtain ⟨hm, α, hα, ⟨k, da, db, hk, hda, hdb, _, _, b1, b2⟩, hrec⟩ :=
    hr.2 n i1 i2 rfl hpm.2.1 hpm.2.2
  have hz := hrec (fun _ => rfl) k da db hk hda hdb
  unfold fvcomProfile at hda hdb
  rw [List.getElem?_map] at hda hdb
  obtain ⟨sa, hsa, rfl⟩ := Option.map_eq_some_iff.mp hda
  obtain ⟨sb, hsb, rfl⟩ := Option.map_eq_some_iff.mp hdb
  simp only [List.get_eq_getElem] at hsa hsb hz
  rw [List.getElem?_map] at hsa hsb
  obtain ⟨fa, hfa, rfl⟩ := Option.map_eq_some_iff.mp hsa
  obtain ⟨fb, hfb, rfl⟩ := Option.map_eq_some_iff.mp hsb
  have ea : shareOf sg k = fa := by unfold shareOf; rw [hfa]; rfl
  have eb : shareOf sg (k + 1) = fb := by unfold shareOf; rw [hfb]; rfl
  refine ⟨hm, α, k, hα, hk, (List.getElem?_eq_some_iff.mp hfb).1, ?_, b1, b2⟩
  rw [ea, eb]
  rw [← hz]
  unfold fvcomS
  ring

/-- The whole evaluation, given what the approximations are. -/
private theorem tri_close (m : UGeom.Mesh K) (F : SpaceTime K) (h : (K × K) × Nat → K)
    (ζ : Int → (K × K) × Nat → K) (times : List Int) (hs : StrictIncr times) {τ : K} (hτ : 0 ≤ τ)
    (hst : StepsAtMost (times.map fun x : Int => (x : K)) τ) (sg : List ((K × K) × Nat → K))
    (hsg : ∀ q, SigmaDown (sg.map fun s => s q)) (q0 : (K × K) × Nat) (layers : Nat)
    (hl : sg.length ≠ layers) (forms : MaskForm × MaskForm × MaskForm) (hf : HasMaskArray forms)
    (sbc bbc : BC) (t : Int) (e : Bool) (ht : OnAxis times t) (pts : List (UPt K)) (H Z : UPt K → K)
    (hpts : ∀ p ∈ pts, InItsTriangle m p ∧ 0 ≤ p.z ∧ p.z < H p + Z p)
    (hHZ : ColumnsAt m times (nodeFvcom m h ζ times sg (sg.map fun s => s q0) layers forms) sbc bbc t
      e pts H Z) {η deep ρ E : K}
    (hw : WaterAtMost (OneTri m) times (fun ti n => h n + ζ ti n) η deep)
    (hsh : SharesAtMost (OneTri m) sg.length (shareOf sg) ρ) (A : UPt K → Multilinear K)
    (hE : ∀ p ∈ pts, ∀ n, CornerNode m p.face n → ∀ zk tk : K, |zk - p.z| ≤ η + deep * ρ →
      |tk - (t : K)| ≤ τ → |F n.1 zk tk - (A p).at n.1 zk tk| ≤ E)
    (hx : ∀ p ∈ pts, ∀ (ta tb : Int) (α β : K) (k : Nat), k + 1 < sg.length → H p = uAt m p h →
      Z p = (1 - α) * uAt m p (ζ ta) + α * uAt m p (ζ tb) →
      (ta : K) + α * ((tb : K) - (ta : K)) = (t : K) →
      -(H p + Z p) * uAt m p (shareOf sg k) + (-(H p + Z p) * uAt m p (shareOf sg (k + 1)) -
        -(H p + Z p) * uAt m p (shareOf sg k)) * β = p.z →
      mixed α β (uAt m p fun n => (A p).at n.1 (-(h n + ζ ta n) * shareOf sg k n) (ta : K))
        (uAt m p fun n => (A p).at n.1 (-(h n + ζ ta n) * shareOf sg (k + 1) n) (ta : K))
        (uAt m p fun n => (A p).at n.1 (-(h n + ζ tb n) * shareOf sg k n) (tb : K))
        (uAt m p fun n => (A p).at n.1 (-(h n + ζ tb n) * shareOf sg (k + 1) n) (tb : K)) =
        F p.pos p.z t) :
    ∃ out, eval (xyU m .node) times (fvcomSys (xyU m .node) UPt.z times
        (nodeFvcom m h ζ times sg (sg.map fun s => s q0) layers forms) sbc bbc t e)
      (.timeDepth (sigmaSamples m F h ζ times sg)) pts t e = .ok out ∧
      CloseResults UPt.pos UPt.z F t E pts out := by
  have hon : ∀ p ∈ pts, OnTriangle m p := fun p hp => inTri_on (hpts p hp).1
  have hn : 2 ≤ sg.length := by
    have := sigma_two (hsg q0).2.1 (hsg q0).2.2 (by norm_num)
    simpa using this
  obtain ⟨ents, he, hlen, hdetail⟩ := fvcom_picks m h ζ times sg hsg q0 layers forms hf sbc bbc t e pts
    H Z hpts hHZ
  have hH : ∀ p ∈ pts, H p = uAt m p h := by
    intro p hp
    have := hHZ.1
    unfold eval nodeFvcom at this
    simp only at this
    rw [xyU_at m h pts hon] at this
    simp only [Except.ok.injEq] at this
    have := List.map_inj_left.mp this p hp
    simp only [Cell.mk.injEq, Option.some.injEq, and_true] at this
    exact this.symm
  have M := fun p (hp : p ∈ pts) => tri_mean m p (hpts p hp).1
  refine sigma_close (I := fun p => uAt m p) (pos := UPt.pos) (npos := fun n : (K × K) × Nat => n.1)
    (Corner := fun p n => CornerNode m p.face n) (xyU m .node) UPt.z (OnTriangle m)
    (fun F s => s = nodeSlice m F) (by rintro F s rfl ps hps; exact xyU_at m F ps hps) times hs hτ hst
    sg.length hn F h ζ (shareOf sg) (times.map fun ti => nodeSlice m (ζ ti)) ?_ _ ?_ t e ht pts hon H Z
    hH _ hHZ.2 hl ents he hlen (fun p k => uAt m p (shareOf sg k)) hdetail M (OneTri m)
    (fun p _ n n' h1 h2 => ⟨p.face, h1, h2⟩) hw ?_ ?_ A hE
    (fun p hp ta tb α β k hk hZ => hx p hp ta tb α β k hk (hH p hp) hZ)
  · rw [List.forall₂_map_right_iff]
    exact List.forall₂_same.mpr fun _ _ => rfl
  · unfold sigmaSamples
    rw [List.forall₂_map_right_iff]
    refine List.forall₂_same.mpr fun ti _ => ⟨by simp, ?_⟩
    intro k s hs
    rw [List.getElem?_map] at hs
    obtain ⟨f, hf, rfl⟩ := Option.map_eq_some_iff.mp hs
    unfold shareOf
    rw [hf]
    rfl
  · intro p hp k hk
    have := share_le_one (sigma_at m p (hpts p hp).1 sg hsg) (k := k) (s := uAt m p (shareOf sg k)) (by
      rw [List.getElem?_map, shareOf, List.getElem?_eq_getElem hk]; rfl)
    exact this
  · intro p hp n hn k k' h1 h2 h3 h4
    exact (M p hp).near _ _ _ fun n' hn' => hsh n' n ⟨p.face, hn', hn⟩ k k' h1 h2 h3 h4

/-- C172, triangles. Data taken from a smooth field on the sigma levels of the nodes, the same list of
sigma at every node: the results are as close to the field as its curvature times the squares of the
sizes of the triangles, of the steps between times, and of the steps between levels, these being the
change of the depth of the water in triangles and between times plus the water's depth times the step in
sigma. Missing: sigma lists that differ between nodes, the seafloor itself, arrays without a mask
array. -/
theorem C172_triangles_partial (m : UGeom.Mesh K) (F : SpaceTime K) (mh mz mt d η deep ρ τ : K)
    (m1 : 0 ≤ mh) (m2 : 0 ≤ mz) (m3 : 0 ≤ mt) (hF : BendsAtMost F mh mz mt) (hm : TrianglesAtMost m d)
    (h : (K × K) × Nat → K) (ζ : Int → (K × K) × Nat → K) (times : List Int) (hs : StrictIncr times)
    (hτ : 0 ≤ τ) (hst : StepsAtMost (times.map fun x : Int => (x : K)) τ) (sigma : List K)
    (hsig : SigmaDown sigma) (hρ : 0 ≤ ρ) (hstep : StepsAtMost sigma ρ)
    (hw : WaterAtMost (OneTri m) times (fun ti n => h n + ζ ti n) η deep) (layers : Nat)
    (hl : sigma.length ≠ layers) (forms : MaskForm × MaskForm × MaskForm) (hf : HasMaskArray forms)
    (sbc bbc : BC) (t : Int) (e : Bool) (ht : OnAxis times t) (pts : List (UPt K)) (H Z : UPt K → K)
    (hpts : ∀ p ∈ pts, InItsTriangle m p ∧ 0 ≤ p.z ∧ p.z < H p + Z p)
    (hHZ : ColumnsAt m times (nodeFvcom m h ζ times (uniformSigma sigma) sigma layers forms) sbc bbc t
      e pts H Z) :
    ∃ out, eval (xyU m .node) times (fvcomSys (xyU m .node) UPt.z times
        (nodeFvcom m h ζ times (uniformSigma sigma) sigma layers forms) sbc bbc t e)
      (.timeDepth (sigmaSamples m F h ζ times (uniformSigma sigma))) pts t e = .ok out ∧
      CloseResults UPt.pos UPt.z F t (mh * d ^ 2 + mz * (η + deep * ρ) ^ 2 + mt * τ ^ 2) pts out := by
  have hu : ∀ q, ((uniformSigma sigma).map fun s => s q) = sigma := by
    intro q
    unfold uniformSigma
    rw [List.map_map]
    conv_rhs => rw [← List.map_id sigma]
    rfl
  have hget : ∀ k, shareOf (uniformSigma sigma) k = fun _ => (sigma[k]?).getD 0 := by
    intro k
    unfold shareOf uniformSigma
    rw [List.getElem?_map]
    cases sigma[k]? <;> rfl
  choose a b c d' hd using fun p : UPt K => hF p.pos p.z (t : K)
  have := tri_close m F h ζ times hs hτ hst (uniformSigma sigma) (fun q => by rw [hu]; exact hsig)
    ((0, 0), 0) layers (by rw [uniformSigma, List.length_map]; exact hl) forms hf sbc bbc t e ht pts H Z
    hpts (by rw [hu]; exact hHZ) hw (ρ := ρ) (E := mh * d ^ 2 + mz * (η + deep * ρ) ^ 2 + mt * τ ^ 2) ?_
    (fun p => tangent (F p.pos p.z t) (a p) (b p) (c p) (d' p) p.pos p.z t) ?_ ?_
  · rw [hu] at this
    exact this
  · intro n n' _ k k' h1 h2 h3 h4
    rw [uniformSigma, List.length_map] at h1 h2
    rw [hget, hget]
    have g1 := List.getElem?_eq_getElem h1
    have g2 := List.getElem?_eq_getElem h2
    rw [g1, g2]
    simp only [Option.getD_some]
    rcases Nat.lt_trichotomy k k' with hlt | rfl | hlt
    · obtain rfl : k' = k + 1 := by omega
      rw [abs_sub_comm]
      exact hstep k _ _ g1 g2
    · rw [sub_self, abs_zero]; exact hρ
    · obtain rfl : k = k' + 1 := by omega
      exact hstep k' _ _ g2 g1
  · intro p hp n hc zk tk g1 g2
    rw [tangent_at]
    exact le_trans (hd p n.1 zk tk) (remainder m1 m2 m3 (corner_near hm (hpts p hp).1 hc) g1 g2)
  · intro p hp ta tb α β k _ hH hZ hab hz
    have hL := uAt_linear m p (inTri_on (hpts p hp).1)
    rw [hget, hget, hL.2.2.2, hL.2.2.2] at hz
    rw [hget, hget]
    have := mixed_linear (I := fun p => uAt m p) (pos := UPt.pos) (npos := fun n : (K × K) × Nat => n.1)
      (p := p) hL.1 hL.2.1 hL.2.2.1
      (F p.pos p.z t - a p * p.pos.1 - b p * p.pos.2 - c p * p.z - d' p * t, a p, b p) (d' p, 0, 0)
      (c p) hH hZ hab _ _ hz
    refine Eq.trans this ?_
    show (tangent (F p.pos p.z t) (a p) (b p) (c p) (d' p) p.pos p.z t).at p.pos p.z t = _
    rw [tangent_at]
    ring

/-- C173, triangles. Data taken on the sigma levels of the nodes from any field that changes at limited
rates; the sigma lists may differ between nodes. Missing: the seafloor itself, arrays without a mask
array. -/
theorem C173_triangles_partial (m : UGeom.Mesh K) (F : SpaceTime K) (lh lz lt d η deep ρ τ : K)
    (m1 : 0 ≤ lh) (m2 : 0 ≤ lz) (m3 : 0 ≤ lt) (hF : ChangesAtMost F lh lz lt) (hd : 0 ≤ d)
    (hm : TrianglesAtMost m d)
    (h : (K × K) × Nat → K) (ζ : Int → (K × K) × Nat → K) (times : List Int) (hs : StrictIncr times)
    (hτ : 0 ≤ τ) (hst : StepsAtMost (times.map fun x : Int => (x : K)) τ)
    (sg : List ((K × K) × Nat → K)) (hsg : ∀ q, SigmaDown (sg.map fun s => s q))
    (hsh : SharesAtMost (OneTri m) sg.length (shareOf sg) ρ) (q0 : (K × K) × Nat)
    (hw : WaterAtMost (OneTri m) times (fun ti n => h n + ζ ti n) η deep) (layers : Nat)
    (hl : sg.length ≠ layers) (forms : MaskForm × MaskForm × MaskForm) (hf : HasMaskArray forms)
    (sbc bbc : BC) (t : Int) (e : Bool) (ht : OnAxis times t) (pts : List (UPt K)) (H Z : UPt K → K)
    (hpts : ∀ p ∈ pts, InItsTriangle m p ∧ 0 ≤ p.z ∧ p.z < H p + Z p)
    (hHZ : ColumnsAt m times (nodeFvcom m h ζ times sg (sg.map fun s => s q0) layers forms) sbc bbc t
      e pts H Z) :
    ∃ out, eval (xyU m .node) times (fvcomSys (xyU m .node) UPt.z times
        (nodeFvcom m h ζ times sg (sg.map fun s => s q0) layers forms) sbc bbc t e)
      (.timeDepth (sigmaSamples m F h ζ times sg)) pts t e = .ok out ∧
      CloseResults UPt.pos UPt.z F t (lh * (2 * d) + lz * (η + deep * ρ) + lt * τ) pts out := by
  refine tri_close m F h ζ times hs hτ hst sg hsg q0 layers hl forms hf sbc bbc t e ht pts H Z hpts hHZ
    hw hsh (fun p => tangent (F p.pos p.z t) 0 0 0 0 p.pos p.z t) ?_ ?_
  · intro p hp n hc zk tk g1 g2
    obtain ⟨d1, d2⟩ := abs_of_sqDist hd (corner_near hm (hpts p hp).1 hc)
    rw [tangent_at]
    have := le_trans (hF p.pos p.z t n.1 zk tk) (rate m1 m2 m3 d1 d2 g1 g2)
    simpa using this
  · intro p hp ta tb α β k _ _ _ _ _
    have hL := uAt_linear m p (inTri_on (hpts p hp).1)
    have e : ∀ (f : (K × K) × Nat → K) (ti : K), (uAt m p fun n =>
        (tangent (F p.pos p.z t) 0 0 0 0 p.pos p.z t).at n.1 (f n) ti) = F p.pos p.z t := by
      intro f ti
      rw [← hL.2.2.2 (F p.pos p.z t)]
      congr 1
      funext n
      rw [tangent_at, hL.2.2.2]
      ring
    rw [e (fun n => -(h n + ζ ta n) * shareOf sg k n), e (fun n => -(h n + ζ ta n) * shareOf sg (k + 1) n),
      e (fun n => -(h n + ζ tb n) * shareOf sg k n), e (fun n => -(h n + ζ tb n) * shareOf sg (k + 1) n)]
    unfold mixed
    ring

end

/-! ## Structured grids -/

section
variable {K : Type} [Field K] [LinearOrder K] [IsStrictOrderedRing K]

/-- The nodes at the corners of a cell. -/
def cellNodes (i j : Nat) : List (Nat × Nat) := [(i, j), (i + 1, j), (i + 1, j + 1), (i, j + 1)]

/-- Two nodes of one cell of the grid. -/
def OneCell (g : SInterp.Grid K) (n n' : Nat × Nat) : Prop :=
  ∃ (i j : Nat) (px py : K × K × K × K), IsCorners g.lon i j px ∧ IsCorners g.lat i j py ∧
    n ∈ cellNodes i j ∧ n' ∈ cellNodes i j

private def CellCorner (g : SInterp.Grid K) (p : SPt K) (n : Nat × Nat) : Prop :=
  ∃ (i j : Nat) (px py : K × K × K × K), p.cell = some ((i : Int), (j : Int)) ∧
    IsCorners g.lon i j px ∧ IsCorners g.lat i j py ∧ n ∈ cellNodes i j

private theorem cellCorner_share {g : SInterp.Grid K} {p : SPt K} {n n' : Nat × Nat}
    (h : CellCorner g p n) (h' : CellCorner g p n') : OneCell g n n' := by
  obtain ⟨i, j, px, py, hc, h1, h2, h3⟩ := h
  obtain ⟨i', j', px', py', hc', _, _, h4⟩ := h'
  rw [hc] at hc'
  simp only [Option.some.injEq, Prod.mk.injEq, Nat.cast_inj] at hc'
  obtain ⟨rfl, rfl⟩ := hc'
  exact ⟨i, j, px, py, h1, h2, h3, h4⟩

private theorem placed_of_in {sqrt : K → K} (hsq : SqrtOk sqrt) {g : SInterp.Grid K} {c' : Nat}
    (hlon : Rectangular c' g.lon) (hlat : Rectangular c' g.lat) {p : SPt K} (hp : InItsCell sqrt g p) :
    PlacedQuad sqrt g p := by
  obtain ⟨i, j, l, m, px, py, hc, hx, hy, _, ho⟩ := hp
  exact ⟨i, j, l, m, px, py, hc, hx, hy, ho,
    C45_maps_back sqrt hsq g c' hlon hlat i j px py hx hy p.pos l m ho⟩

private theorem quad_mean {sqrt : K → K} (hsq : SqrtOk sqrt) {g : SInterp.Grid K} {c' : Nat}
    (hlon : Rectangular c' g.lon) (hlat : Rectangular c' g.lat) {p : SPt K} (hp : InItsCell sqrt g p) :
    MeanAt (fun p => sAt sqrt g p) SPt.pos (nodePos g) (CellCorner g) p := by
  have hl := sAt_linear sqrt g p (placed_of_in hsq hlon hlat hp)
  refine ⟨hl.1, hl.2.1, hl.2.2, ?_⟩
  intro F hF
  obtain ⟨i, j, l, m, px, py, hc, hx, hy, ⟨u0, u1, v0, v1⟩, ho⟩ := hp
  show 0 ≤ sAt sqrt g p F
  rw [sAt_eq sqrt g p i j l m hc ho]
  have hn : ∀ n ∈ cellNodes i j, 0 ≤ F n := fun n hn => hF n ⟨i, j, px, py, hc, hx, hy, hn⟩
  simp only at u0 u1 v0 v1
  have w0 := mul_nonneg (mul_nonneg (sub_nonneg.2 v1) (sub_nonneg.2 u1)) (hn (i, j) (by simp [cellNodes]))
  have w1 := mul_nonneg (mul_nonneg v0 (sub_nonneg.2 u1)) (hn (i + 1, j) (by simp [cellNodes]))
  have w2 := mul_nonneg (mul_nonneg v0 u0) (hn (i + 1, j + 1) (by simp [cellNodes]))
  have w3 := mul_nonneg (mul_nonneg (sub_nonneg.2 v1) u0) (hn (i, j + 1) (by simp [cellNodes]))
  unfold bilinear
  linarith

private theorem cell_near {sqrt : K → K} (hsq : SqrtOk sqrt) {g : SInterp.Grid K} {c' : Nat}
    (hlon : Rectangular c' g.lon) (hlat : Rectangular c' g.lat) {d : K} (hm : CellsAtMost g d)
    {p : SPt K} (hp : InItsCell sqrt g p) {n : Nat × Nat} (hc : CellCorner g p n) :
    sqDist (nodePos g n) p.pos ≤ d ^ 2 := by
  obtain ⟨i, j, l, m, px, py, hc1, hx, hy, hu, ho⟩ := hp
  obtain ⟨i', j', _, _, hc2, _, _, hn⟩ := hc
  rw [hc1] at hc2
  simp only [Option.some.injEq, Prod.mk.injEq, Nat.cast_inj] at hc2
  obtain ⟨rfl, rfl⟩ := hc2
  obtain ⟨e1, e2⟩ := C45_maps_back sqrt hsq g c' hlon hlat i j px py hx hy p.pos l m ho
  have hmem : nodePos g n ∈ quadCorners px py := by
    obtain ⟨x0, x1, x2, x3⟩ := hx
    obtain ⟨y0, y1, y2, y3⟩ := hy
    simp only [cellNodes, List.mem_cons, List.not_mem_nil, or_false] at hn
    rcases hn with rfl | rfl | rfl | rfl <;>
      simp [nodePos, quadCorners, x0, x1, x2, x3, y0, y1, y2, y3]
  have := hm i j px py hx hy _ hmem
  exact sqDist_quad hu e1 e2 (this _ (by simp [quadCorners])) (this _ (by simp [quadCorners]))
    (this _ (by simp [quadCorners])) (this _ (by simp [quadCorners]))

/-- Data over time and levels holding the field at the depths `d ti k n` of the levels at the nodes. -/
def SamplesOnLevels (g : SInterp.Grid K) (F : SpaceTime K) (times : List Int) (m : Nat)
    (d : Int → Nat → Nat × Nat → K) (data : List (List (List (List (SInterp.MV K))))) : Prop :=
  List.Forall₂ (fun (ti : Int) row => row.length = m ∧ ∀ (k : Nat) (s : List (List (SInterp.MV K))),
    row[k]? = some s → ∃ A, s = plain A ∧
      HoldsNodes g (fun n => F (nodePos g n) (d ti k n) (ti : K)) A) times data

/-- The part of the water above a level (negative), from the critical depth, the depth of the seafloor
and the level: its place between -1 at the seafloor and 0 at the surface, and its stretched place. -/
def romsShare (vt : Nat) (hc h : K) (q : K × K) : K :=
  if vt = 1 then (hc * q.1 + (h - hc) * q.2) / h else (hc * q.1 + h * q.2) / (hc + h)

omit [IsStrictOrderedRing K] in
private theorem roms_profile_share {vt : Nat} {hc h zeta : K} {sc : List (K × K)} {col : List K}
    (hvt : vt = 1 ∨ vt = 2) (hcol : romsProfile vt hc h zeta sc = .ok col) (h0 : h ≠ 0) {k : Nat} {d : K}
    (hd : col[k]? = some d) : ∃ q, sc[k]? = some q ∧ d = -(h + zeta) * romsShare vt hc h q := by
  unfold romsProfile at hcol
  have : Inhabited K := ⟨0⟩
  obtain ⟨f, hf, rfl⟩ := At.mapE_inv hcol
  rw [List.getElem?_map] at hd
  obtain ⟨q, hq, rfl⟩ := Option.map_eq_some_iff.mp hd
  refine ⟨q, hq, ?_⟩
  have := hf q (List.mem_of_getElem? hq)
  generalize f q = d at this ⊢
  unfold romsS at this
  unfold romsShare
  rcases hvt with rfl | rfl
  · simp only [if_true, if_neg h0, Except.ok.injEq] at this
    rw [← this, if_pos rfl]
    field_simp
    ring
  · rw [if_neg (by decide), if_pos rfl] at this
    by_cases h1 : hc + h = 0
    · rw [if_pos h1] at this
      cases this
    · rw [if_neg h1] at this
      simp only [Except.ok.injEq] at this
      rw [← this, if_neg (by decide)]
      ring

/-- The whole evaluation, given what the approximations are. -/
private theorem quad_close {sqrt : K → K} (hsq : SqrtOk sqrt) {g : SInterp.Grid K} {c' : Nat}
    (hlon : Rectangular c' g.lon) (hlat : Rectangular c' g.lat) (hk0 : (g.pads .node).1 ≠ .other)
    (hk1 : (g.pads .node).2 ≠ .other) (F : SpaceTime K) (h : Nat × Nat → K)
    (ζ : Int → Nat × Nat → K) (times : List Int) (hs : StrictIncr times) {τ : K} (hτ : 0 ≤ τ)
    (hst : StepsAtMost (times.map fun x : Int => (x : K)) τ)
    (o : RomsObj K (List (List (SInterp.MV K))))
    (hb : ∃ A, o.bathymetry = plain A ∧ HoldsNodes g h A) (hz : HoldsOverTime g times ζ o.zeta)
    (hhc : 0 ≤ o.hc) (hmono : o.levels.Pairwise fun p q => p.1 < q.1 ∧ p.2 < q.2)
    (h0 : o.levels.head? = some (-1, -1)) (h1 : o.levels.getLast? = some (0, 0))
    (hl : o.levels.length ≠ o.numLayers) (sh : Nat → Nat × Nat → K)
    (data : List (List (List (List (SInterp.MV K)))))
    (hdata : SamplesOnLevels g F times o.levels.length (fun ti k n => -(h n + ζ ti n) * sh k n) data)
    (sbc bbc : BC) (t : Int) (e : Bool) (ht : OnAxis times t) (pts : List (SPt K)) (H Z : SPt K → K)
    (hpts : ∀ p ∈ pts, InItsCell sqrt g p ∧ 0 < H p ∧ 0 ≤ p.z ∧ p.z < H p + Z p ∧
      ((o.vtransform = 1 ∧ o.hc ≤ H p) ∨ o.vtransform = 2))
    (hHZ : RomsColumnsAt sqrt g times o sbc bbc t e pts H Z) (SH : SPt K → Nat → K)
    (hSH : ∀ p ∈ pts, ∀ (k : Nat) (q : K × K), o.levels[k]? = some q → H p = sAt sqrt g p h →
      SH p k = romsShare o.vtransform o.hc (H p) q) {η deep ρ E : K}
    (hw : WaterAtMost (OneCell g) times (fun ti n => h n + ζ ti n) η deep)
    (hSn : ∀ p ∈ pts, H p = sAt sqrt g p h → ∀ n, CellCorner g p n → ∀ k k' : Nat,
      k < o.levels.length → k' < o.levels.length → k ≤ k' + 1 → k' ≤ k + 1 → |SH p k - sh k' n| ≤ ρ)
    (A : SPt K → Multilinear K)
    (hE : ∀ p ∈ pts, ∀ n, CellCorner g p n → ∀ zk tk : K, |zk - p.z| ≤ η + deep * ρ →
      |tk - (t : K)| ≤ τ → |F (nodePos g n) zk tk - (A p).at (nodePos g n) zk tk| ≤ E)
    (hx : ∀ p ∈ pts, ∀ (ta tb : Int) (α β : K) (k : Nat), k + 1 < o.levels.length →
      H p = sAt sqrt g p h → Z p = (1 - α) * sAt sqrt g p (ζ ta) + α * sAt sqrt g p (ζ tb) →
      (ta : K) + α * ((tb : K) - (ta : K)) = (t : K) →
      -(H p + Z p) * SH p k + (-(H p + Z p) * SH p (k + 1) - -(H p + Z p) * SH p k) * β = p.z →
      mixed α β (sAt sqrt g p fun n => (A p).at (nodePos g n) (-(h n + ζ ta n) * sh k n) (ta : K))
        (sAt sqrt g p fun n => (A p).at (nodePos g n) (-(h n + ζ ta n) * sh (k + 1) n) (ta : K))
        (sAt sqrt g p fun n => (A p).at (nodePos g n) (-(h n + ζ tb n) * sh k n) (tb : K))
        (sAt sqrt g p fun n => (A p).at (nodePos g n) (-(h n + ζ tb n) * sh (k + 1) n) (tb : K)) =
        F p.pos p.z t) :
    ∃ out, eval (xyS sqrt g (some .node)) times
        (romsSys (xyS sqrt g (some .node)) SPt.z times o sbc bbc t e) (.timeDepth data) pts t e =
        .ok out ∧ CloseResults SPt.pos SPt.z F t E pts out := by
  have hon : ∀ p ∈ pts, PlacedQuad sqrt g p := fun p hp => placed_of_in hsq hlon hlat (hpts p hp).1
  have hn : 2 ≤ o.levels.length := by
    rcases hlv : o.levels with _ | ⟨x, _ | ⟨y, r⟩⟩
    · rw [hlv] at h0; simp at h0
    · rw [hlv] at h0 h1
      simp only [List.head?_cons, Option.some.injEq, List.getLast?_singleton] at h0 h1
      rw [h0] at h1
      have := congrArg Prod.fst h1
      simp at this
    · simp
  have hH : ∀ p ∈ pts, H p = sAt sqrt g p h := by
    intro p hp
    obtain ⟨A, hA1, hA2⟩ := hb
    have := hHZ.1
    unfold eval at this
    simp only at this
    rw [hA1, xyS_at sqrt g hk0 hk1 h A hA2 pts hon] at this
    simp only [Except.ok.injEq] at this
    have := List.map_inj_left.mp this p hp
    simp only [Cell.mk.injEq, Option.some.injEq, and_true] at this
    exact this.symm
  have halpha : (romsSys (xyS sqrt g (some .node)) SPt.z times o sbc bbc t e).alphas pts =
      romsAlphas (fun x => x) o.vtransform o.hc o.levels o.numLayers sbc bbc
        (pts.map fun p => (p.z, H p, Z p, false)) := by
    obtain ⟨hH, hZ⟩ := hHZ
    unfold eval at hH hZ
    simp only at hH hZ
    unfold romsSys
    simp only
    rw [hZ, hH, numbers_ok, numbers_ok]
    simp only
    congr 1
    apply rows_ok pts (fun p n => (SPt.z p, (pts.map H).getD n 0, (pts.map Z).getD n 0, false))
    intro n p hp
    rw [getD_map_of pts H n p hp, getD_map_of pts Z n p hp]
  obtain ⟨ents, he, hr⟩ := C13_roms (fun x : K => x) Rounding.id (fun _ h => h) o.vtransform o.hc
    o.levels o.numLayers hhc hmono h0 h1 sbc bbc (pts.map fun p => (p.z, H p, Z p, false)) (by
      intro r hr
      obtain ⟨p, hp, rfl⟩ := List.mem_map.mp hr
      obtain ⟨_, p1, p2, p3, p4⟩ := hpts p hp
      exact ⟨p1, lt_of_le_of_lt p2 p3, p4⟩)
  rw [he] at halpha
  rw [List.forall₂_map_left_iff, List.forall₂_iff_get] at hr
  have hlev : ∀ q ∈ o.levels, -1 ≤ q.1 ∧ q.1 ≤ 0 ∧ -1 ≤ q.2 ∧ q.2 ≤ 0 := by
    intro q hq
    obtain ⟨k, hk⟩ := List.getElem?_of_mem hq
    rw [List.head?_eq_getElem?] at h0
    rw [List.getLast?_eq_getElem?] at h1
    have hk2 := (List.getElem?_eq_some_iff.mp hk).1
    have hle : ∀ {i j : Nat} {x y : K × K}, i ≤ j → o.levels[i]? = some x → o.levels[j]? = some y →
        x.1 ≤ y.1 ∧ x.2 ≤ y.2 := by
      intro i j x y hij hx hy
      rcases Nat.lt_or_ge i j with h | h
      · obtain ⟨g1, rfl⟩ := List.getElem?_eq_some_iff.mp hx
        obtain ⟨g2, rfl⟩ := List.getElem?_eq_some_iff.mp hy
        have := List.pairwise_iff_getElem.mp hmono i j g1 g2 h
        exact ⟨this.1.le, this.2.le⟩
      · obtain rfl : i = j := by omega
        rw [hx] at hy; cases hy; exact ⟨le_refl _, le_refl _⟩
    have l := hle (Nat.zero_le k) h0 hk
    have u := hle (by omega) hk h1
    exact ⟨l.1, u.1, l.2, u.2⟩
  have hSH1 : ∀ p ∈ pts, ∀ k < o.levels.length, |SH p k| ≤ 1 := by
    intro p hp k hk
    have hq := List.getElem?_eq_getElem hk
    rw [hSH p hp k _ hq (hH p hp)]
    obtain ⟨a, b, c, d⟩ := hlev _ (List.getElem_mem hk)
    obtain ⟨_, p1, _, _, p4⟩ := hpts p hp
    generalize o.levels[k] = q at a b c d
    unfold romsShare
    have u1 := mul_nonneg hhc (sub_nonneg.2 a)
    have u2 := mul_nonneg hhc (sub_nonneg.2 b)
    rcases p4 with ⟨e1, e2⟩ | e1
    · rw [if_pos e1, abs_le, le_div_iff₀ p1, div_le_iff₀ p1]
      have v1 := mul_nonneg (sub_nonneg.2 e2) (sub_nonneg.2 c)
      have v2 := mul_nonneg (sub_nonneg.2 e2) (sub_nonneg.2 d)
      constructor <;> linarith
    · have hpos : 0 < o.hc + H p := by linarith
      rw [if_neg (by omega), abs_le, le_div_iff₀ hpos, div_le_iff₀ hpos]
      have v1 := mul_nonneg p1.le (sub_nonneg.2 c)
      have v2 := mul_nonneg p1.le (sub_nonneg.2 d)
      constructor <;> linarith
  refine sigma_close (I := fun p => sAt sqrt g p) (pos := SPt.pos) (npos := nodePos g)
    (Corner := CellCorner g) (xyS sqrt g (some .node)) SPt.z
    (PlacedQuad sqrt g) (fun F s => ∃ A, s = plain A ∧ HoldsNodes g F A)
    (by rintro F s ⟨A, rfl, hA⟩ ps hps; exact xyS_at sqrt g hk0 hk1 F A hA ps hps) times hs hτ hst
    o.levels.length hn F h ζ sh o.zeta hz data hdata t e ht pts hon H Z hH _ hHZ.2 hl ents halpha
    hr.1.symm SH ?_ (fun p hp => quad_mean hsq hlon hlat (hpts p hp).1) (OneCell g)
    (fun p _ n n' => cellCorner_share) hw hSH1 (fun p hp => hSn p hp (hH p hp)) A hE
    (fun p hp ta tb α β k hk hZ => hx p hp ta tb α β k hk (hH p hp) hZ)
  intro n p en hp hen
  obtain ⟨i1, rfl⟩ := List.getElem?_eq_some_iff.mp hp
  obtain ⟨i2, rfl⟩ := List.getElem?_eq_some_iff.mp hen
  have hpm := List.getElem_mem i1
  obtain ⟨_, p1, p2, p3, p4⟩ := hpts _ hpm
  obtain ⟨hm, col, α, hcol, hα, ⟨k, da, db, hk, hda, hdb, _, _, b1, b2⟩, hrec⟩ :=
    hr.2 n i1 i2 rfl p2 p3
  have hz := hrec (fun _ => rfl) k da db hk hda hdb
  simp only [List.get_eq_getElem] at hcol hz
  have hvt : o.vtransform = 1 ∨ o.vtransform = 2 := p4.imp (fun x => x.1) id
  obtain ⟨qa, hqa, ea⟩ := roms_profile_share hvt hcol (ne_of_gt p1) hda
  obtain ⟨qb, hqb, eb⟩ := roms_profile_share hvt hcol (ne_of_gt p1) hdb
  refine ⟨hm, α, k, hα, hk, (List.getElem?_eq_some_iff.mp hqb).1, ?_, b1, b2⟩
  rw [hSH _ hpm k qa hqa (hH _ hpm), hSH _ hpm (k + 1) qb hqb (hH _ hpm), ← ea, ← eb]
  exact hz

/-- C172, structured grids with plain sigma levels (no critical depth, or no stretching), both
transforms. Missing: stretched levels with a critical depth, and the seafloor itself. -/
theorem C172_quads_partial (sqrt : K → K) (hsq : SqrtOk sqrt) (g : SInterp.Grid K) (c' : Nat)
    (hlon : Rectangular c' g.lon) (hlat : Rectangular c' g.lat) (hk0 : (g.pads .node).1 ≠ .other)
    (hk1 : (g.pads .node).2 ≠ .other) (F : SpaceTime K) (mh mz mt d η deep ρ τ : K)
    (m1 : 0 ≤ mh) (m2 : 0 ≤ mz) (m3 : 0 ≤ mt) (hF : BendsAtMost F mh mz mt) (hm : CellsAtMost g d)
    (h : Nat × Nat → K) (ζ : Int → Nat × Nat → K) (times : List Int) (hs : StrictIncr times)
    (hτ : 0 ≤ τ) (hst : StepsAtMost (times.map fun x : Int => (x : K)) τ)
    (o : RomsObj K (List (List (SInterp.MV K))))
    (hb : ∃ A, o.bathymetry = plain A ∧ HoldsNodes g h A) (hz : HoldsOverTime g times ζ o.zeta)
    (hplain : o.hc = 0 ∨ ∀ q ∈ o.levels, q.1 = q.2) (hhc : 0 ≤ o.hc)
    (hmono : o.levels.Pairwise fun p q => p.1 < q.1 ∧ p.2 < q.2)
    (h0 : o.levels.head? = some (-1, -1)) (h1 : o.levels.getLast? = some (0, 0))
    (hl : o.levels.length ≠ o.numLayers) (hρ : 0 ≤ ρ) (hstep : StepsAtMost (o.levels.map Prod.snd) ρ)
    (hw : WaterAtMost (OneCell g) times (fun ti n => h n + ζ ti n) η deep)
    (data : List (List (List (List (SInterp.MV K)))))
    (hdata : SamplesOnLevels g F times o.levels.length
      (fun ti k n => -(h n + ζ ti n) * ((o.levels.map Prod.snd)[k]?).getD 0) data)
    (sbc bbc : BC) (t : Int) (e : Bool) (ht : OnAxis times t) (pts : List (SPt K)) (H Z : SPt K → K)
    (hpts : ∀ p ∈ pts, InItsCell sqrt g p ∧ 0 < H p ∧ 0 ≤ p.z ∧ p.z < H p + Z p ∧
      ((o.vtransform = 1 ∧ o.hc ≤ H p) ∨ o.vtransform = 2))
    (hHZ : RomsColumnsAt sqrt g times o sbc bbc t e pts H Z) :
    ∃ out, eval (xyS sqrt g (some .node)) times
        (romsSys (xyS sqrt g (some .node)) SPt.z times o sbc bbc t e) (.timeDepth data) pts t e =
        .ok out ∧
      CloseResults SPt.pos SPt.z F t (mh * d ^ 2 + mz * (η + deep * ρ) ^ 2 + mt * τ ^ 2) pts out := by
  choose a b c d' hd using fun p : SPt K => hF p.pos p.z (t : K)
  refine quad_close hsq hlon hlat hk0 hk1 F h ζ times hs hτ hst o hb hz hhc hmono h0 h1 hl
    (fun k _ => ((o.levels.map Prod.snd)[k]?).getD 0) data hdata sbc bbc t e ht pts H Z hpts hHZ
    (fun _ k => ((o.levels.map Prod.snd)[k]?).getD 0) ?_ hw (ρ := ρ) ?_
    (fun p => tangent (F p.pos p.z t) (a p) (b p) (c p) (d' p) p.pos p.z t) ?_ ?_
  · intro p hp k q hq _
    obtain ⟨_, p1, _, _, p4⟩ := hpts p hp
    rw [List.getElem?_map, hq]
    simp only [Option.map_some, Option.getD_some]
    have hxq : o.hc * q.1 = o.hc * q.2 := by
      rcases hplain with h | h
      · rw [h]; simp
      · rw [h q (List.mem_of_getElem? hq)]
    unfold romsShare
    have hpos : 0 < o.hc + H p := by linarith
    split
    · rw [eq_div_iff (ne_of_gt p1), hxq]; ring
    · rw [eq_div_iff (ne_of_gt hpos), hxq]; ring
  · intro p _ _ n _ k k' h1 h2 h3 h4
    have g1 := List.getElem?_eq_getElem (l := o.levels.map Prod.snd) (i := k) (by simpa using h1)
    have g2 := List.getElem?_eq_getElem (l := o.levels.map Prod.snd) (i := k') (by simpa using h2)
    rw [g1, g2]
    simp only [Option.getD_some]
    rcases Nat.lt_trichotomy k k' with hlt | rfl | hlt
    · obtain rfl : k' = k + 1 := by omega
      rw [abs_sub_comm]
      exact hstep k _ _ g1 g2
    · rw [sub_self, abs_zero]; exact hρ
    · obtain rfl : k = k' + 1 := by omega
      exact hstep k' _ _ g2 g1
  · intro p hp n hc zk tk g1 g2
    rw [tangent_at]
    exact le_trans (hd p _ zk tk)
      (remainder m1 m2 m3 (cell_near hsq hlon hlat hm (hpts p hp).1 hc) g1 g2)
  · intro p hp ta tb α β k _ hH hZ hab hz
    have hL := sAt_linear sqrt g p (placed_of_in hsq hlon hlat (hpts p hp).1)
    have := mixed_linear (I := fun p => sAt sqrt g p) (pos := SPt.pos) (npos := nodePos g)
      (p := p) hL.1 hL.2.1 hL.2.2
      (F p.pos p.z t - a p * p.pos.1 - b p * p.pos.2 - c p * p.z - d' p * t, a p, b p) (d' p, 0, 0)
      (c p) hH hZ hab _ _ hz
    refine Eq.trans this ?_
    show (tangent (F p.pos p.z t) (a p) (b p) (c p) (d' p) p.pos p.z t).at p.pos p.z t = _
    rw [tangent_at]
    ring

/-- C173, structured grids, any levels, both transforms. Missing: the seafloor itself. -/
theorem C173_quads_partial (sqrt : K → K) (hsq : SqrtOk sqrt) (g : SInterp.Grid K) (c' : Nat)
    (hlon : Rectangular c' g.lon) (hlat : Rectangular c' g.lat) (hk0 : (g.pads .node).1 ≠ .other)
    (hk1 : (g.pads .node).2 ≠ .other) (F : SpaceTime K) (lh lz lt d η deep ρ τ : K)
    (m1 : 0 ≤ lh) (m2 : 0 ≤ lz) (m3 : 0 ≤ lt) (hF : ChangesAtMost F lh lz lt) (hd : 0 ≤ d)
    (hm : CellsAtMost g d)
    (h : Nat × Nat → K) (ζ : Int → Nat × Nat → K) (times : List Int) (hs : StrictIncr times)
    (hτ : 0 ≤ τ) (hst : StepsAtMost (times.map fun x : Int => (x : K)) τ)
    (o : RomsObj K (List (List (SInterp.MV K))))
    (hb : ∃ A, o.bathymetry = plain A ∧ HoldsNodes g h A) (hz : HoldsOverTime g times ζ o.zeta)
    (hhc : 0 ≤ o.hc) (hmono : o.levels.Pairwise fun p q => p.1 < q.1 ∧ p.2 < q.2)
    (h0 : o.levels.head? = some (-1, -1)) (h1 : o.levels.getLast? = some (0, 0))
    (hl : o.levels.length ≠ o.numLayers) (hpos : ∀ n, OneCell g n n → 0 < h n)
    (hsh : SharesAtMost (OneCell g) o.levels.length
      (fun k n => romsShare o.vtransform o.hc (h n) ((o.levels[k]?).getD (0, 0))) ρ)
    (hw : WaterAtMost (OneCell g) times (fun ti n => h n + ζ ti n) η deep)
    (data : List (List (List (List (SInterp.MV K)))))
    (hdata : SamplesOnLevels g F times o.levels.length (fun ti k n => -(h n + ζ ti n) *
      romsShare o.vtransform o.hc (h n) ((o.levels[k]?).getD (0, 0))) data)
    (sbc bbc : BC) (t : Int) (e : Bool) (ht : OnAxis times t) (pts : List (SPt K)) (H Z : SPt K → K)
    (hpts : ∀ p ∈ pts, InItsCell sqrt g p ∧ 0 < H p ∧ 0 ≤ p.z ∧ p.z < H p + Z p ∧
      ((o.vtransform = 1 ∧ o.hc ≤ H p) ∨ o.vtransform = 2))
    (hHZ : RomsColumnsAt sqrt g times o sbc bbc t e pts H Z) :
    ∃ out, eval (xyS sqrt g (some .node)) times
        (romsSys (xyS sqrt g (some .node)) SPt.z times o sbc bbc t e) (.timeDepth data) pts t e =
        .ok out ∧
      CloseResults SPt.pos SPt.z F t (lh * (2 * d) + lz * (η + deep * ρ) + lt * τ) pts out := by
  refine quad_close hsq hlon hlat hk0 hk1 F h ζ times hs hτ hst o hb hz hhc hmono h0 h1 hl
    _ data hdata sbc bbc t e ht pts H Z hpts hHZ
    (fun p k => romsShare o.vtransform o.hc (H p) ((o.levels[k]?).getD (0, 0))) ?_ hw (ρ := ρ) ?_
    (fun p => tangent (F p.pos p.z t) 0 0 0 0 p.pos p.z t) ?_ ?_
  · intro p hp k q hq _
    rw [hq]
    rfl
  · intro p hp hH n hn k k' h1 h2 h3 h4
    have M := quad_mean hsq hlon hlat (hpts p hp).1
    obtain ⟨_, p1, _⟩ := hpts p hp
    have hnode : ∀ n', CellCorner g p n' → 0 < h n' := fun n' hn' => hpos n' (cellCorner_share hn' hn')
    have hdiff : ∀ n', CellCorner g p n' → |romsShare o.vtransform o.hc (h n')
        ((o.levels[k]?).getD (0, 0)) - romsShare o.vtransform o.hc (h n)
          ((o.levels[k']?).getD (0, 0))| ≤ ρ := fun n' hn' =>
      hsh n' n (cellCorner_share hn' hn) k k' h1 h2 h3 h4
    beta_reduce
    generalize romsShare o.vtransform o.hc (h n) ((o.levels[k']?).getD (0, 0)) = x at hdiff ⊢
    generalize (o.levels[k]?).getD (0, 0) = q at hdiff ⊢
    -- the share at the point is a weighted mean of those at the corners
    have base : ∀ (u v w : K), (∀ y : K, 0 < y → 0 < u + y) →
        (∀ y : K, 0 < y → romsShare o.vtransform o.hc y q = (v + y * w) / (u + y)) →
        |romsShare o.vtransform o.hc (H p) q - x| ≤ ρ := by
      intro u v w hu hv
      have hden := hu (H p) p1
      have e1 : romsShare o.vtransform o.hc (H p) q - x =
          sAt sqrt g p (fun n' => (u + h n') * (romsShare o.vtransform o.hc (h n') q - x)) /
            (u + H p) := by
        have e2 : sAt sqrt g p (fun n' => (u + h n') * (romsShare o.vtransform o.hc (h n') q - x)) =
            sAt sqrt g p (fun n' => (v - u * x) + (w - x) * h n') := by
          have := M.close (fun n' => (u + h n') * (romsShare o.vtransform o.hc (h n') q - x))
            (fun n' => (v - u * x) + (w - x) * h n') 0 (by
              intro n' hn'
              rw [hv _ (hnode n' hn')]
              have := hu _ (hnode n' hn')
              rw [show (u + h n') * ((v + h n' * w) / (u + h n') - x) -
                (v - u * x + (w - x) * h n') = 0 by field_simp; ring]
              simp)
          have := abs_nonpos_iff.mp this
          exact sub_eq_zero.mp this
        have e3 : sAt sqrt g p (fun n' => (v - u * x) + (w - x) * h n') =
            (v - u * x) + (w - x) * H p := by
          have a1 := M.add (fun _ => v - u * x) (fun n' => (w - x) * h n')
          have a2 := M.mul (w - x) h
          have a3 := M.const (v - u * x)
          rw [a1, a2, a3, hH]
        rw [e2, e3, hv _ p1]
        field_simp
        ring
      rw [e1, abs_div, abs_of_pos hden, div_le_iff₀ hden]
      have e4 : ρ * (u + H p) = sAt sqrt g p (fun n' => ρ * (u + h n')) := by
        have a1 := M.mul ρ (fun n' => u + h n')
        have a2 := M.add (fun _ => u) h
        have a3 := M.const u
        rw [a1, a2, a3, hH]
      rw [e4, abs_le]
      have hb : ∀ n', CellCorner g p n' →
          |(u + h n') * (romsShare o.vtransform o.hc (h n') q - x)| ≤ ρ * (u + h n') := by
        intro n' hn'
        have := hu _ (hnode n' hn')
        rw [abs_mul, abs_of_pos this, mul_comm ρ]
        exact mul_le_mul_of_nonneg_left (hdiff n' hn') this.le
      constructor
      · have a1 := M.mul (-1) (fun n' => ρ * (u + h n'))
        have a2 := M.mono (fun n' => -1 * (ρ * (u + h n')))
          (fun n' => (u + h n') * (romsShare o.vtransform o.hc (h n') q - x)) (fun n' hn' => by
            have := (abs_le.mp (hb n' hn')).1
            linarith)
        rw [a1] at a2
        linarith
      · exact M.mono _ _ fun n' hn' => (abs_le.mp (hb n' hn')).2
    by_cases hvt : o.vtransform = 1
    · refine base 0 (o.hc * q.1 - o.hc * q.2) q.2 (fun y hy => by linarith) (fun y hy => ?_)
      unfold romsShare
      rw [if_pos hvt]
      congr 1
      · ring
      · ring
    · refine base o.hc (o.hc * q.1) q.2 (fun y hy => by linarith) (fun y hy => ?_)
      unfold romsShare
      rw [if_neg hvt]
  · intro p hp n hc zk tk g1 g2
    obtain ⟨d1, d2⟩ := abs_of_sqDist hd (cell_near hsq hlon hlat hm (hpts p hp).1 hc)
    rw [tangent_at]
    have := le_trans (hF p.pos p.z t _ zk tk) (rate m1 m2 m3 d1 d2 g1 g2)
    simpa using this
  · intro p hp ta tb α β k _ _ _ _ _
    have M := quad_mean hsq hlon hlat (hpts p hp).1
    have e : ∀ (f : Nat × Nat → K) (ti : K), (sAt sqrt g p fun n =>
        (tangent (F p.pos p.z t) 0 0 0 0 p.pos p.z t).at (nodePos g n) (f n) ti) = F p.pos p.z t := by
      intro f ti
      refine Eq.trans ?_ (M.const (F p.pos p.z t))
      show sAt sqrt g p _ = sAt sqrt g p _
      congr 1
      funext n
      rw [tangent_at]
      ring
    rw [e, e, e, e]
    unfold mixed
    ring

/-- The columns at points in cells always come out: their hypothesis above can be met. -/
theorem roms_columns {sqrt : K → K} (hsq : SqrtOk sqrt) {g : SInterp.Grid K} {c' : Nat}
    (hlon : Rectangular c' g.lon) (hlat : Rectangular c' g.lat) (hk0 : (g.pads .node).1 ≠ .other)
    (hk1 : (g.pads .node).2 ≠ .other) (h : Nat × Nat → K) (ζ : Int → Nat × Nat → K) (times : List Int)
    (hs : StrictIncr times) (o : RomsObj K (List (List (SInterp.MV K))))
    (hb : ∃ A, o.bathymetry = plain A ∧ HoldsNodes g h A) (hz : HoldsOverTime g times ζ o.zeta)
    (sbc bbc : BC) (t : Int) (e : Bool) (ht : OnAxis times t) (pts : List (SPt K))
    (hpts : ∀ p ∈ pts, InItsCell sqrt g p) :
    ∃ (ta tb : Int) (α : K), RomsColumnsAt sqrt g times o sbc bbc t e pts (fun p => sAt sqrt g p h)
      (fun p => (1 - α) * sAt sqrt g p (ζ ta) + α * sAt sqrt g p (ζ tb)) := by
  have hon : ∀ p ∈ pts, PlacedQuad sqrt g p := fun p hp => placed_of_in hsq hlon hlat (hpts p hp)
  have hne : times ≠ [] := by
    obtain ⟨lo, hi, h0, _⟩ := ht
    rintro rfl
    simp at h0
  let T : Nat → Int := fun i => (times[i]?).getD 0
  obtain ⟨i, j, α, hw, hcase⟩ := timeStage_cases (K := K) hs hne t e (Or.inr (Or.inr ht))
  have hgz := List.forall₂_iff_get.mp hz
  refine ⟨T i, T j, α, ?_, ?_⟩
  · obtain ⟨A, hA1, hA2⟩ := hb
    unfold eval
    simp only
    rw [hA1]
    exact xyS_at sqrt g hk0 hk1 h A hA2 pts hon
  · exact surface_of_case (xyS sqrt g (some .node)) times o.zeta hgz.1.symm (PlacedQuad sqrt g)
      (fun i p => sAt sqrt g p (ζ (T i))) (by
        intro i s hi ps hps
        obtain ⟨hi2, rfl⟩ := List.getElem?_eq_some_iff.mp hi
        have hi' : i < times.length := by omega
        obtain ⟨A, hA1, hA2⟩ := hgz.2 i hi' hi2
        simp only [List.get_eq_getElem] at hA1 hA2
        rw [hA1, xyS_at sqrt g hk0 hk1 _ A hA2 ps hps]
        simp only [T, List.getElem?_eq_getElem hi', Option.getD_some])
      t e i j α hw hcase _ pts hon

end

/-! ## Cases -/

private theorem corner_mem {m : UGeom.Mesh ℚ} {f : Int} {n : (ℚ × ℚ) × Nat} (h : CornerNode m f n) :
    n ∈ m.nodes.zipIdx := by
  obtain ⟨_, _, _, _, _, _, h⟩ := h
  exact UGeom.pyGet_mem h

private theorem next_mem {times : List Int} {a b : Int} (h : NextTimes times a b) :
    a ∈ times ∧ b ∈ times := by
  obtain ⟨i, j, h1, h2, _⟩ := h
  exact ⟨List.mem_of_getElem? h1, List.mem_of_getElem? h2⟩

/-- It is enough to look at all nodes and all times. -/
private theorem water_of {m : UGeom.Mesh ℚ} {times : List Int} {D : Int → (ℚ × ℚ) × Nat → ℚ} {η deep : ℚ}
    (h : ∀ n ∈ m.nodes.zipIdx, ∀ n' ∈ m.nodes.zipIdx, ∀ ta ∈ times, ∀ tb ∈ times,
      |D ta n - D tb n'| ≤ η ∧ |D ta n| ≤ deep) : WaterAtMost (OneTri m) times D η deep := by
  rintro n n' ⟨f, h1, h2⟩ ta tb hn
  exact h n (corner_mem h1) n' (corner_mem h2) ta (next_mem hn).1 tb (next_mem hn).2

private theorem shares_of {m : UGeom.Mesh ℚ} {l : Nat} {sh : Nat → (ℚ × ℚ) × Nat → ℚ} {ρ : ℚ}
    (h : ∀ n ∈ m.nodes.zipIdx, ∀ n' ∈ m.nodes.zipIdx, ∀ k < l, ∀ k' < l, k ≤ k' + 1 → k' ≤ k + 1 →
      |sh k n - sh k' n'| ≤ ρ) : SharesAtMost (OneTri m) l sh ρ := by
  rintro n n' ⟨f, h1, h2⟩ k k' g1 g2 g3 g4
  exact h n (corner_mem h1) n' (corner_mem h2) k g1 k' g2 g3 g4

/-- C172 in full, unstructured grids: also sigma lists that differ between nodes. -/
def C172_statement : Prop :=
  ∀ (m : UGeom.Mesh ℚ) (F : SpaceTime ℚ) (mh mz mt d η deep ρ τ : ℚ) (h : (ℚ × ℚ) × Nat → ℚ)
    (ζ : Int → (ℚ × ℚ) × Nat → ℚ) (times : List Int) (sg : List ((ℚ × ℚ) × Nat → ℚ))
    (q0 : (ℚ × ℚ) × Nat) (layers : Nat) (forms : MaskForm × MaskForm × MaskForm) (sbc bbc : BC)
    (t : Int) (e : Bool) (pts : List (UPt ℚ)) (H Z : UPt ℚ → ℚ), 0 ≤ mh → 0 ≤ mz → 0 ≤ mt →
    BendsAtMost F mh mz mt → TrianglesAtMost m d → StrictIncr times → 0 ≤ τ →
    StepsAtMost (times.map fun x : Int => (x : ℚ)) τ → (∀ q, SigmaDown (sg.map fun s => s q)) →
    SharesAtMost (OneTri m) sg.length (shareOf sg) ρ →
    WaterAtMost (OneTri m) times (fun ti n => h n + ζ ti n) η deep → sg.length ≠ layers →
    HasMaskArray forms → OnAxis times t →
    (∀ p ∈ pts, InItsTriangle m p ∧ 0 ≤ p.z ∧ p.z < H p + Z p) →
    ColumnsAt m times (nodeFvcom m h ζ times sg (sg.map fun s => s q0) layers forms) sbc bbc t e pts
      H Z →
    ∃ out, eval (xyU m .node) times (fvcomSys (xyU m .node) UPt.z times
        (nodeFvcom m h ζ times sg (sg.map fun s => s q0) layers forms) sbc bbc t e)
      (.timeDepth (sigmaSamples m F h ζ times sg)) pts t e = .ok out ∧
      CloseResults UPt.pos UPt.z F t (mh * d ^ 2 + mz * (η + deep * ρ) ^ 2 + mt * τ ^ 2) pts out

/-- C173 in full: the seafloor included. -/
def C173_statement : Prop :=
  ∀ (m : UGeom.Mesh ℚ) (F : SpaceTime ℚ) (lh lz lt d η deep ρ τ : ℚ) (h : (ℚ × ℚ) × Nat → ℚ)
    (ζ : Int → (ℚ × ℚ) × Nat → ℚ) (times : List Int) (sg : List ((ℚ × ℚ) × Nat → ℚ))
    (q0 : (ℚ × ℚ) × Nat) (layers : Nat) (forms : MaskForm × MaskForm × MaskForm) (sbc bbc : BC)
    (t : Int) (e : Bool) (pts : List (UPt ℚ)) (H Z : UPt ℚ → ℚ), 0 ≤ lh → 0 ≤ lz → 0 ≤ lt →
    ChangesAtMost F lh lz lt → 0 ≤ d → TrianglesAtMost m d → StrictIncr times → 0 ≤ τ →
    StepsAtMost (times.map fun x : Int => (x : ℚ)) τ → (∀ q, SigmaDown (sg.map fun s => s q)) →
    SharesAtMost (OneTri m) sg.length (shareOf sg) ρ →
    WaterAtMost (OneTri m) times (fun ti n => h n + ζ ti n) η deep → sg.length ≠ layers →
    HasMaskArray forms → OnAxis times t →
    (∀ p ∈ pts, InItsTriangle m p ∧ 0 ≤ p.z ∧ p.z ≤ H p + Z p) →
    ColumnsAt m times (nodeFvcom m h ζ times sg (sg.map fun s => s q0) layers forms) sbc bbc t e pts
      H Z →
    ∃ out, eval (xyU m .node) times (fvcomSys (xyU m .node) UPt.z times
        (nodeFvcom m h ζ times sg (sg.map fun s => s q0) layers forms) sbc bbc t e)
      (.timeDepth (sigmaSamples m F h ζ times sg)) pts t e = .ok out ∧
      CloseResults UPt.pos UPt.z F t (lh * (2 * d) + lz * (η + deep * ρ) + lt * τ) pts out

/-- A sloping seafloor on the triangle, and sigma lists that differ between its corners. -/
private def slope : (ℚ × ℚ) × Nat → ℚ := fun q => if q.2 = 0 then 8 else if q.2 = 1 then 16 else 32
private def uneven : List ((ℚ × ℚ) × Nat → ℚ) :=
  [fun _ => 0, fun q => if q.2 = 0 then -1 / 4 else -1 / 2, fun _ => -1]

private theorem uneven_down (q : (ℚ × ℚ) × Nat) : SigmaDown (uneven.map fun s => s q) := by
  refine ⟨?_, rfl, rfl⟩
  unfold StrictDecr uneven
  simp only [List.map_cons, List.map_nil]
  split_ifs <;> decide +kernel

/-- C172 fails with sigma lists that differ between nodes. The witness is the depth itself as a field,
which does not bend at all: asked at 6 m the variable gives 7. -/
theorem C172_refuted : ¬ C172_statement := by
  intro hst
  obtain ⟨out, ho, hc⟩ := hst oneTriangle (fun _ z _ => z) 0 0 0 6 24 32 (3 / 4) 10 slope (fun _ _ => 0)
    [0, 10] uneven ((0, 0), 0) 2 (.full, .full, .full) .extrapolate .mask 5 false [⟨0, (1, 1), 6⟩]
    (fun _ => 16) (fun _ => 0) (by norm_num) (by norm_num) (by norm_num)
    (fun p z t => ⟨0, 0, 1, 0, fun p' z' t' => by simp⟩) oneTriangle_size
    (by unfold StrictIncr; decide) (by norm_num) (steps_two (by decide +kernel)) uneven_down
    (shares_of (by decide +kernel)) (water_of (by decide +kernel)) (by decide) (Or.inl rfl)
    ⟨0, 10, rfl, rfl, by decide, by decide⟩
    (by
      intro p hp
      simp only [List.mem_singleton] at hp
      subst hp
      exact ⟨oneTriangle_in 6, by norm_num, by norm_num⟩)
    (by unfold ColumnsAt; decide +kernel)
  have hv : eval (xyU oneTriangle .node) [0, 10] (fvcomSys (xyU oneTriangle .node) UPt.z [0, 10]
      (nodeFvcom oneTriangle slope (fun _ _ => 0) [0, 10] uneven (uneven.map fun s => s ((0, 0), 0)) 2
        (.full, .full, .full)) .extrapolate .mask 5 false)
      (.timeDepth (sigmaSamples oneTriangle (fun _ z _ => z) slope (fun _ _ => 0) [0, 10] uneven))
      [⟨0, (1, 1), 6⟩] 5 false = .ok [⟨some 7, false⟩] := by decide +kernel
  rw [hv] at ho
  cases ho
  obtain ⟨v, hv, hd⟩ := (List.forall₂_cons.mp hc).1.2
  cases hv
  norm_num at hd

/-- C173 fails at the seafloor itself: the query raises. -/
theorem C173_refuted : ¬ C173_statement := by
  intro hst
  obtain ⟨out, ho, hc⟩ := hst oneTriangle (fun _ z _ => z) 0 1 0 6 24 32 (3 / 4) 10 slope (fun _ _ => 0)
    [0, 10] uneven ((0, 0), 0) 2 (.full, .full, .full) .extrapolate .extrapolate 5 false
    [⟨0, (1, 1), 16⟩] (fun _ => 16) (fun _ => 0) (by norm_num) (by norm_num) (by norm_num)
    (fun p z t p' z' t' => by simp) (by norm_num) oneTriangle_size
    (by unfold StrictIncr; decide) (by norm_num) (steps_two (by decide +kernel)) uneven_down
    (shares_of (by decide +kernel)) (water_of (by decide +kernel)) (by decide) (Or.inl rfl)
    ⟨0, 10, rfl, rfl, by decide, by decide⟩
    (by
      intro p hp
      simp only [List.mem_singleton] at hp
      subst hp
      exact ⟨oneTriangle_in 16, by norm_num, by norm_num⟩)
    (by unfold ColumnsAt; decide +kernel)
  have hv : eval (xyU oneTriangle .node) [0, 10] (fvcomSys (xyU oneTriangle .node) UPt.z [0, 10]
      (nodeFvcom oneTriangle slope (fun _ _ => 0) [0, 10] uneven (uneven.map fun s => s ((0, 0), 0)) 2
        (.full, .full, .full)) .extrapolate .extrapolate 5 false)
      (.timeDepth (sigmaSamples oneTriangle (fun _ z _ => z) slope (fun _ _ => 0) [0, 10] uneven))
      [⟨0, (1, 1), 16⟩] 5 false = .error .unboundLocal := by decide +kernel
  rw [hv] at ho
  cases ho

/-- The hypotheses of the bound for smooth fields hold for a field that bends, over a sloping seafloor
and under a moving surface; the results are 4234/67 and 3418/67, the field is 38 and 26. -/
example : (∃ out, eval (xyU oneTriangle .node) [0, 10] (fvcomSys (xyU oneTriangle .node) UPt.z [0, 10]
      (nodeFvcom oneTriangle slope (fun ti q => if q.2 = 0 then (ti : ℚ) / 10 else 1) [0, 10]
        (uniformSigma [0, -1 / 2, -1]) [0, -1 / 2, -1] 2 (.nomask, .full, .nomask))
        .extrapolate .mask 5 false)
      (.timeDepth (sigmaSamples oneTriangle bent slope
        (fun ti q => if q.2 = 0 then (ti : ℚ) / 10 else 1) [0, 10] (uniformSigma [0, -1 / 2, -1])))
      [⟨0, (1, 1), 13⟩, ⟨0, (1, 1), 1⟩] 5 false = .ok out ∧
      CloseResults UPt.pos UPt.z bent ((5 : Int) : ℚ)
        (3 / 2 * 6 ^ 2 + 1 / 2 * (25 + 33 * (1 / 2)) ^ 2 + 1 * 10 ^ 2)
        [⟨0, (1, 1), 13⟩, ⟨0, (1, 1), 1⟩] out) ∧
    eval (xyU oneTriangle .node) [0, 10] (fvcomSys (xyU oneTriangle .node) UPt.z [0, 10]
      (nodeFvcom oneTriangle slope (fun ti q => if q.2 = 0 then (ti : ℚ) / 10 else 1) [0, 10]
        (uniformSigma [0, -1 / 2, -1]) [0, -1 / 2, -1] 2 (.nomask, .full, .nomask))
        .extrapolate .mask 5 false)
      (.timeDepth (sigmaSamples oneTriangle bent slope
        (fun ti q => if q.2 = 0 then (ti : ℚ) / 10 else 1) [0, 10] (uniformSigma [0, -1 / 2, -1])))
      [⟨0, (1, 1), 13⟩, ⟨0, (1, 1), 1⟩] 5 false =
      .ok [⟨some (4234 / 67), false⟩, ⟨some (3418 / 67), false⟩] ∧
    bent (1, 1) 13 5 = 38 ∧ bent (1, 1) 1 5 = 26 := by
  refine ⟨C172_triangles_partial oneTriangle bent (3 / 2) (1 / 2) 1 6 25 33 (1 / 2) 10 (by norm_num)
    (by norm_num) (by norm_num) bent_bends oneTriangle_size slope _ [0, 10]
    (by unfold StrictIncr; decide) (by norm_num) (steps_two (by decide +kernel)) [0, -1 / 2, -1]
    ⟨by unfold StrictDecr; decide +kernel, rfl, rfl⟩ (by norm_num)
    (steps_three (by decide +kernel) (by decide +kernel)) (water_of (by decide +kernel)) 2 (by decide) _
    (Or.inr (Or.inl rfl)) .extrapolate .mask 5 false ⟨0, 10, rfl, rfl, by decide, by decide⟩ _
    (fun _ => 16) (fun _ => 3 / 4) ?_ (by unfold ColumnsAt; decide +kernel), by decide +kernel,
    by decide +kernel, by decide +kernel⟩
  intro p hp
  simp only [List.mem_cons, List.not_mem_nil, or_false] at hp
  rcases hp with rfl | rfl
  · exact ⟨oneTriangle_in 13, by norm_num, by norm_num⟩
  · exact ⟨oneTriangle_in 1, by norm_num, by norm_num⟩

/-- Those of the bound for rough fields hold for a field with kinks and uneven sigma lists; the result
is 19, the field is 10. -/
example : (∃ out, eval (xyU oneTriangle .node) [0, 10] (fvcomSys (xyU oneTriangle .node) UPt.z [0, 10]
      (nodeFvcom oneTriangle slope (fun _ _ => 0) [0, 10] uneven (uneven.map fun s => s ((0, 0), 0)) 2
        (.full, .full, .full)) .extrapolate .mask 5 false)
      (.timeDepth (sigmaSamples oneTriangle kinked slope (fun _ _ => 0) [0, 10] uneven))
      [⟨0, (1, 1), 6⟩] 5 false = .ok out ∧
      CloseResults UPt.pos UPt.z kinked ((5 : Int) : ℚ) (1 * (2 * 6) + 1 * (24 + 32 * (3 / 4)) + 2 * 10)
        [⟨0, (1, 1), 6⟩] out) ∧
    eval (xyU oneTriangle .node) [0, 10] (fvcomSys (xyU oneTriangle .node) UPt.z [0, 10]
      (nodeFvcom oneTriangle slope (fun _ _ => 0) [0, 10] uneven (uneven.map fun s => s ((0, 0), 0)) 2
        (.full, .full, .full)) .extrapolate .mask 5 false)
      (.timeDepth (sigmaSamples oneTriangle kinked slope (fun _ _ => 0) [0, 10] uneven))
      [⟨0, (1, 1), 6⟩] 5 false = .ok [⟨some 19, false⟩] ∧ kinked (1, 1) 6 5 = 10 := by
  refine ⟨C173_triangles_partial oneTriangle kinked 1 1 2 6 24 32 (3 / 4) 10 (by norm_num)
    (by norm_num) (by norm_num) kinked_changes (by norm_num) oneTriangle_size slope _ [0, 10]
    (by unfold StrictIncr; decide) (by norm_num) (steps_two (by decide +kernel)) uneven uneven_down
    (shares_of (by decide +kernel)) ((0, 0), 0) (water_of (by decide +kernel)) 2 (by decide) _
    (Or.inl rfl) .extrapolate .mask 5 false ⟨0, 10, rfl, rfl, by decide, by decide⟩ _
    (fun _ => 16) (fun _ => 0) ?_ (by unfold ColumnsAt; decide +kernel), by decide +kernel,
    by decide +kernel⟩
  intro p hp
  simp only [List.mem_singleton] at hp
  subst hp
  exact ⟨oneTriangle_in 6, by norm_num, by norm_num⟩

/-- The values at the four nodes of the square. -/
private noncomputable def sqR (F : Nat × Nat → ℝ) : List (List ℝ) :=
  [[F (0, 0), F (0, 1)], [F (1, 0), F (1, 1)]]

private theorem holds_sqR (F : Nat × Nat → ℝ) : HoldsNodes oneSquare F (sqR F) := by
  refine ⟨⟨2, by unfold Rectangular sqR; simp⟩, ?_⟩
  intro i j x y hx hy
  simp only [oneSquare, lowPads] at hx hy ⊢
  rcases i with _ | _ | i <;> rcases j with _ | _ | j <;> simp [entry, sqR] at hx hy ⊢

/-- A seafloor sloping from 10 m to 30 m. -/
private noncomputable def ramp (n : Nat × Nat) : ℝ := if n.2 = 0 then 10 else 30

private theorem oneCell_nodes {n n' : Nat × Nat} (h : OneCell oneSquare n n') :
    n ∈ cellNodes 0 0 ∧ n' ∈ cellNodes 0 0 := by
  obtain ⟨i, j, px, py, ⟨x0, x1, x2, x3⟩, _, h1, h2⟩ := h
  rcases i with _ | i
  · rcases j with _ | j
    · exact ⟨h1, h2⟩
    · simp [entry, oneSquare] at x3
  · simp [entry, oneSquare] at x1

private theorem ramp_water : WaterAtMost (OneCell oneSquare) [0, 10]
    (fun (_ : Int) n => ramp n + (0 : ℝ)) 20 30 := by
  intro n n' hn ta tb _
  obtain ⟨h1, h2⟩ := oneCell_nodes hn
  simp only [cellNodes, List.mem_cons, List.not_mem_nil, or_false] at h1 h2
  rcases h1 with rfl | rfl | rfl | rfl <;> rcases h2 with rfl | rfl | rfl | rfl <;>
    norm_num [ramp, abs_le]

/-- Levels stretched towards the surface, with a critical depth of 10 m. -/
private noncomputable def stretched : RomsObj ℝ (List (List (SInterp.MV ℝ))) where
  bathymetry := plain (sqR ramp)
  zeta := [plain (sqR fun _ => 0), plain (sqR fun _ => 0)]
  vtransform := 2
  hc := 10
  levels := [(-1, -1), (-1 / 2, -1 / 4), (0, 0)]
  numLayers := 2

/-- The same levels without stretching. -/
private noncomputable def unstretched : RomsObj ℝ (List (List (SInterp.MV ℝ))) :=
  { stretched with levels := [(-1, -1), (-1 / 4, -1 / 4), (0, 0)] }

private noncomputable def squareSamples (F : SpaceTime ℝ) (d : Int → Nat → Nat × Nat → ℝ) :
    List (List (List (List (SInterp.MV ℝ)))) :=
  ([0, 10] : List Int).map fun ti : Int => [0, 1, 2].map fun k : Nat =>
    plain (sqR fun n => F (nodePos oneSquare n) (d ti k n) (ti : ℝ))

private theorem square_samples (F : SpaceTime ℝ) (d : Int → Nat → Nat × Nat → ℝ) :
    SamplesOnLevels oneSquare F [0, 10] 3 d (squareSamples F d) := by
  unfold SamplesOnLevels squareSamples
  rw [List.forall₂_map_right_iff]
  refine List.forall₂_same.mpr fun ti _ => ⟨by simp, fun k s hs => ?_⟩
  rw [List.getElem?_map] at hs
  obtain ⟨k', hk', rfl⟩ := Option.map_eq_some_iff.mp hs
  obtain rfl : k' = k := by
    rcases k with _ | _ | _ | k <;> simp at hk' <;> omega
  exact ⟨_, rfl, holds_sqR _⟩

private theorem square_point (z : ℝ) : InItsCell Real.sqrt oneSquare ⟨some (0, 0), (1, 1 / 2), z⟩ := by
  refine ⟨0, 0, 1 / 2, 1 / 4, (0, 0, 2, 2), (0, 2, 2, 0), rfl, ?_, ?_, by unfold InUnit; norm_num, ?_⟩
  · simp [IsCorners, entry, oneSquare]
  · simp [IsCorners, entry, oneSquare]
  · have h1 : SIndex.byIndex oneSquare.lon (((0 : Nat) : Int), ((0 : Nat) : Int)) =
        .ok (0, 0, 2, 2) := rfl
    have h2 : SIndex.byIndex oneSquare.lat (((0 : Nat) : Int), ((0 : Nat) : Int)) =
        .ok (0, 2, 2, 0) := rfl
    simp only [SInterp.offset, h1, h2, SInterp.xToL, SInterp.coeffs, SInterp.quot]
    norm_num

private theorem square_at (z : ℝ) (F : Nat × Nat → ℝ) :
    sAt Real.sqrt oneSquare ⟨some (0, 0), (1, 1 / 2), z⟩ F =
      bilinear (F (0, 0), F (1, 0), F (1, 1), F (0, 1)) (1 / 2) (1 / 4) := by
  refine sAt_eq Real.sqrt oneSquare _ 0 0 (1 / 2) (1 / 4) rfl ?_ F
  have h1 : SIndex.byIndex oneSquare.lon (((0 : Nat) : Int), ((0 : Nat) : Int)) =
      .ok (0, 0, 2, 2) := rfl
  have h2 : SIndex.byIndex oneSquare.lat (((0 : Nat) : Int), ((0 : Nat) : Int)) =
      .ok (0, 2, 2, 0) := rfl
  simp only [SInterp.offset, h1, h2, SInterp.xToL, SInterp.coeffs, SInterp.quot]
  norm_num

/-- The columns at the point of the square. -/
private theorem square_columns (o : RomsObj ℝ (List (List (SInterp.MV ℝ))))
    (h1 : o.bathymetry = plain (sqR ramp)) (h2 : o.zeta = [plain (sqR fun _ => 0), plain (sqR fun _ => 0)])
    (z : ℝ) : RomsColumnsAt Real.sqrt oneSquare [0, 10] o .extrapolate .mask 5 false
      [⟨some (0, 0), (1, 1 / 2), z⟩] (fun _ => 20) (fun _ => 0) := by
  obtain ⟨ta, tb, α, h⟩ := roms_columns (sqrt := Real.sqrt) (fun k hk => Real.mul_self_sqrt hk)
    (g := oneSquare) (c' := 2)
    (by unfold Rectangular oneSquare; simp) (by unfold Rectangular oneSquare; simp) (by decide)
    (by decide) ramp (fun _ _ => 0) [0, 10] (by unfold StrictIncr; decide) o ⟨_, h1, holds_sqR _⟩
    (by
      unfold HoldsOverTime
      rw [h2]
      exact .cons ⟨_, rfl, holds_sqR _⟩ (.cons ⟨_, rfl, holds_sqR _⟩ .nil))
    .extrapolate .mask 5 false ⟨0, 10, rfl, rfl, by decide, by decide⟩
    [⟨some (0, 0), (1, 1 / 2), z⟩] (by
      intro p hp
      simp only [List.mem_singleton] at hp
      subst hp
      exact square_point z)
  unfold RomsColumnsAt at h ⊢
  simp only [List.map_cons, List.map_nil, square_at] at h
  norm_num [bilinear, ramp] at h
  simpa using h

private theorem square_size : CellsAtMost oneSquare 3 := by
  intro i j px py hx hy
  obtain ⟨x0, x1, x2, x3⟩ := hx
  obtain ⟨y0, y1, y2, y3⟩ := hy
  obtain ⟨a, b, c, d⟩ := px
  obtain ⟨a', b', c', d'⟩ := py
  rcases i with _ | i
  · rcases j with _ | j
    · simp [entry, oneSquare] at x0 x1 x2 x3 y0 y1 y2 y3
      subst x0 x1 x2 x3 y0 y1 y2 y3
      intro X hX Y hY
      simp only [quadCorners, List.mem_cons, List.not_mem_nil, or_false] at hX hY
      rcases hX with rfl | rfl | rfl | rfl <;> rcases hY with rfl | rfl | rfl | rfl <;>
        (unfold sqDist; norm_num)
    · simp [entry, oneSquare] at x3
  · simp [entry, oneSquare] at x1

/-- The square of the depth bends. -/
private theorem depth_squared : BendsAtMost (fun (_ : ℝ × ℝ) (z _ : ℝ) => z ^ 2) 0 1 0 := by
  intro p z t
  refine ⟨0, 0, 2 * z, 0, fun p' z' t' => ?_⟩
  have e : z' ^ 2 - (z ^ 2 + 0 * (p'.1 - p.1) + 0 * (p'.2 - p.2) + 2 * z * (z' - z) + 0 * (t' - t)) =
      (z' - z) ^ 2 := by ring
  simp only
  rw [e, abs_of_nonneg (sq_nonneg _)]
  linarith

/-- The hypotheses of the bound for smooth fields hold on a structured grid with unstretched levels over
a sloping seafloor. -/
example : ∃ out, eval (xyS Real.sqrt oneSquare (some .node)) [0, 10]
    (romsSys (xyS Real.sqrt oneSquare (some .node)) SPt.z [0, 10] unstretched .extrapolate .mask 5 false)
    (.timeDepth (squareSamples (fun _ z _ => z ^ 2) fun _ k n => -(ramp n + 0) *
      ((unstretched.levels.map Prod.snd)[k]?).getD 0)) [⟨some (0, 0), (1, 1 / 2), 15⟩] 5 false = .ok out ∧
    CloseResults SPt.pos SPt.z (fun _ z _ => z ^ 2) ((5 : Int) : ℝ)
      (0 * 3 ^ 2 + 1 * (20 + 30 * (3 / 4)) ^ 2 + 0 * 10 ^ 2) [⟨some (0, 0), (1, 1 / 2), 15⟩] out := by
  refine C172_quads_partial Real.sqrt (fun k hk => Real.mul_self_sqrt hk) oneSquare 2
    (by unfold Rectangular oneSquare; simp) (by unfold Rectangular oneSquare; simp) (by decide)
    (by decide) _ 0 1 0 3 20 30 (3 / 4) 10 (by norm_num) (by norm_num) (by norm_num) depth_squared
    square_size ramp (fun _ _ => 0) [0, 10] (by unfold StrictIncr; decide) (by norm_num) ?_ unstretched
    ⟨_, rfl, holds_sqR _⟩ (.cons ⟨_, rfl, holds_sqR _⟩ (.cons ⟨_, rfl, holds_sqR _⟩ .nil))
    (Or.inr ?_) (by norm_num [unstretched, stretched]) ?_ (by simp [unstretched])
    (by simp [unstretched]) (by simp [unstretched, stretched]) (by norm_num) ?_ ramp_water _
    (square_samples _ _) .extrapolate .mask 5 false ⟨0, 10, rfl, rfl, by decide, by decide⟩ _
    (fun _ => 20) (fun _ => 0) ?_ (square_columns _ rfl rfl _)
  · intro j a b ha hb
    rcases j with _ | j
    · simp at ha hb
      subst ha hb
      norm_num
    · simp at hb
  · intro q hq
    simp only [unstretched, List.mem_cons, List.not_mem_nil, or_false] at hq
    rcases hq with rfl | rfl | rfl <;> rfl
  · simp only [unstretched, List.pairwise_cons, List.mem_cons, List.not_mem_nil, or_false]
    norm_num
  · intro j a b ha hb
    rcases j with _ | _ | j
    · simp [unstretched] at ha hb
      subst ha hb
      norm_num
    · simp [unstretched] at ha hb
      subst ha hb
      norm_num
    · simp [unstretched] at hb
  · intro p hp
    simp only [List.mem_singleton] at hp
    subst hp
    exact ⟨square_point _, by norm_num, by norm_num, by norm_num, Or.inr rfl⟩

/-- Those of the bound for rough fields hold with stretched levels and a critical depth. -/
example : ∃ out, eval (xyS Real.sqrt oneSquare (some .node)) [0, 10]
    (romsSys (xyS Real.sqrt oneSquare (some .node)) SPt.z [0, 10] stretched .extrapolate .mask 5 false)
    (.timeDepth (squareSamples (fun _ z _ => |z - 5|) fun _ k n => -(ramp n + 0) *
      romsShare 2 10 (ramp n) ((stretched.levels[k]?).getD (0, 0)))) [⟨some (0, 0), (1, 1 / 2), 15⟩] 5
      false = .ok out ∧
    CloseResults SPt.pos SPt.z (fun _ z _ => |z - 5|) ((5 : Int) : ℝ)
      (0 * (2 * 3) + 1 * (20 + 30 * 1) + 0 * 10) [⟨some (0, 0), (1, 1 / 2), 15⟩] out := by
  refine C173_quads_partial Real.sqrt (fun k hk => Real.mul_self_sqrt hk) oneSquare 2
    (by unfold Rectangular oneSquare; simp) (by unfold Rectangular oneSquare; simp) (by decide)
    (by decide) _ 0 1 0 3 20 30 1 10 (by norm_num) (by norm_num) (by norm_num) ?_ (by norm_num)
    square_size ramp (fun _ _ => 0) [0, 10] (by unfold StrictIncr; decide) (by norm_num) ?_ stretched
    ⟨_, rfl, holds_sqR _⟩ (.cons ⟨_, rfl, holds_sqR _⟩ (.cons ⟨_, rfl, holds_sqR _⟩ .nil))
    (by norm_num [stretched]) ?_ (by simp [stretched])
    (by simp [stretched]) (by simp [stretched]) ?_ ?_ ramp_water _
    (square_samples _ _) .extrapolate .mask 5 false ⟨0, 10, rfl, rfl, by decide, by decide⟩ _
    (fun _ => 20) (fun _ => 0) ?_ (square_columns _ rfl rfl _)
  · intro p z t p' z' t'
    have := abs_abs_sub_abs_le_abs_sub (z' - 5) (z - 5)
    rw [show z' - 5 - (z - 5) = z' - z by ring] at this
    linarith
  · intro j a b ha hb
    rcases j with _ | j
    · simp at ha hb
      subst ha hb
      norm_num
    · simp at hb
  · simp only [stretched, List.pairwise_cons, List.mem_cons, List.not_mem_nil, or_false]
    norm_num
  · intro n _
    unfold ramp
    split <;> norm_num
  · intro n n' _ k k' h1 h2 _ _
    have hb : ∀ (k : Nat) (n : Nat × Nat), k < 3 →
        -1 ≤ romsShare 2 10 (ramp n) ((stretched.levels[k]?).getD (0, 0)) ∧
        romsShare 2 10 (ramp n) ((stretched.levels[k]?).getD (0, 0)) ≤ 0 := by
      intro k n hk
      have : k = 0 ∨ k = 1 ∨ k = 2 := by omega
      have hr : ramp n = 10 ∨ ramp n = 30 := by
        unfold ramp
        split
        · exact Or.inl rfl
        · exact Or.inr rfl
      rcases hr with hr | hr <;> rcases this with rfl | rfl | rfl <;>
        norm_num [stretched, romsShare, hr]
    have g1 := hb k n h1
    have g2 := hb k' n' h2
    show |romsShare 2 10 (ramp n) ((stretched.levels[k]?).getD (0, 0)) -
      romsShare 2 10 (ramp n') ((stretched.levels[k']?).getD (0, 0))| ≤ 1
    rw [abs_le]
    constructor <;> linarith [g1.1, g1.2, g2.1, g2.2]
  · intro p hp
    simp only [List.mem_singleton] at hp
    subst hp
    exact ⟨square_point _, by norm_num, by norm_num, by norm_num, Or.inr rfl⟩

end Verif
