import Verif.Props.RoundedAt
import Verif.Props.Superpose
import Verif.Props.SInterp
import Verif.Model.SigmaAt

/-!
# Sets of values that an evaluation does not leave
-/

set_option autoImplicit false

namespace Verif
open Spec Verif.DepthM Verif.TimeM Verif.At Verif.Rounded Verif.RoundedAt

section
variable {K : Type} [Field K] [LinearOrder K] [IsStrictOrderedRing K]

/-- With two numbers, all numbers between them. -/
def Convex' (D : K → Prop) : Prop := ∀ x y a, D x → D y → 0 ≤ a → a ≤ 1 → D ((1 - a) * x + a * y)

/-- Every finite value of a result satisfies `D`. -/
def Only (D : K → Prop) (r : Except Err (List (Cell K))) : Prop :=
  ∀ l, r = .ok l → ∀ c ∈ l, ∀ v, c.value = some v → D v

/-- The depth weights of the points that are not masked are between 0 and 1. -/
def UnitWeights {P : Type} (ds : DepthSys K P) (pts : List P) : Prop :=
  ∀ ents, ds.alphas pts = .ok ents → ∀ e ∈ ents, e.masked = false → ∀ α, e.alpha = some α →
    0 ≤ α ∧ α ≤ 1

theorem levelSys_unitWeights {P : Type} (z : P → K) {levels : List K}
    (hs : StrictIncr levels ∨ StrictDecr levels) (sbc bbc : BC) (pts : List P) :
    UnitWeights (levelSys z levels sbc bbc) pts := by
  intro ents he e hm hmask α hα
  have hcm : (pts.map fun p => (fun _ : Bool => p)).map (· false) = pts := by
    rw [List.map_map]; exact List.map_id pts
  rcases depths_near (exact_accurate (K := K)) (by norm_num) z hs sbc bbc pts with ⟨x, hx⟩ | ⟨E, hE, hx⟩
  · have := hx false
    rw [hcm] at this
    have h2 : (levelSys z levels sbc bbc).alphas pts = .error x := this
    rw [he] at h2; cases h2
  · have := hx false
    rw [hcm] at this
    have h2 : (levelSys z levels sbc bbc).alphas pts = .ok (E.map (Ent.of false)) := this
    rw [he] at h2
    cases h2
    obtain ⟨x, hx', rfl⟩ := List.mem_map.mp hm
    rcases hE x hx' hmask with ⟨h0, _⟩ | ⟨a, _, h0, _, h1, h2, _⟩
    · simp only [Ent.of] at hα; rw [h0] at hα; cases hα
    · simp only [Ent.of] at hα; rw [h0] at hα; cases hα; exact ⟨h1, h2⟩

private theorem surfaceOnly_unit (i : Int) (n : Nat) : ∀ e ∈ (surfaceOnly i n : List (Entry K)),
    ∀ α, e.alpha = some α → 0 ≤ α ∧ α ≤ 1 := by
  intro e he α hα
  rw [List.eq_of_mem_replicate he] at hα
  cases hα
  exact ⟨le_rfl, zero_le_one⟩

/-- Sigma depths check their weights before returning them. -/
theorem sigmaAlphas_unit (rnd : K → K) (surf bot : Int) (lv ly sh : Nat) (sbc bbc : BC)
    (depths : List K) (profiles : List (List K)) (cm : List Bool) (ents : List (Entry K))
    (h : sigmaAlphas rnd surf bot lv ly sh sbc bbc depths profiles cm = .ok ents) :
    ∀ e ∈ ents, e.masked = false → ∀ α, e.alpha = some α → 0 ≤ α ∧ α ≤ 1 := by
  unfold sigmaAlphas at h
  split at h
  · cases h
    exact fun e he _ α hα => surfaceOnly_unit surf depths.length e he α hα
  split at h
  · cases h
  split at h
  · cases h
  simp only at h
  split at h
  · cases h
  split at h
  · cases h
  split at h
  · cases h
  rename_i hn
  cases h
  intro e he hm α hα
  by_contra hc
  refine hn (List.any_eq_true.mpr ⟨e, he, ?_⟩)
  simp only [hα, hm, Bool.not_false, Bool.and_true, Bool.or_eq_true, decide_eq_true_eq]
  by_contra hc'
  rw [not_or, not_lt, not_lt] at hc'
  exact hc hc'

theorem romsSys_unitWeights {P σ : Type} (xy : σ → List P → Except Err (List (Cell K))) (z : P → K)
    (times : List Int) (o : RomsObj K σ) (sbc bbc : BC) (t : Int) (e : Bool) (pts : List P) :
    UnitWeights (romsSys xy z times o sbc bbc t e) pts := by
  intro ents h
  simp only [romsSys] at h
  split at h
  · unfold romsAlphas at h
    split at h
    · split at h
      · cases h
      · exact sigmaAlphas_unit _ _ _ _ _ _ _ _ _ _ _ _ h
    · cases h
    · cases h
  · cases h
  · cases h

theorem fvcomSys_unitWeights {P σ : Type} (xy : σ → List P → Except Err (List (Cell K))) (z : P → K)
    (times : List Int) (o : FvcomObj K σ) (sbc bbc : BC) (t : Int) (e : Bool) (pts : List P) :
    UnitWeights (fvcomSys xy z times o sbc bbc t e) pts := by
  intro ents h
  simp only [fvcomSys] at h
  split at h
  · cases h
    exact fun e he _ α hα => surfaceOnly_unit 0 pts.length e he α hα
  split at h
  · split at h
    · cases h
    · split at h
      · cases h
      · unfold fvcomAlphas at h
        split at h
        · exact sigmaAlphas_unit _ _ _ _ _ _ _ _ _ _ _ _ h
        · cases h
        · cases h
  · cases h
  · cases h
  · cases h

/-- One run of the stages, for a set of values closed under mixing. -/
theorem eval_only {P σ : Type} {D : K → Prop} (hD : Convex' D)
    (xy : σ → List P → Except Err (List (Cell K))) (S : σ → Prop) (Q : P → Prop)
    (hxy : ∀ s, S s → ∀ ps : List P, (∀ p ∈ ps, Q p) → Only D (xy s ps))
    (times : List Int) (ht : StrictIncr times) (ds : DepthSys K P) (d : Data σ) (hd : d.All S)
    (pts : List P) (hp : ∀ p ∈ pts, Q p) (hw : UnitWeights ds pts) (t : Int) (e : Bool) :
    Only D (eval xy times ds d pts t e) := by
  let W : (Unit → Option K) → Prop := fun a => ∀ α, a () = some α → 0 ≤ α ∧ α ≤ 1
  let R : (Unit → Cell K) → Prop := fun c => ∀ v, (c ()).value = some v → D v
  have hcm : ∀ (ps : List P) (i : Unit), (ps.map fun p => (fun _ : Unit => p)).map (· i) = ps := by
    intro ps i; rw [List.map_map]; exact List.map_id ps
  have hstep : Step (fun _ : Unit => fun x : K => x) W R R := by
    refine ⟨fun _ h => h, (fun b v hv => by cases hv), ?_⟩
    intro c c' hc hc' a ha v hv
    simp only [mixCellR] at hv
    rcases h1 : (c ()).value with _ | x
    · simp [h1] at hv
    rcases h2 : (c' ()).value with _ | y
    · simp [h1, h2] at hv
    rcases h3 : a () with _ | α
    · simp [h1, h2, h3] at hv
    simp only [h1, h2, h3, Option.some.injEq, mixR] at hv
    obtain ⟨a0, a1⟩ := ha α h3
    have := hD x y α (hc x h1) (hc' y h2) a0 a1
    rwa [show (1 - α) * x + α * y = x + (y - x) * α by ring, hv] at this
  have := evalR_together (ι := Unit) (P := fun _ => P) (σ := fun _ => σ)
    (rnd := fun _ : Unit => fun x : K => x) hstep hstep (Q := fun p => Q (p ()))
    (S := fun s => S (s ())) (fun _ => xy) (by
      intro s hs ps hps
      have hmap : ps.map (· ()) = ps.map (· ()) := rfl
      rcases hr : xy (s ()) (ps.map (· ())) with x | l
      · exact Or.inl ⟨x, fun _ => hr⟩
      · refine Or.inr ⟨fun _ => l, ⟨l.map fun c _ => c, ?_, fun i => ?_⟩, fun _ => hr⟩
        · intro c hc
          obtain ⟨c, hc', rfl⟩ := List.mem_map.mp hc
          intro v hv
          exact hxy (s ()) hs (ps.map (· ())) (by
            intro p hp
            obtain ⟨q, hq, rfl⟩ := List.mem_map.mp hp
            exact hps q hq) l hr c hc' v hv
        · rw [List.map_map]; exact (List.map_id l).symm)
    times (fun _ => ds) ds.numLayers (fun _ => rfl) (d.map fun s _ => s) (by
      cases d with
      | timeDepth d =>
        intro r hr s hs
        obtain ⟨r', hr', rfl⟩ := List.mem_map.mp hr
        obtain ⟨x, hx, rfl⟩ := List.mem_map.mp hs
        exact hd r' hr' x hx
      | time d => intro s hs; obtain ⟨x, hx, rfl⟩ := List.mem_map.mp hs; exact hd x hx
      | depth d => intro s hs; obtain ⟨x, hx, rfl⟩ := List.mem_map.mp hs; exact hd x hx
      | flat s => exact hd)
    (pts.map fun p _ => p) (by
      intro p hp'
      obtain ⟨q, hq, rfl⟩ := List.mem_map.mp hp'
      exact hp q hq)
    (by
      unfold Depths
      simp only [hcm]
      rcases ha : ds.alphas pts with x | ents
      · exact Or.inl ⟨x, fun _ => rfl⟩
      · refine Or.inr ⟨ents.map fun e => ⟨e.idx, e.masked, fun _ => e.alpha⟩, ?_, fun i => ?_⟩
        · intro x hx hm α hα
          obtain ⟨e, he, rfl⟩ := List.mem_map.mp hx
          exact hw ents ha e he hm α hα
        · rw [List.map_map]
          congr 1
          exact (List.map_id ents).symm)
    t e (by
      rcases interpAlpha_near (exact_accurate (K := K)) (by norm_num) ht t e with ⟨x, hx⟩ | ⟨a, ha, hx⟩
      · exact Or.inl ⟨x, fun _ => hx false⟩
      · refine Or.inr ⟨fun _ => a false, ?_, fun _ => hx false⟩
        intro α hα
        rcases ha with ⟨h0, _⟩ | ⟨α', _, h0, _, h1, h2, _⟩
        · cases h0
        · cases h0; cases hα; exact ⟨h1, h2⟩)
  have hdm : ∀ i : Unit, (d.map fun s => (fun _ : Unit => s)).map (· i) = d := by
    intro i
    cases d <;> simp [Data.map, Function.comp_def]
  simp only [hcm, hdm, evalR_exact] at this
  intro l hl c hc v hv
  rcases this with ⟨x, hx⟩ | ⟨b, ⟨L, hL, hb⟩, hx⟩
  · have := hx (); rw [hl] at this; cases this
  · have := hx (); rw [hl] at this; cases this
    rw [hb ()] at hc
    obtain ⟨c', hc', rfl⟩ := List.mem_map.mp hc
    exact hL c' hc' v hv


/-! ## Horizontal stages -/

theorem mapE_mem {α β : Type} {f : α → Except Err β} : ∀ {l : List α} {bs : List β},
    mapE f l = .ok bs → ∀ b ∈ bs, ∃ x ∈ l, f x = .ok b
  | [], bs, h, b, hb => by
      simp only [mapE, Except.ok.injEq] at h
      subst h; cases hb
  | a :: l, bs, h, b, hb => by
      unfold mapE at h
      rcases hf : f a with x | y
      · rw [hf] at h; cases h
      rw [hf] at h
      rcases ht : mapE f l with x | ys
      · rw [ht] at h; cases h
      rw [ht] at h
      simp only [Except.ok.injEq] at h
      subst h
      rcases List.mem_cons.mp hb with rfl | hb
      · exact ⟨a, List.mem_cons_self, hf⟩
      · obtain ⟨x, hx, hx'⟩ := mapE_mem ht b hb
        exact ⟨x, List.mem_cons_of_mem _ hx, hx'⟩

theorem Convex'.three {D : K → Prop} (hD : Convex' D) {x y z a b c : K} (hx : D x) (hy : D y)
    (hz : D z) (ha : 0 ≤ a) (hb : 0 ≤ b) (hc : 0 ≤ c) (h : a + b + c = 1) :
    D (x * a + y * b + z * c) := by
  by_cases h0 : b + c = 0
  · have hb0 : b = 0 := by linarith
    have hc0 : c = 0 := by linarith
    have ha1 : a = 1 := by linarith
    subst hb0; subst hc0; subst ha1
    simpa using hx
  · have hpos : 0 < b + c := lt_of_le_of_ne (by linarith) (Ne.symm h0)
    have h1 := hD y z (c / (b + c)) hy hz (by positivity) (by rw [div_le_one hpos]; linarith)
    have h2 := hD x _ (b + c) hx h1 hpos.le (by linarith)
    have e : (1 - (b + c)) * x + (b + c) * ((1 - c / (b + c)) * y + c / (b + c) * z) =
        x * a + y * b + z * c := by
      have : c / (b + c) * (b + c) = c := div_mul_cancel₀ c h0
      linear_combination (z - y) * this + x * (-h)
    rwa [e] at h2

theorem xyU_only {D : K → Prop} (hD : Convex' D) (m : UGeom.Mesh K) (loc : UGeom.Loc)
    (data : List (Option K)) (hd : ∀ x, some x ∈ data → D x) (ps : List (UPt K))
    (hp : ∀ p ∈ ps, LocatedOrNot m p ∧ (p.face = -1 → D 0)) : Only D (xyU m loc data ps) := by
  intro l hl c hc v hv
  have fin : ∀ f : UPt K → Except Err (Option K),
      (∀ p ∈ ps, ∀ v, f p = .ok (some v) → D v) →
      (match mapE f ps with
        | .error e => Except.error e
        | .ok vs => .ok (vs.map fun v => ({ value := v, masked := false } : Cell K))) = .ok l → D v := by
    intro f hf h
    rcases hm : mapE f ps with x | vs
    · rw [hm] at h; cases h
    rw [hm] at h
    simp only [Except.ok.injEq] at h
    subst h
    obtain ⟨o, ho, rfl⟩ := List.mem_map.mp hc
    simp only at hv
    subst hv
    obtain ⟨p, hp', hpo⟩ := mapE_mem hm _ ho
    exact hf p hp' v hpo
  cases loc with
  | boundary => cases hl
  | face =>
    refine fin (fun p => UGeom.interpFace data p.face) ?_ ?_
    · intro p hp' v hv
      unfold UGeom.interpFace at hv
      rcases hg : Np.pyGet data p.face with x | o
      · rw [hg] at hv; cases hv
      rw [hg] at hv
      simp only [Except.ok.injEq] at hv
      split at hv
      · rcases o with _ | x
        · cases hv
        · simp only [UGeom.fmul, mul_zero, Option.some.injEq] at hv
          subst hv
          exact (hp p hp').2 ‹_›
      · subst hv
        exact hd v (UGeom.pyGet_mem hg)
    · rw [← hl]
      simp only [xyU, UGeom.interpolate, mapE_comp]
      rcases mapE (fun p : UPt K => UGeom.interpFace data p.face) ps <;> rfl
  | node =>
    refine fin (fun p => UGeom.interpNode m data p.face p.pos) ?_ ?_
    · intro p hp' v hv
      obtain ⟨hloc, h0⟩ := hp p hp'
      unfold UGeom.interpNode at hv
      split at hv
      · cases hv
      · rename_i a b c hf
        split at hv
        · rename_i P Q R hP hQ hR
          split at hv
          · rename_i o0 o1 o2 g0 g1 g2
            simp only [Except.ok.injEq] at hv
            rcases o0 with _ | x0
            · exfalso; revert hv; split <;> simp [UGeom.fmul, UGeom.fadd]
            rcases o1 with _ | x1
            · exfalso; revert hv; rcases (UGeom.alphas p.face P Q R p.pos).1 <;> split <;>
                simp [UGeom.fmul, UGeom.fadd]
            rcases o2 with _ | x2
            · exfalso; revert hv
              rcases (UGeom.alphas p.face P Q R p.pos).1 <;>
              rcases (UGeom.alphas p.face P Q R p.pos).2.1 <;>
              split <;> simp [UGeom.fmul, UGeom.fadd]
            have d0 := hd x0 (UGeom.pyGet_mem g0)
            have d1 := hd x1 (UGeom.pyGet_mem g1)
            have d2 := hd x2 (UGeom.pyGet_mem g2)
            by_cases hz : UGeom.denom P Q R = 0
            · exfalso; revert hv
              simp [UGeom.alphas, UGeom.fdiv, hz, UGeom.fmul, UGeom.fadd]
            by_cases h1 : p.face = -1
            · simp [h1, UGeom.alphas, UGeom.fdiv, hz, UGeom.fmul, UGeom.fadd] at hv
              subst hv
              exact h0 h1
            · rcases hloc with hloc | hloc
              · exact absurd hloc h1
              obtain ⟨w0, w1, w2, p0, p1, p2, hw⟩ := hloc P Q R ⟨a, b, c, hf, hP, hQ, hR⟩
              obtain ⟨e0, e1, e2⟩ := (UGeom.weighted_iff hz p.pos w0 w1 w2).mp hw
              simp only [h1, UGeom.alphas, UGeom.fdiv, hz, UGeom.fmul, UGeom.fadd, if_false,
                Option.some.injEq] at hv
              rw [← e0, ← e1, ← e2] at hv
              subst hv
              exact hD.three d0 d1 d2 p0 p1 p2 hw.1
          · cases hv
        · cases hv
      · cases hv
    · rw [← hl]
      simp only [xyU, UGeom.interpolate, mapE_comp]
      rcases mapE (fun p : UPt K => UGeom.interpNode m data p.face p.pos) ps <;> rfl

/-! ### Structured grids -/

/-- The point is off the grid, or its offsets in its cell, if finite, are in the unit square. -/
def InCellOrNot (sqrt : K → K) (g : SInterp.Grid K) (p : SPt K) : Prop :=
  ∀ ij, p.cell = some ij → ∀ lm, SInterp.offset sqrt g p.pos ij = .ok (some lm) → InUnit lm

/-- What masked values are replaced by stays in `D`. -/
def MaskOk (D : K → Prop) (g : SInterp.Grid K) : Prop :=
  D 0 ∧ (g.behavior = "mirror" → ∀ x, D x → D (-x))

/-- The values (also those under the mask) are in `D`; nothing is masked unless the replacements
are. -/
def SliceOk (D : K → Prop) (g : SInterp.Grid K) (A : List (List (SInterp.MV K))) : Prop :=
  ∀ r ∈ A, ∀ v ∈ r, D v.val ∧ (v.masked = true → MaskOk D g)

theorem cellOffset_unit {sqrt : K → K} {g : SInterp.Grid K} {p : SPt K} {ij : Int × Int} {lm : K × K}
    (hp : InCellOrNot sqrt g p) (hc : p.cell = some ij)
    (h : SInterp.cellOffset sqrt g p.pos ij = .ok (some lm)) : InUnit lm := by
  rcases ho : SInterp.offset sqrt g p.pos ij with x | o
  · simp [SInterp.cellOffset, SInterp.geoToLogical, ho] at h
  · rw [Verif.cellOffset_eq sqrt g p.pos ij o ho] at h
    cases h
    exact hp ij hc lm ho

theorem flat_ok {D : K → Prop} {g : SInterp.Grid K} {A : List (List (SInterp.MV K))}
    (hA : SliceOk D g A) {k : Int} {v : SInterp.MV K} (h : Np.pyGet A.flatten k = .ok v) :
    D v.val ∧ (v.masked = true → MaskOk D g) := by
  obtain ⟨r, hr, hv⟩ := List.mem_flatten.mp (UGeom.pyGet_mem h)
  exact hA r hr v hv

theorem filled_ok {D : K → Prop} {g : SInterp.Grid K} {v : SInterp.MV K}
    (h : D v.val ∧ (v.masked = true → MaskOk D g)) : D (if v.masked then 0 else v.val) := by
  split
  · exact (h.2 ‹_›).1
  · exact h.1

theorem nodeValue_only {D : K → Prop} (hD : Convex' D) (sqrt : K → K) (g : SInterp.Grid K)
    {A : List (List (SInterp.MV K))} (hA : SliceOk D g A) (p : SPt K) (hp : InCellOrNot sqrt g p)
    (ij : Int × Int) (hc : p.cell = some ij) (v : K)
    (h : SInterp.nodeValue sqrt g A p.pos ij = .ok (some v)) : D v := by
  unfold SInterp.nodeValue at h
  rcases ho : SInterp.cellOffset sqrt g p.pos ij with x | o
  · rw [ho] at h; cases h
  rw [ho] at h
  simp only at h
  rcases hi : SIndex.applyPadding (g.pads .node) ij with x | idx
  · rw [hi] at h; cases h
  rw [hi] at h
  simp only at h
  rcases o with _ | lm
  · cases h
  simp only at h
  rcases hb : SIndex.byIndex A idx with x | ⟨v0, v1, v2, v3⟩
  · rw [hb] at h; cases h
  rw [hb] at h
  simp only [Except.ok.injEq] at h
  have hu := cellOffset_unit hp hc ho
  obtain ⟨l0, l1, m0, m1⟩ := hu
  have hval : (D v0.val ∧ (v0.masked = true → MaskOk D g)) ∧
      (D v1.val ∧ (v1.masked = true → MaskOk D g)) ∧
      (D v2.val ∧ (v2.masked = true → MaskOk D g)) ∧
      (D v3.val ∧ (v3.masked = true → MaskOk D g)) := by
    unfold SIndex.byIndex at hb
    simp only at hb
    split at hb
    · rename_i a b c d ha hb' hc' hd'
      simp only [Except.ok.injEq, Prod.mk.injEq] at hb
      obtain ⟨rfl, rfl, rfl, rfl⟩ := hb
      exact ⟨flat_ok hA ha, flat_ok hA hb', flat_ok hA hc', flat_ok hA hd'⟩
    · cases hb
  obtain ⟨k0, k1, k2, k3⟩ := hval
  simp only [Option.bind_some, SInterp.maskedDot] at h
  split at h
  · cases h
  simp only [SInterp.dot, SInterp.filledZero, SInterp.nodeWeights, List.map_cons, List.map_nil,
    List.zipWith_cons_cons, List.zipWith_nil_right, List.sum_cons, List.sum_nil,
    Option.some.injEq] at h
  subst h
  have e0 := hD _ _ lm.2 (filled_ok k0) (filled_ok k1) m0 m1
  have e1 := hD _ _ lm.2 (filled_ok k3) (filled_ok k2) m0 m1
  have e := hD _ _ lm.1 e0 e1 l0 l1
  convert e using 1
  ring

/-- The two values on the edges of a cell. -/
def RowOk (D : K → Prop) (g : SInterp.Grid K) (r : List (SInterp.MV K)) : Prop :=
  ∃ v w, r = [v, w] ∧ (D v.val ∧ (v.masked = true → MaskOk D g)) ∧
    (D w.val ∧ (w.masked = true → MaskOk D g))

theorem edgeRow_only {D : K → Prop} (sqrt : K → K) (g : SInterp.Grid K)
    (hg : g.centerMask = none ∨ MaskOk D g) (loc : SIndex.Loc)
    {A : List (List (SInterp.MV K))} (hA : SliceOk D g A) (p : SPt K) (hp : InCellOrNot sqrt g p)
    (r : List (SInterp.MV K) × Option (List K))
    (h : SInterp.edgeRow sqrt g loc A (p.pos, p.cell) = .ok r) (w : List K) (hw : r.2 = some w) :
    RowOk D g r.1 ∧ ∃ a, 0 ≤ a ∧ a ≤ 1 ∧ w = [1 - a, a] := by
  unfold SInterp.edgeRow at h
  rcases hc : p.cell with _ | ij
  · simp only [hc, Except.ok.injEq] at h
    subst h; cases hw
  simp only [hc] at h
  rcases ho : SInterp.cellOffset sqrt g p.pos ij with x | o
  · rw [ho] at h; cases h
  rw [ho] at h
  simp only at h
  rcases he : SInterp.edgeValues g loc A ij with x | row
  · rw [he] at h; cases h
  rw [he] at h
  simp only [Except.ok.injEq] at h
  subst h
  rcases o with _ | lm
  · cases hw
  simp only [Option.map_some, Option.some.injEq] at hw
  subst hw
  obtain ⟨l0, l1, m0, m1⟩ := cellOffset_unit hp hc ho
  refine ⟨?_, ?_⟩
  · have hmask : ∀ i b, SInterp.maskAt g i = .ok b → g.centerMask = none → b = false := by
      intro i b hb hn
      simp only [SInterp.maskAt, hn, Except.ok.injEq] at hb
      exact hb.symm
    unfold SInterp.edgeValues at he
    split at he
    · split at he
      · rename_i u1 a0 ab u2 aa h1 h2 h3 h4 h5
        simp only [Except.ok.injEq] at he
        subst he
        have k1 := flat_ok hA h1
        have k2 := flat_ok hA h4
        refine ⟨_, _, rfl, ⟨k1.1, ?_⟩, ⟨k2.1, ?_⟩⟩
        · intro hm
          rcases hg with hg | hg
          · rw [hmask _ _ h2 hg, hmask _ _ h3 hg] at hm
            exact k1.2 (by simpa using hm)
          · exact hg
        · intro hm
          rcases hg with hg | hg
          · rw [hmask _ _ h2 hg, hmask _ _ h5 hg] at hm
            exact k2.2 (by simpa using hm)
          · exact hg
      · cases he
    · cases he
    · cases he
  · cases loc
    all_goals first
      | exact ⟨lm.1, l0, l1, rfl⟩
      | exact ⟨lm.2, m0, m1, rfl⟩

theorem dot_two {D : K → Prop} (hD : Convex' D) {x y a : K} (hx : D x) (hy : D y) (h0 : 0 ≤ a)
    (h1 : a ≤ 1) : D (SInterp.dot [x, y] [1 - a, a]) := by
  have := hD x y a hx hy h0 h1
  simp only [SInterp.dot, List.zipWith_cons_cons, List.zipWith_nil_right, List.sum_cons,
    List.sum_nil, add_zero]
  convert this using 1
  ring

theorem mem_zipWith_get {α β γ : Type} {f : α → β → γ} {l : List α} {m : List β} {c : γ}
    (h : c ∈ List.zipWith f l m) : ∃ (i : Nat) (a : α) (b : β), l[i]? = some a ∧ m[i]? = some b ∧
      c = f a b := by
  obtain ⟨i, hi, rfl⟩ := List.mem_iff_getElem.mp h
  have h1 : i < l.length := by simp only [List.length_zipWith] at hi; omega
  have h2 : i < m.length := by simp only [List.length_zipWith] at hi; omega
  exact ⟨i, l[i], m[i], List.getElem?_eq_getElem h1, List.getElem?_eq_getElem h2, by simp⟩

theorem interpolant_only {D : K → Prop} (hD : Convex' D) (g : SInterp.Grid K)
    (rows : List (List (SInterp.MV K) × Option (List K)))
    (hr : ∀ r ∈ rows, ∀ w, r.2 = some w → RowOk D g r.1 ∧ ∃ a, 0 ≤ a ∧ a ≤ 1 ∧ w = [1 - a, a])
    (out : List (Option K))
    (h : SInterp.computeInterpolant g.behavior (rows.map (·.1)) (rows.map (·.2)) = .ok out) (v : K)
    (hv : some v ∈ out) : D v := by
  have pair : ∀ (i : Nat) (r : List (SInterp.MV K)) (al : Option (List K)),
      (rows.map (·.1))[i]? = some r → (rows.map (·.2))[i]? = some al → ∀ w, al = some w →
      RowOk D g r ∧ ∃ a, 0 ≤ a ∧ a ≤ 1 ∧ w = [1 - a, a] := by
    intro i r al h1 h2 w hw
    rw [List.getElem?_map] at h1 h2
    rcases hx : rows[i]? with _ | x
    · rw [hx] at h1; cases h1
    rw [hx] at h1 h2
    cases h1; cases h2
    exact hr x (List.mem_of_getElem? hx) w hw
  unfold SInterp.computeInterpolant at h
  split at h
  · cases h
  split at h
  · simp only [Except.ok.injEq] at h
    subst h
    obtain ⟨i, r, al, h1, h2, h3⟩ := mem_zipWith_get hv
    rcases al with _ | w
    · cases h3
    obtain ⟨⟨p, q, rfl, kp, kq⟩, a, a0, a1, rfl⟩ := pair i r _ h1 h2 w rfl
    simp only [Option.map_some, Option.some.injEq] at h3
    subst h3
    exact dot_two hD (filled_ok kp) (filled_ok kq) a0 a1
  split at h
  · rename_i hmir
    split at h
    · cases h
    simp only [Except.ok.injEq] at h
    subst h
    obtain ⟨i, r, al, h1, h2, h3⟩ := mem_zipWith_get hv
    rcases al with _ | w
    · cases h3
    obtain ⟨⟨p, q, rfl, kp, kq⟩, a, a0, a1, rfl⟩ := pair i r _ h1 h2 w rfl
    simp only [Option.map_some, Option.some.injEq] at h3
    subst h3
    refine dot_two hD ?_ ?_ a0 a1
    · beta_reduce
      split
      · exact (kp.2 ‹_›).2 hmir _ kq.1
      · exact kp.1
    · beta_reduce
      split
      · exact (kq.2 ‹_›).2 hmir _ kp.1
      · exact kq.1
  split at h
  · simp only [Except.ok.injEq] at h
    subst h
    obtain ⟨i, ri, al, h1, h2, h3⟩ := mem_zipWith_get hv
    rcases al with _ | w
    · split at h3 <;> cases h3
    rw [List.getElem?_zipIdx] at h1
    rcases hx : (rows.map (·.1))[i]? with _ | r
    · rw [hx] at h1; cases h1
    rw [hx] at h1
    simp only [Option.map_some, Option.some.injEq] at h1
    subst h1
    obtain ⟨⟨p, q, rfl, kp, kq⟩, a, a0, a1, rfl⟩ := pair i r _ hx h2 w rfl
    split at h3
    · cases h3
    simp only [Option.map_some, Option.some.injEq] at h3
    subst h3
    exact dot_two hD kp.1 kq.1 a0 a1
  · cases h

theorem xyS_only {D : K → Prop} (hD : Convex' D) (sqrt : K → K) (g : SInterp.Grid K)
    (hg : g.centerMask = none ∨ MaskOk D g) (loc : Option SIndex.Loc)
    (A : List (List (SInterp.MV K))) (hA : SliceOk D g A) (ps : List (SPt K))
    (hp : ∀ p ∈ ps, InCellOrNot sqrt g p) : Only D (xyS sqrt g loc A ps) := by
  intro l hl c hc v hv
  unfold xyS at hl
  rcases hi : SInterp.interpolate sqrt g loc false A (ps.map fun p => (p.pos, p.cell)) with x | vs
  · rw [hi] at hl; cases hl
  rw [hi] at hl
  simp only [Except.ok.injEq] at hl
  subst hl
  obtain ⟨o, ho, rfl⟩ := List.mem_map.mp hc
  simp only at hv
  subst hv
  unfold SInterp.interpolate at hi
  split at hi
  · simp only [Except.ok.injEq] at hi
    subst hi
    obtain ⟨_, _, h⟩ := List.mem_map.mp ho
    cases h
  split at hi
  · cases hi
  · obtain ⟨q, hq, h⟩ := mapE_mem hi _ ho
    obtain ⟨p, hp', rfl⟩ := List.mem_map.mp hq
    simp only at h
    split at h
    · cases h
    · rename_i ij hc
      unfold SInterp.centerValue at h
      rcases hpad : SIndex.applyPadding (g.pads .center) ij with x | idx
      · rw [hpad] at h; cases h
      rw [hpad] at h
      simp only at h
      rcases hat : SIndex.atIndex A idx with x | w
      · rw [hat] at h; cases h
      rw [hat] at h
      simp only [Except.ok.injEq] at h
      split at h
      · cases h
      · cases h
        exact (flat_ok hA hat).1
  · simp only [Bool.false_eq_true, if_false] at hi
    obtain ⟨q, hq, h⟩ := mapE_mem hi _ ho
    obtain ⟨p, hp', rfl⟩ := List.mem_map.mp hq
    simp only at h
    split at h
    · cases h
    · rename_i ij hc
      exact nodeValue_only hD sqrt g hA p (hp p hp') ij hc v h
  · rename_i loc' _ _
    simp only [Bool.false_eq_true, if_false] at hi
    rcases hm : mapE (SInterp.edgeRow sqrt g loc' A) (ps.map fun p => (p.pos, p.cell)) with x | rows
    · rw [hm] at hi; cases hi
    rw [hm] at hi
    refine interpolant_only hD g rows ?_ vs hi v ho
    intro r hr w hw
    obtain ⟨q, hq, h⟩ := mapE_mem hm r hr
    obtain ⟨p, hp', rfl⟩ := List.mem_map.mp hq
    exact edgeRow_only sqrt g hg loc' hA p (hp p hp') r h w hw

end

end Verif
