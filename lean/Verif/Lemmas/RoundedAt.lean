import Verif.Model.RoundedAt
import Verif.Lemmas.Family

/-!
# Several evaluations with different rounding run side by side

As `Lemmas/Family.lean`, for a family of runs that may differ in how they round. The relation between
the results may grow from one stage to the next, and the weights are only related, not equal.
-/

set_option autoImplicit false

namespace Verif.RoundedAt
open Verif.TimeM Verif.DepthM Verif.At

section
variable {ι : Type} {K : Type} [Field K]

/-- One stage of mixing takes results related by `R` to results related by `R'`, for weights related
by `W`. -/
structure Step (rnd : ι → K → K) (W : (ι → Option K) → Prop) (R R' : (ι → Cell K) → Prop) : Prop where
  sub : ∀ c, R c → R' c
  blank : ∀ b, R' (fun _ => { value := none, masked := b })
  mix : ∀ c d, R c → R d → ∀ a, W a → R' (fun i => mixCellR (rnd i) (c i) (d i) (a i))

theorem Each.mono' {β : ι → Type} {R R' : ((i : ι) → β i) → Prop} {l : (i : ι) → List (β i)}
    (h : Each R l) (hr : ∀ b, R b → R' b) : Each R' l := by
  obtain ⟨L, hL, hl⟩ := h
  exact ⟨L, fun c hc => hr c (hL c hc), hl⟩

theorem timeStageR_together [DecidableEq K] {rnd : ι → K → K} {W : (ι → Option K) → Prop}
    {R R' : (ι → Cell K) → Prop} (hR : Step rnd W R R') (times : List Int)
    (val : ι → Int → Except Err (List (Cell K))) (h : ∀ k, Together (Each R) (fun i => val i k))
    (t : Int) (e : Bool)
    (hW : Together (fun a => W (fun i => some (a i))) (fun i => interpAlpha (rnd i) times t e)) :
    Together (Each R') (fun i => timeStageR (rnd i) times (val i) t e) := by
  have hsub : ∀ k, Together (Each R') (fun i => val i k) :=
    fun k => (h k).mono (fun b hb => Each.mono' hb hR.sub)
  unfold timeStageR
  split
  · exact Or.inl ⟨_, fun _ => rfl⟩
  split
  · exact hsub 0
  split
  · exact Or.inl ⟨_, fun _ => rfl⟩
  split
  · exact hsub (-1)
  split
  · exact Or.inl ⟨_, fun _ => rfl⟩
  rename_i ind _
  rcases h ((ind : Int) - 1) with ⟨x, hx⟩ | ⟨l, ⟨L, hL, hl⟩, hx⟩
  · exact Or.inl ⟨x, fun i => by simp only [hx i]⟩
  rcases h (ind : Int) with ⟨y, hy⟩ | ⟨m, ⟨M, hM, hm⟩, hy⟩
  · exact Or.inl ⟨y, fun i => by simp only [hx i, hy i]⟩
  rcases hW with ⟨z, hz⟩ | ⟨a, ha, hz⟩
  · exact Or.inl ⟨z, fun i => by simp only [hx i, hy i, hz i]⟩
  · refine Or.inr ⟨fun i => List.zipWith (fun x y => mixCellR (rnd i) x y (some (a i))) (l i) (m i),
      ⟨List.zipWith (fun c d i => mixCellR (rnd i) (c i) (d i) (some (a i))) L M, ?_, ?_⟩,
      fun i => by simp only [hx i, hy i, hz i]⟩
    · intro c hc
      obtain ⟨a', ha', b', hb, rfl⟩ := mem_zipWith hc
      exact hR.mix _ _ (hL _ ha') (hM _ hb) _ ha
    · intro i
      simp only [hl i, hm i]
      exact zipWith_each (β := fun _ => Cell K) (γ := fun _ => Cell K) (δ := fun _ => Cell K)
        (fun i x y => mixCellR (rnd i) x y (some (a i))) L M i

/-- What all runs know of a point's depth: index, mask, and the weight of each run. -/
structure Ent (ι K : Type) where
  idx : Int
  masked : Bool
  alpha : ι → Option K

/-- The entry of one run. -/
def Ent.of (i : ι) (x : Ent ι K) : Entry K := { idx := x.idx, alpha := x.alpha i, masked := x.masked }

def groupE (E : List (Ent ι K)) (k : Int) : List Nat :=
  (List.range E.length).filter fun n => match E[n]? with
    | some x => !x.masked && decide (x.idx = k)
    | none => false

theorem groupOf_of (E : List (Ent ι K)) (k : Int) (i : ι) :
    groupOf (E.map (Ent.of i)) k = groupE E k := by
  unfold groupOf groupE
  simp only [List.length_map, List.getElem?_map]
  congr 1
  funext n
  rcases E[n]? with _ | x <;> rfl

theorem uniqIdx_of (E : List (Ent ι K)) (i : ι) :
    uniqIdx (E.map (Ent.of i)) = Np.unique ((E.filter fun x => !x.masked).map Ent.idx) := by
  unfold uniqIdx
  rw [List.filter_map, List.map_map]
  rfl

theorem mixedR_each (rnd : ι → K → K) (E : List (Ent ι K)) (M0 M1 : List (ι → Cell K)) (g : List Nat)
    (i : ι) :
    List.zipWith (fun (vv : Cell K × Cell K) n =>
        mixCellR (rnd i) vv.1 vv.2 (alphaAt (E.map (Ent.of i)) n))
        ((M0.map (· i)).zip (M1.map (· i))) g =
      (List.zipWith (fun (vv : (ι → Cell K) × (ι → Cell K)) n => fun i =>
        mixCellR (rnd i) (vv.1 i) (vv.2 i) (alphaAt (E.map (Ent.of i)) n)) (M0.zip M1) g).map
          (· i) := by
  induction g generalizing M0 M1 with
  | nil => simp
  | cons n g ih => cases M0 with
    | nil => rfl
    | cons c M0 => cases M1 with
      | nil => rfl
      | cons d M1 =>
        simp only [List.map_cons, List.zip_cons_cons, List.zipWith_cons_cons, ih]

/-- Weights of the points that are not masked are related. -/
def Weights (W : (ι → Option K) → Prop) (E : List (Ent ι K)) : Prop :=
  ∀ x ∈ E, x.masked = false → W x.alpha

theorem weights_group {W : (ι → Option K) → Prop} {E : List (Ent ι K)} (h : Weights W E) {k : Int}
    {n : Nat} (hn : n ∈ groupE E k) : W (fun i => alphaAt (E.map (Ent.of i)) n) := by
  unfold groupE at hn
  rw [List.mem_filter] at hn
  obtain ⟨_, hn⟩ := hn
  unfold alphaAt
  simp only [List.getElem?_map]
  rcases hx : E[n]? with _ | x
  · simp [hx] at hn
  · rw [hx] at hn
    simp only [Bool.and_eq_true, Bool.not_eq_true'] at hn
    exact h x (List.mem_of_getElem? hx) hn.1

theorem levelCellsR_together {P : ι → Type} {rnd : ι → K → K} {W : (ι → Option K) → Prop}
    {R R' : (ι → Cell K) → Prop} (hR : Step rnd W R R') {Q : ((i : ι) → P i) → Prop} (m : Nat)
    (E : List (Ent ι K)) (hE : Weights W E)
    (val : (i : ι) → Int → List (P i) → Except Err (List (Cell K))) (hv : NextStage R Q val)
    (pts : List ((i : ι) → P i)) (hp : ∀ p ∈ pts, Q p) (ks : List Int) (lay : Option (List Nat))
    (L : List (ι → Cell K)) (hL : ∀ c ∈ L, R' c) :
    Together (β := fun _ => Option (List Nat) × List (Cell K)) (fun s => Each R' (fun i => (s i).2))
      (fun i => levelCellsR (rnd i) m (E.map (Ent.of i)) (val i) (pts.map (· i)) ks
        (lay, L.map (· i))) := by
  induction ks generalizing lay L with
  | nil => exact Or.inr ⟨fun i => (lay, L.map (· i)), ⟨L, hL, fun _ => rfl⟩, fun _ => rfl⟩
  | cons k ks ih =>
    simp only [levelCellsR, groupOf_of]
    split
    · rcases lay with _ | l
      · exact Or.inl ⟨_, fun _ => rfl⟩
      · have hk := hv k (pick pts l) (fun p hp' => hp p (mem_pick' hp'))
        simp only [← pick_each] at hk
        rcases hk with ⟨e, he⟩ | ⟨w, ⟨M, hM, hl⟩, he⟩
        · exact Or.inl ⟨e, fun i => by simp only [he i]⟩
        · obtain ⟨L', hL', e⟩ := putCells_each l M L (fun c hc => hR.sub c (hM c hc)) hL
          have := ih (some l) L' hL'
          simp only [← e] at this
          simpa only [he, hl] using this
    · have hq : ∀ p ∈ pick pts (groupE E k), Q p := fun p hp' => hp p (mem_pick' hp')
      have h1 := hv (k + 1) _ hq
      have h0 := hv k _ hq
      simp only [← pick_each] at h1 h0
      rcases h1 with ⟨e, h1⟩ | ⟨w1, ⟨M1, hM1, hl1⟩, h1⟩
      · exact Or.inl ⟨e, fun i => by simp only [h1 i]⟩
      rcases h0 with ⟨e, h0⟩ | ⟨w0, ⟨M0, hM0, hl0⟩, h0⟩
      · exact Or.inl ⟨e, fun i => by simp only [h1 i, h0 i]⟩
      have := putCells_each (groupE E k) (List.zipWith (fun (vv : (ι → Cell K) × (ι → Cell K)) n =>
        fun i => mixCellR (rnd i) (vv.1 i) (vv.2 i) (alphaAt (E.map (Ent.of i)) n)) (M0.zip M1)
          (groupE E k)) L (by
          intro c hc
          obtain ⟨vv, hvv, n, hn, rfl⟩ := mem_zipWith hc
          have := List.of_mem_zip hvv
          exact hR.mix _ _ (hM0 _ this.1) (hM1 _ this.2) _ (weights_group hE hn)) hL
      obtain ⟨L', hL', e⟩ := this
      have := ih (some (groupE E k)) L' hL'
      simp only [← e] at this
      simpa only [h1, h0, hl1, hl0, mixedR_each] using this

theorem layerCellsR_together {P : ι → Type} {R : (ι → Cell K) → Prop}
    {Q : ((i : ι) → P i) → Prop} (E : List (Ent ι K))
    (val : (i : ι) → Int → List (P i) → Except Err (List (Cell K))) (hv : NextStage R Q val)
    (pts : List ((i : ι) → P i)) (hp : ∀ p ∈ pts, Q p) (ks : List Int) (L : List (ι → Cell K))
    (hL : ∀ c ∈ L, R c) :
    Together (Each R) (fun i => layerCells (E.map (Ent.of i)) (val i) (pts.map (· i)) ks
      (L.map (· i))) := by
  induction ks generalizing L with
  | nil => exact Or.inr ⟨_, ⟨L, hL, fun _ => rfl⟩, fun _ => rfl⟩
  | cons k ks ih =>
    have hk := hv (if k = -1 then 0 else k) (pick pts (groupE E (if k = -1 then 0 else k)))
      (fun p hp' => hp p (mem_pick' hp'))
    simp only [← pick_each] at hk
    rcases hk with ⟨e, he⟩ | ⟨l, ⟨M, hM, hl⟩, he⟩
    · exact Or.inl ⟨e, fun i => by simp only [layerCells, groupOf_of, he i]⟩
    · obtain ⟨L', hL', e⟩ := putCells_each (groupE E (if k = -1 then 0 else k)) M L hM hL
      have := ih L' hL'
      simp only [← e] at this
      simpa only [layerCells, groupOf_of, he, hl] using this

/-- The depth objects of all runs raise the same, or give the same indices and masks and related
weights. -/
def Depths {P : ι → Type} (W : (ι → Option K) → Prop) (ds : (i : ι) → DepthSys K (P i))
    (pts : List ((i : ι) → P i)) : Prop :=
  (∃ e, ∀ i, (ds i).alphas (pts.map (· i)) = .error e) ∨
  ∃ E : List (Ent ι K), Weights W E ∧ ∀ i, (ds i).alphas (pts.map (· i)) = .ok (E.map (Ent.of i))

theorem depthStageR_together {P : ι → Type} {rnd : ι → K → K} {W : (ι → Option K) → Prop}
    {R R' : (ι → Cell K) → Prop} (hR : Step rnd W R R') {Q : ((i : ι) → P i) → Prop}
    (ds : (i : ι) → DepthSys K (P i)) (nl : Nat) (hnl : ∀ i, (ds i).numLayers = nl) (m : Nat)
    (val : (i : ι) → Int → List (P i) → Except Err (List (Cell K))) (hv : NextStage R Q val)
    (pts : List ((i : ι) → P i)) (hp : ∀ p ∈ pts, Q p) (hd : Depths W ds pts) :
    Together (Each R') (fun i => depthStageR (rnd i) (ds i) m (val i) (pts.map (· i))) := by
  rcases hd with ⟨e, he⟩ | ⟨E, hE, hA⟩
  · exact Or.inl ⟨e, fun i => by simp only [depthStageR, he i]⟩
  simp only [depthStageR, hA, hnl, uniqIdx_of, List.map_map, List.all_map]
  have hinit : ∀ i : ι, (E.map ((fun e : Entry K => ({ value := none, masked := e.masked } : Cell K)) ∘
      Ent.of i)) =
      (E.map fun e => (fun _ : ι => ({ value := none, masked := e.masked } : Cell K))).map (· i) := by
    intro i; rw [List.map_map]; rfl
  have hall : ∀ i : ι, E.all (Entry.masked ∘ Ent.of i) = E.all Ent.masked := fun _ => rfl
  simp only [hall, hinit]
  have hb : ∀ c ∈ E.map fun e => (fun _ : ι => ({ value := none, masked := e.masked } : Cell K)),
      R' c := by
    intro c hc
    obtain ⟨e, _, rfl⟩ := List.mem_map.mp hc
    exact hR.blank _
  have hv' : NextStage R' Q val := fun k ps hps =>
    (hv k ps hps).mono (fun b hb => Each.mono' hb hR.sub)
  split
  · exact Or.inr ⟨_, ⟨_, hb, fun _ => rfl⟩, fun _ => rfl⟩
  split
  · exact layerCellsR_together E val hv' pts hp _ _ hb
  · have := levelCellsR_together hR m E hE val hv pts hp
      (Np.unique ((E.filter fun x => !x.masked).map Ent.idx)) none _ hb
    rcases this with ⟨e, he⟩ | ⟨b, hb, he⟩
    · exact Or.inl ⟨e, fun i => by simp only [he i]⟩
    · exact Or.inr ⟨_, hb, fun i => by simp only [he i]⟩

/-- All runs of the evaluation together: the horizontal values related by `R0`, after the depths by
`R1`, after the times by `R2`. -/
theorem evalR_together [DecidableEq K] {P σ : ι → Type} {rnd : ι → K → K}
    {WD WT : (ι → Option K) → Prop} {R0 R1 R2 : (ι → Cell K) → Prop} (h01 : Step rnd WD R0 R1)
    (h12 : Step rnd WT R1 R2) {Q : ((i : ι) → P i) → Prop} {S : ((i : ι) → σ i) → Prop}
    (xy : (i : ι) → σ i → List (P i) → Except Err (List (Cell K)))
    (hxy : ∀ s, S s → ∀ ps : List ((i : ι) → P i), (∀ p ∈ ps, Q p) →
      Together (Each R0) (fun i => xy i (s i) (ps.map (· i))))
    (times : List Int) (ds : (i : ι) → DepthSys K (P i)) (nl : Nat)
    (hnl : ∀ i, (ds i).numLayers = nl) (d : Data ((i : ι) → σ i)) (hd : d.All S)
    (pts : List ((i : ι) → P i)) (hp : ∀ p ∈ pts, Q p) (hds : Depths WD ds pts) (t : Int) (e : Bool)
    (hW : Together (fun a => WT (fun i => some (a i))) (fun i => interpAlpha (rnd i) times t e)) :
    Together (Each R2) (fun i =>
      evalR (rnd i) (xy i) times (ds i) (d.map (· i)) (pts.map (· i)) t e) := by
  have hws : ∀ (s : (i : ι) → Except Err (σ i)), Together S s → ∀ ps : List ((i : ι) → P i),
      (∀ p ∈ ps, Q p) → Together (Each R0) (fun i => withSlice (xy i) (s i) (ps.map (· i))) := by
    intro s hs ps hps
    rcases hs with ⟨e, he⟩ | ⟨b, hb, he⟩
    · exact Or.inl ⟨e, fun i => by simp only [withSlice, he i]⟩
    · have := hxy b hb ps hps
      simpa only [withSlice, he] using this
  have up : ∀ b, Each R0 b → Each R1 b := fun b hb => Each.mono' hb h01.sub
  have up' : ∀ b : ι → List (Cell K), Each R1 b → Each R2 b := fun b hb => Each.mono' hb h12.sub
  cases d with
  | flat s => exact ((hxy s hd pts hp).mono up).mono up'
  | depth d =>
    simp only [evalR, Data.map, List.length_map]
    exact (depthStageR_together h01 ds nl hnl d.length
      (fun i k ps => withSlice (xy i) (Np.pyGet (d.map (· i)) k) ps)
      (fun k ps hps => hws _ (pyGet_each d hd k) ps hps) pts hp hds).mono up'
  | time d =>
    simp only [evalR, Data.map]
    exact timeStageR_together h12 times (fun i k => withSlice (xy i) (Np.pyGet (d.map (· i)) k) _)
      (fun k => (hws _ (pyGet_each d hd k) pts hp).mono up) t e hW
  | timeDepth d =>
    simp only [evalR, Data.map]
    have hlen : ∀ i : ι, ((d.map (List.map (· i))).headD []).length = (d.headD []).length := by
      intro i; cases d <;> simp
    simp only [hlen]
    refine timeStageR_together h12 times (fun i j => depthStageR (rnd i) (ds i) (d.headD []).length
      (fun k ps => withSlice (xy i) (slice2 (d.map (List.map (· i))) j k) ps) (pts.map (· i)))
      (fun j => ?_) t e hW
    refine depthStageR_together h01 ds nl hnl _
      (fun i k ps => withSlice (xy i) (slice2 (d.map (List.map (· i))) j k) ps)
      (fun k ps hps => hws _ ?_ ps hps) pts hp hds
    have hrow := pyGet_each (ι := ι) (β := fun i => List (σ i)) (R := Each S)
      (d.map fun r i => r.map (· i)) (by
        intro b hb
        obtain ⟨r, hr, rfl⟩ := List.mem_map.mp hb
        exact ⟨r, hd r hr, fun _ => rfl⟩) j
    have hm : ∀ i, (d.map fun r i => r.map (· i)).map (· i) = d.map (List.map (· i)) := by
      intro i; rw [List.map_map]; rfl
    simp only [hm] at hrow
    rcases hrow with ⟨e, he⟩ | ⟨b, ⟨r, hr, hb⟩, he⟩
    · exact Or.inl ⟨e, fun i => by simp only [slice2, he i]⟩
    · have := pyGet_each r hr k
      simpa only [slice2, he, hb] using this

end

/-! ## With exact operations these are the stages of `Model/At.lean` -/

section
variable {K P σ : Type} [Field K]

theorem mixCellR_exact : mixCellR (fun x : K => x) = mixCell := rfl

theorem timeStageR_exact [DecidableEq K] (times : List Int)
    (val : Int → Except Err (List (Cell K))) (t : Int) (e : Bool) :
    timeStageR (fun x => x) times val t e = timeStage times val t e := rfl

theorem levelCellsR_exact (m : Nat) (ents : List (Entry K))
    (val : Int → List P → Except Err (List (Cell K))) (pts : List P) (ks : List Int)
    (st : Option (List Nat) × List (Cell K)) :
    levelCellsR (fun x => x) m ents val pts ks st = levelCells m ents val pts ks st := by
  induction ks generalizing st with
  | nil => rfl
  | cons k ks ih =>
    obtain ⟨lay, out⟩ := st
    simp only [levelCellsR, levelCells, ih]
    rfl

theorem depthStageR_exact (ds : DepthSys K P) (m : Nat)
    (val : Int → List P → Except Err (List (Cell K))) (pts : List P) :
    depthStageR (fun x => x) ds m val pts = depthStage ds m val pts := by
  simp only [depthStageR, depthStage, levelCellsR_exact]
  rfl

theorem evalR_exact [DecidableEq K] (xy : σ → List P → Except Err (List (Cell K))) (times : List Int)
    (ds : DepthSys K P) (d : Data σ) (pts : List P) (t : Int) (e : Bool) :
    evalR (fun x => x) xy times ds d pts t e = eval xy times ds d pts t e := by
  cases d <;> simp only [evalR, eval, timeStageR_exact, depthStageR_exact]

theorem levelSysR_exact [LinearOrder K] (z : P → K) (levels : List K) (sbc bbc : BC) :
    levelSysR (fun x => x) z levels sbc bbc = levelSys z levels sbc bbc := rfl

theorem xyUR_exact [LinearOrder K] (m : UGeom.Mesh K) (loc : UGeom.Loc) (data : List (Option K))
    (ps : List (UPt K)) : xyUR (fun x => x) m loc data ps = xyU m loc data ps := by
  cases loc
  · simp only [xyUR, xyU, UGeom.interpolate, mapE_comp]
    have : (fun p : UPt K => interpNodeR (fun x => x) m data p.face p.pos) =
        fun p : UPt K => UGeom.interpNode m data p.face p.pos := rfl
    rw [this]
    cases mapE (fun p : UPt K => UGeom.interpNode m data p.face p.pos) ps <;> rfl
  · simp only [xyUR, xyU, UGeom.interpolate, mapE_comp]
    have : (fun p : UPt K => interpFaceR (fun x => x) data p.face) =
        fun p : UPt K => UGeom.interpFace data p.face := rfl
    rw [this]
    cases mapE (fun p : UPt K => UGeom.interpFace data p.face) ps <;> rfl
  · rfl

end

end Verif.RoundedAt
