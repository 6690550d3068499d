import Verif.Lemmas.Family
import Verif.Spec.Superpose
import Mathlib.Tactic.Ring
import Mathlib.Tactic.LinearCombination

/-!
# Weighted sums through the stages of an evaluation
-/

set_option autoImplicit false

namespace Verif.At
open Verif Verif.TimeM Verif.DepthM Verif.Spec

/-- The three runs: two fields and their weighted sum. -/
inductive Which where
  | f
  | g
  | sum

section
variable {K : Type} [Field K] (a b : K)

/-- Three numbers (or NaN), the third being the weighted sum. -/
def SumO (v : Which → Option K) : Prop := v .sum = wsum a b (v .f) (v .g)

/-- Three results: same mask, and the third is the weighted sum. -/
def SumC (c : Which → Cell K) : Prop :=
  SumO a b (fun i => (c i).value) ∧ (c .g).masked = (c .f).masked ∧ (c .sum).masked = (c .f).masked

variable {a b}

theorem SumO.fmul {v : Which → Option K} (h : SumO a b v) (x : Option K) :
    SumO a b (fun i => UGeom.fmul (v i) x) := by
  unfold SumO at *
  simp only [h]
  rcases v .f with _ | p <;> rcases v .g with _ | q <;> rcases x with _ | x <;>
    simp only [wsum, UGeom.fmul]
  congr 1; ring

theorem SumO.fadd {v w : Which → Option K} (h : SumO a b v) (h' : SumO a b w) :
    SumO a b (fun i => UGeom.fadd (v i) (w i)) := by
  unfold SumO at *
  simp only [h, h']
  rcases v .f with _ | p <;> rcases v .g with _ | q <;> rcases w .f with _ | r <;>
    rcases w .g with _ | s <;> simp only [wsum, UGeom.fadd]
  congr 1; ring

theorem SumO.cond {v : Which → Option K} (h : SumO a b v) (p : Prop) [Decidable p] (x : Option K) :
    SumO a b (fun i => if p then UGeom.fmul (v i) x else v i) := by
  split
  · exact h.fmul x
  · exact h

theorem sumC_mixes : Mixes (SumC a b) where
  blank := fun _ => ⟨rfl, rfl, rfl⟩
  mix := by
    rintro c d ⟨hc, hc1, hc2⟩ ⟨hd, hd1, hd2⟩ w
    refine ⟨?_, ?_, ?_⟩
    · unfold SumO at *
      simp only [mixCell, hc, hd]
      rcases (c .f).value with _ | p <;> rcases (c .g).value with _ | q <;>
        rcases (d .f).value with _ | r <;> rcases (d .g).value with _ | s <;> rcases w with _ | w <;>
        simp only [wsum]
      congr 1; ring
    · simp only [mixCell, hc1, hd1]
    · simp only [mixCell, hc2, hd2]

variable [LinearOrder K]

theorem interpFace_sum {s : Which → List (Option K)} (hs : Each (SumO a b) s) (ind : Int) :
    Together (SumO a b) (fun i => UGeom.interpFace (s i) ind) := by
  obtain ⟨L, hL, hl⟩ := hs
  rcases pyGet_each L hL ind with ⟨e, he⟩ | ⟨v, hv, he⟩
  · exact Or.inl ⟨e, fun i => by simp only [UGeom.interpFace, hl i, he i]⟩
  · exact Or.inr ⟨_, hv.cond (ind = -1) (some 0), fun i => by simp only [UGeom.interpFace, hl i, he i]⟩

theorem interpNode_sum (m : UGeom.Mesh K) {s : Which → List (Option K)} (hs : Each (SumO a b) s)
    (ind : Int) (pt : K × K) :
    Together (SumO a b) (fun i => UGeom.interpNode m (s i) ind pt) := by
  obtain ⟨L, hL, hl⟩ := hs
  unfold UGeom.interpNode
  split
  · exact Or.inl ⟨_, fun _ => rfl⟩
  · rename_i ia ib ic _
    rcases Np.pyGet m.nodes ia with _ | p
    · exact Or.inl ⟨_, fun _ => rfl⟩
    rcases Np.pyGet m.nodes ib with _ | q
    · exact Or.inl ⟨_, fun _ => rfl⟩
    rcases Np.pyGet m.nodes ic with _ | r
    · exact Or.inl ⟨_, fun _ => rfl⟩
    simp only [hl]
    rcases pyGet_each L hL ia with ⟨e, ha⟩ | ⟨u, hu, ha⟩
    · exact Or.inl ⟨.indexError, fun i => by simp only [ha i]⟩
    rcases pyGet_each L hL ib with ⟨e, hb⟩ | ⟨v, hv, hb⟩
    · exact Or.inl ⟨.indexError, fun i => by simp only [ha i, hb i]⟩
    rcases pyGet_each L hL ic with ⟨e, hc⟩ | ⟨w, hw, hc⟩
    · exact Or.inl ⟨.indexError, fun i => by simp only [ha i, hb i, hc i]⟩
    let al := UGeom.alphas ind p q r pt
    exact Or.inr ⟨_, (((hu.cond (ind = -1) (some 0)).fmul al.1).fadd
      ((hv.cond (ind = -1) (some 0)).fmul al.2.1)).fadd ((hw.cond (ind = -1) (some 0)).fmul al.2.2),
      fun i => by simp only [ha i, hb i, hc i]; rfl⟩
  · exact Or.inl ⟨_, fun _ => rfl⟩

theorem xyU_sum (m : UGeom.Mesh K) (loc : UGeom.Loc) {s : Which → List (Option K)}
    (hs : Each (SumO a b) s) (ps : List (UPt K)) :
    Together (Each (SumC a b)) (fun i => xyU m loc (s i) ps) := by
  have key : ∀ f : Which → UPt K → Except Err (Option K),
      (∀ q, Together (SumO a b) (fun i => f i q)) →
      Together (Each (SumO a b)) (fun i => mapE (f i) ps) := by
    intro f hf
    have := mapE_each (ι := Which) (R := SumO a b) f (ps.map fun p _ => p) (by
      intro q hq
      obtain ⟨p, _, rfl⟩ := List.mem_map.mp hq
      exact hf p)
    have e : ∀ i : Which, ((ps.map fun p (_ : Which) => p).map (· i)) = ps := by
      intro i; rw [List.map_map]; exact List.map_id _
    simpa only [e] using this
  have fin : ∀ f : Which → UPt K → Except Err (Option K),
      (∀ q, Together (SumO a b) (fun i => f i q)) →
      Together (Each (SumC a b)) (fun i => match mapE (f i) ps with
        | .error e => Except.error e
        | .ok vs => .ok (vs.map fun v => ({ value := v, masked := false } : Cell K))) := by
    intro f hf
    rcases key f hf with ⟨e, he⟩ | ⟨l, ⟨L, hL, hl⟩, he⟩
    · exact Or.inl ⟨e, fun i => by simp only [he i]⟩
    · refine Or.inr ⟨fun i => (l i).map fun v => ({ value := v, masked := false } : Cell K),
        ⟨L.map fun v i => ({ value := v i, masked := false } : Cell K), ?_, ?_⟩,
        fun i => by simp only [he i]⟩
      · intro c hc
        obtain ⟨v, hv, rfl⟩ := List.mem_map.mp hc
        exact ⟨hL v hv, rfl, rfl⟩
      · intro i
        simp only [hl i, List.map_map]
        rfl
  cases loc with
  | boundary => exact Or.inl ⟨.attributeError, fun _ => rfl⟩
  | face =>
    have := fin (fun i p => UGeom.interpFace (s i) p.face) (fun q => interpFace_sum hs _)
    convert this using 2 with i
    simp only [xyU, UGeom.interpolate, mapE_comp]
    rcases mapE (fun p : UPt K => UGeom.interpFace (s i) p.face) ps <;> rfl
  | node =>
    have := fin (fun i p => UGeom.interpNode m (s i) p.face p.pos) (fun q => interpNode_sum m hs _ _)
    convert this using 2 with i
    simp only [xyU, UGeom.interpolate, mapE_comp]
    rcases mapE (fun p : UPt K => UGeom.interpNode m (s i) p.face p.pos) ps <;> rfl

/-! ## Structured grids -/

/-- Three values of masked arrays: same mask, and the third is the weighted sum. -/
def SumM (a b : K) (v : Which → SInterp.MV K) : Prop :=
  (v .sum).val = a * (v .f).val + b * (v .g).val ∧ (v .g).masked = (v .f).masked ∧
    (v .sum).masked = (v .f).masked

theorem SumM.mask {v : Which → SInterp.MV K} (h : SumM a b v) (i : Which) :
    (v i).masked = (v .f).masked := by
  cases i
  · rfl
  · exact h.2.1
  · exact h.2.2

/-- Three numbers, the third being the weighted sum. -/
def SumK (a b : K) (v : Which → K) : Prop := v .sum = a * v .f + b * v .g

theorem dot_sum {s : Which → List K} (hs : Each (SumK a b) s) (w : List K) :
    SumK a b (fun i => SInterp.dot (s i) w) := by
  obtain ⟨L, hL, hl⟩ := hs
  simp only [hl]
  clear hl
  induction L generalizing w with
  | nil => simp [SumK, SInterp.dot]
  | cons v L ih => cases w with
    | nil => simp [SumK, SInterp.dot]
    | cons x w =>
      have h1 : SumK a b v := hL v List.mem_cons_self
      have h2 := ih w (fun c hc => hL c (List.mem_cons_of_mem _ hc))
      unfold SumK at *
      simp only [List.map_cons, SInterp.dot, List.zipWith_cons_cons, List.sum_cons] at *
      rw [h1, h2]; ring

theorem filledZero_sum {s : Which → List (SInterp.MV K)} (hs : Each (SumM a b) s) :
    Each (SumK a b) (fun i => SInterp.filledZero (s i)) := by
  obtain ⟨L, hL, hl⟩ := hs
  refine ⟨L.map fun v i => if (v i).masked then 0 else (v i).val, ?_, fun i => ?_⟩
  · intro c hc
    obtain ⟨v, hv, rfl⟩ := List.mem_map.mp hc
    have h := hL v hv
    unfold SumK
    simp only [h.mask .sum, h.mask .g]
    split
    · simp
    · exact h.1
  · simp only [SInterp.filledZero, hl i, List.map_map]; rfl

theorem vals_sum {s : Which → List (SInterp.MV K)} (hs : Each (SumM a b) s) :
    Each (SumK a b) (fun i => (s i).map (·.val)) := by
  obtain ⟨L, hL, hl⟩ := hs
  refine ⟨L.map fun v i => (v i).val, ?_, fun i => ?_⟩
  · intro c hc
    obtain ⟨v, hv, rfl⟩ := List.mem_map.mp hc
    exact (hL v hv).1
  · simp only [hl i, List.map_map]; rfl

theorem mirrored_sum {s : Which → List (SInterp.MV K)} (hs : Each (SumM a b) s) :
    Each (SumK a b) (fun i => SInterp.mirrored (s i)) := by
  obtain ⟨L, hL, hl⟩ := hs
  refine ⟨List.zipWith (fun v w i => if (v i).masked then -(w i).val else (v i).val) L L.reverse,
    ?_, fun i => ?_⟩
  · intro c hc
    obtain ⟨v, hv, w, hw, rfl⟩ := mem_zipWith hc
    have h := hL v hv
    have h' := hL w (List.mem_reverse.mp hw)
    unfold SumK
    simp only [h.mask .sum, h.mask .g]
    split
    · rw [h'.1]; ring
    · exact h.1
  · simp only [SInterp.mirrored, hl i, ← List.map_reverse]
    exact zipWith_each (ι := Which) (β := fun _ => SInterp.MV K) (γ := fun _ => SInterp.MV K)
      (δ := fun _ => K) (fun _ v w => if v.masked then -w.val else v.val) L L.reverse i

theorem anyMasked_same {s : Which → List (SInterp.MV K)} (hs : Each (SumM a b) s) (i : Which) :
    SInterp.anyMasked (s i) = SInterp.anyMasked (s .f) := by
  obtain ⟨L, hL, hl⟩ := hs
  simp only [hl]
  clear hl
  unfold SInterp.anyMasked
  induction L with
  | nil => rfl
  | cons v L ih =>
    simp only [List.map_cons, List.any_cons]
    rw [(hL v List.mem_cons_self).mask i, ih (fun c hc => hL c (List.mem_cons_of_mem _ hc))]

theorem allMasked_same {s : Which → List (SInterp.MV K)} (hs : Each (SumM a b) s) (i : Which) :
    (s i).all (·.masked) = (s .f).all (·.masked) := by
  obtain ⟨L, hL, hl⟩ := hs
  simp only [hl]
  clear hl
  induction L with
  | nil => rfl
  | cons v L ih =>
    simp only [List.map_cons, List.all_cons]
    rw [(hL v List.mem_cons_self).mask i, ih (fun c hc => hL c (List.mem_cons_of_mem _ hc))]

/-- Three results, all masked or none, the third being the weighted sum. -/
def SumS (a b : K) (v : Which → Option K) : Prop :=
  SumO a b v ∧ (v .g).isNone = (v .f).isNone

theorem sumS_none : SumS a b (fun _ => none) := ⟨rfl, rfl⟩

theorem SumK.some {v : Which → K} (h : SumK a b v) : SumS a b (fun i => some (v i)) := by
  refine ⟨?_, rfl⟩
  unfold SumO SumK at *
  simp only [wsum, h]

/-- An array of masked values, for the three runs. -/
def SumA (a b : K) (A : Which → List (List (SInterp.MV K))) : Prop :=
  Each (fun r : Which → List (SInterp.MV K) => Each (SumM a b) r) A

theorem SumA.flatten {A : Which → List (List (SInterp.MV K))} (h : SumA a b A) :
    Each (SumM a b) (fun i => (A i).flatten) := by
  obtain ⟨L, hL, hl⟩ := h
  simp only [hl]
  clear hl
  induction L with
  | nil => exact ⟨[], by simp, fun _ => rfl⟩
  | cons r L ih =>
    obtain ⟨M, hM, hm⟩ := hL r List.mem_cons_self
    obtain ⟨N, hN, hn⟩ := ih (fun c hc => hL c (List.mem_cons_of_mem _ hc))
    refine ⟨M ++ N, ?_, fun i => ?_⟩
    · intro c hc
      rcases List.mem_append.mp hc with hc | hc
      · exact hM c hc
      · exact hN c hc
    · simp only [List.map_cons, List.flatten_cons, hm i, hn i, List.map_append]

theorem SumA.shape {A : Which → List (List (SInterp.MV K))} (h : SumA a b A) (i : Which) :
    (A i).length = (A .f).length ∧ SIndex.ncols (A i) = SIndex.ncols (A .f) := by
  obtain ⟨L, hL, hl⟩ := h
  simp only [hl, List.length_map, SIndex.ncols, true_and]
  cases L with
  | nil => rfl
  | cons r L =>
    obtain ⟨M, _, hm⟩ := hL r List.mem_cons_self
    simp [hm]

theorem SumA.ravel {A : Which → List (List (SInterp.MV K))} (h : SumA a b A) (ij : Int × Int)
    (i : Which) : SIndex.ravel (A i) ij = SIndex.ravel (A .f) ij := by
  unfold SIndex.ravel
  rw [(h.shape i).1, (h.shape i).2]

theorem SumA.get {A : Which → List (List (SInterp.MV K))} (h : SumA a b A) (k : Int) :
    Together (SumM a b) (fun i => Np.pyGet (A i).flatten k) := by
  obtain ⟨L, hL, hl⟩ := h.flatten
  simp only [hl]
  exact pyGet_each L hL k

theorem SumA.atIndex {A : Which → List (List (SInterp.MV K))} (h : SumA a b A) (ij : Int × Int) :
    Together (SumM a b) (fun i => SIndex.atIndex (A i) ij) := by
  unfold SIndex.atIndex
  simp only [h.ravel]
  exact h.get _

theorem SumA.byIndex {A : Which → List (List (SInterp.MV K))} (h : SumA a b A) (ij : Int × Int) :
    Together (β := fun _ => SInterp.MV K × SInterp.MV K × SInterp.MV K × SInterp.MV K)
      (fun v => Each (SumM a b) (fun i => [(v i).1, (v i).2.1, (v i).2.2.1, (v i).2.2.2]))
      (fun i => SIndex.byIndex (A i) ij) := by
  have hr := h.ravel ij
  have hc := fun i => (h.shape i).2
  unfold SIndex.byIndex
  simp only [hr, hc]
  generalize SIndex.ravel (A .f) ij = r
  generalize (SIndex.ncols (A .f) : Int) = c
  rcases h.get r with ⟨e, h0⟩ | ⟨v0, s0, h0⟩
  · exact Or.inl ⟨.indexError, fun i => by simp only [h0 i]⟩
  rcases h.get (r + c) with ⟨e, h1⟩ | ⟨v1, s1, h1⟩
  · exact Or.inl ⟨.indexError, fun i => by simp only [h0 i, h1 i]⟩
  rcases h.get (r + c + 1) with ⟨e, h2⟩ | ⟨v2, s2, h2⟩
  · exact Or.inl ⟨.indexError, fun i => by simp only [h0 i, h1 i, h2 i]⟩
  rcases h.get (r + c + 1 - c) with ⟨e, h3⟩ | ⟨v3, s3, h3⟩
  · exact Or.inl ⟨.indexError, fun i => by simp only [h0 i, h1 i, h2 i, h3 i]⟩
  refine Or.inr ⟨fun i => (v0 i, v1 i, v2 i, v3 i), ⟨[v0, v1, v2, v3], ?_, fun _ => rfl⟩,
    fun i => by simp only [h0 i, h1 i, h2 i, h3 i]⟩
  intro c hc
  simp only [List.mem_cons, List.not_mem_nil, or_false] at hc
  rcases hc with rfl | rfl | rfl | rfl <;> assumption

theorem maskedDot_sum {s : Which → List (SInterp.MV K)} (hs : Each (SumM a b) s) (w : List K) :
    SumS a b (fun i => SInterp.maskedDot (s i) w) := by
  have h1 := fun i => allMasked_same hs i
  have h2 := dot_sum (filledZero_sum hs) w
  unfold SInterp.maskedDot
  simp only [h1]
  split
  · exact sumS_none
  · exact h2.some

theorem nodeValue_sum (sqrt : K → K) (g : SInterp.Grid K)
    {A : Which → List (List (SInterp.MV K))} (h : SumA a b A) (p : K × K) (ij : Int × Int) :
    Together (SumS a b) (fun i => SInterp.nodeValue sqrt g (A i) p ij) := by
  unfold SInterp.nodeValue
  split
  · exact Or.inl ⟨_, fun _ => rfl⟩
  split
  · exact Or.inl ⟨_, fun _ => rfl⟩
  rename_i o _ _ idx _
  rcases o with _ | lm
  · exact Or.inl ⟨_, fun _ => rfl⟩
  rcases h.byIndex idx with ⟨e, he⟩ | ⟨v, hv, he⟩
  · exact Or.inl ⟨e, fun i => by simp only [he i]⟩
  · exact Or.inr ⟨_, maskedDot_sum hv (SInterp.nodeWeights lm), fun i => by simp only [he i]⟩

theorem centerValue_sum (g : SInterp.Grid K)
    {A : Which → List (List (SInterp.MV K))} (h : SumA a b A) (ij : Int × Int) :
    Together (SumS a b) (fun i => SInterp.centerValue g (A i) ij) := by
  unfold SInterp.centerValue
  split
  · exact Or.inl ⟨_, fun _ => rfl⟩
  rename_i idx _
  rcases h.atIndex idx with ⟨e, he⟩ | ⟨v, hv, he⟩
  · exact Or.inl ⟨e, fun i => by simp only [he i]⟩
  · refine Or.inr ⟨fun i => if (v i).masked then none else some (v i).val, ?_, fun i => by simp only [he i]⟩
    have := hv.mask
    simp only [this]
    split
    · exact sumS_none
    · exact (show SumK a b (fun i => (v i).val) from hv.1).some

theorem edgeRow_sum (sqrt : K → K) (g : SInterp.Grid K) (loc : SIndex.Loc)
    {A : Which → List (List (SInterp.MV K))} (h : SumA a b A) (q : (K × K) × Option (Int × Int)) :
    Together (β := fun _ => List (SInterp.MV K) × Option (List K))
      (fun r => Each (SumM a b) (fun i => (r i).1) ∧ ∃ al, ∀ i, (r i).2 = al)
      (fun i => SInterp.edgeRow sqrt g loc (A i) q) := by
  unfold SInterp.edgeRow
  split
  · refine Or.inr ⟨fun _ => ([⟨0, true⟩, ⟨0, true⟩], none), ⟨⟨[fun _ => ⟨0, true⟩, fun _ => ⟨0, true⟩],
      ?_, fun _ => rfl⟩, none, fun _ => rfl⟩, fun _ => rfl⟩
    intro c hc
    simp only [List.mem_cons, List.not_mem_nil, or_false, or_self] at hc
    subst hc
    exact ⟨by simp, rfl, rfl⟩
  split
  · exact Or.inl ⟨_, fun _ => rfl⟩
  rename_i ij _ _ o _
  have hval : Together (Each (SumM a b)) (fun i => SInterp.edgeValues g loc (A i) ij) := by
    unfold SInterp.edgeValues
    rcases SIndex.applyPadding (g.pads .center) ij with e | ctr
    · exact Or.inl ⟨e, fun _ => rfl⟩
    rcases SIndex.applyPadding (g.pads loc) ij with e | idx
    · exact Or.inl ⟨e, fun _ => rfl⟩
    rcases h.atIndex idx with ⟨e, h1⟩ | ⟨u1, s1, h1⟩
    · exact Or.inl ⟨.indexError, fun i => by simp only [h1 i]⟩
    rcases hm0 : SInterp.maskAt g ctr with e | m0
    · exact Or.inl ⟨.indexError, fun i => by simp only [h1 i, hm0]⟩
    rcases hmb : SInterp.maskAt g (SInterp.minus ctr (SInterp.edgeStep loc)) with e | mb
    · exact Or.inl ⟨.indexError, fun i => by simp only [h1 i, hm0, hmb]⟩
    rcases h.atIndex (SInterp.plus idx (SInterp.edgeStep loc)) with ⟨e, h2⟩ | ⟨u2, s2, h2⟩
    · exact Or.inl ⟨.indexError, fun i => by simp only [h1 i, h2 i, hm0, hmb]⟩
    rcases hma : SInterp.maskAt g (SInterp.plus ctr (SInterp.edgeStep loc)) with e | ma
    · exact Or.inl ⟨.indexError, fun i => by simp only [h1 i, h2 i, hm0, hmb, hma]⟩
    refine Or.inr ⟨fun i => [⟨(u1 i).val, (u1 i).masked || (m0 ^^ mb)⟩,
      ⟨(u2 i).val, (u2 i).masked || (m0 ^^ ma)⟩],
      ⟨[fun i => ⟨(u1 i).val, (u1 i).masked || (m0 ^^ mb)⟩,
        fun i => ⟨(u2 i).val, (u2 i).masked || (m0 ^^ ma)⟩], ?_, fun _ => rfl⟩,
      fun i => by simp only [h1 i, h2 i, hm0, hmb, hma]⟩
    intro c hc
    simp only [List.mem_cons, List.not_mem_nil, or_false] at hc
    rcases hc with rfl | rfl
    · exact ⟨s1.1, by simp only [s1.2.1], by simp only [s1.2.2]⟩
    · exact ⟨s2.1, by simp only [s2.2.1], by simp only [s2.2.2]⟩
  rcases hval with ⟨e, he⟩ | ⟨row, hr, he⟩
  · exact Or.inl ⟨e, fun i => by simp only [he i]⟩
  · exact Or.inr ⟨fun i => (row i, o.map (SInterp.edgeWeights loc)), ⟨hr, _, fun _ => rfl⟩,
      fun i => by simp only [he i]⟩

theorem SumK.optMap {v : List K → Which → K} (h : ∀ w, SumK a b (v w)) (al : Option (List K)) :
    SumS a b (fun i => al.map (fun w => v w i)) := by
  rcases al with _ | w
  · exact sumS_none
  · exact (h w).some

theorem computeInterpolant_sum (behavior : String)
    (L : List (Which → List (SInterp.MV K) × Option (List K)))
    (hL : ∀ r ∈ L, Each (SumM a b) (fun i => (r i).1) ∧ ∃ al, ∀ i, (r i).2 = al) :
    Together (Each (SumS a b)) (fun i => SInterp.computeInterpolant behavior
      ((L.map (· i)).map (·.1)) ((L.map (· i)).map (·.2))) := by
  have zip : ∀ (F : List (SInterp.MV K) → Option (List K) → Option K) (i : Which),
      List.zipWith F ((L.map (· i)).map (·.1)) ((L.map (· i)).map (·.2)) =
        (L.map fun r i => F (r i).1 (r i).2).map (· i) := by
    intro F i
    simp only [List.map_map, List.zipWith_map, List.zipWith_self]
    rfl
  have lens : ∀ i : Which, ((L.map (· i)).map (·.1)).length = L.length := by intro i; simp
  have rowlen : ∀ r ∈ L, ∀ i : Which, (r i).1.length = (r .f).1.length := by
    intro r hr i
    obtain ⟨⟨M, _, hm⟩, _⟩ := hL r hr
    simp only [hm, List.length_map]
  have len4 : ∀ i : Which, ((L.map (· i)).map (·.1)).any (fun r => r.length == 4) =
      ((L.map (· .f)).map (·.1)).any (fun r => r.length == 4) := by
    intro i
    clear zip lens
    induction L with
    | nil => rfl
    | cons r L ih =>
      simp only [List.map_cons, List.any_cons]
      rw [rowlen r List.mem_cons_self i, ih (fun r hr => hL r (List.mem_cons_of_mem _ hr))
        (fun r hr => rowlen r (List.mem_cons_of_mem _ hr))]
  have anys : ∀ i : Which, ((L.map (· i)).map (·.1)).map SInterp.anyMasked =
      ((L.map (· .f)).map (·.1)).map SInterp.anyMasked := by
    intro i
    simp only [List.map_map]
    refine List.map_congr_left fun r hr => ?_
    exact anyMasked_same (hL r hr).1 i
  have each : ∀ F : List (SInterp.MV K) → List K → K,
      (∀ s : Which → List (SInterp.MV K), Each (SumM a b) s → ∀ w, SumK a b (fun i => F (s i) w)) →
      Each (SumS a b) (fun i => List.zipWith (fun row (al : Option (List K)) => al.map (F row))
        ((L.map (· i)).map (·.1)) ((L.map (· i)).map (·.2))) := by
    intro F hF
    refine ⟨L.map fun r i => (r i).2.map (F (r i).1), ?_, fun i =>
      zip (fun row (al : Option (List K)) => al.map (F row)) i⟩
    intro c hc
    obtain ⟨r, hr, rfl⟩ := List.mem_map.mp hc
    obtain ⟨hs, al, hal⟩ := hL r hr
    simp only [hal]
    exact SumK.optMap (fun w => hF _ hs w) al
  unfold SInterp.computeInterpolant
  simp only [lens]
  split
  · exact Or.inl ⟨_, fun _ => rfl⟩
  split
  · exact Or.inr ⟨_, each (fun row w => SInterp.dot (SInterp.filledZero row) w)
      (fun s hs w => dot_sum (filledZero_sum hs) w), fun _ => rfl⟩
  split
  · simp only [len4]
    split
    · exact Or.inl ⟨_, fun _ => rfl⟩
    · exact Or.inr ⟨_, each (fun row w => SInterp.dot (SInterp.mirrored row) w)
        (fun s hs w => dot_sum (mirrored_sum hs) w), fun _ => rfl⟩
  split
  · simp only [anys]
    generalize ((L.map (· .f)).map (·.1)).map SInterp.anyMasked = an
    refine Or.inr ⟨_, ⟨L.zipIdx.map fun rn i => if SInterp.tiledMask an (rn.1 i).1.length rn.2 then none
      else (rn.1 i).2.map (SInterp.dot ((rn.1 i).1.map (·.val))), ?_, fun i => ?_⟩, fun _ => rfl⟩
    · intro c hc
      obtain ⟨⟨r, n⟩, hr, rfl⟩ := List.mem_map.mp hc
      have hr' : r ∈ L := List.fst_mem_of_mem_zipIdx hr
      obtain ⟨hs, al, hal⟩ := hL r hr'
      simp only [rowlen r hr', hal]
      split
      · exact sumS_none
      · exact SumK.optMap (v := fun w i => SInterp.dot ((r i).1.map (·.val)) w)
          (fun w => dot_sum (vals_sum hs) w) al
    · have e1 : ((L.map (· i)).map (·.1)).zipIdx = L.zipIdx.map fun rn => ((rn.1 i).1, rn.2) := by
        rw [List.map_map, List.zipIdx_map]; rfl
      have e2 : (L.map (· i)).map (·.2) = L.zipIdx.map fun rn => (rn.1 i).2 := by
        have : L = L.zipIdx.map Prod.fst := by simp
        conv_lhs => rw [this]
        simp only [List.map_map]; rfl
      show List.zipWith _ ((L.map (· i)).map (·.1)).zipIdx ((L.map (· i)).map (·.2)) = _
      rw [e1, e2, List.zipWith_map, List.zipWith_self, List.map_map]
      rfl
  · exact Or.inl ⟨_, fun _ => rfl⟩

theorem xyS_sum (sqrt : K → K) (g : SInterp.Grid K) (loc : Option SIndex.Loc)
    {A : Which → List (List (SInterp.MV K))} (h : SumA a b A) (ps : List (SPt K)) :
    Together (Each (SumC a b)) (fun i => xyS sqrt g loc (A i) ps) := by
  have key : ∀ {β : Type} (R : (Which → β) → Prop)
      (f : Which → (K × K) × Option (Int × Int) → Except Err β) (qs),
      (∀ q, Together R (fun i => f i q)) → Together (Each R) (fun i => mapE (f i) qs) := by
    intro β R f qs hf
    have := mapE_each (ι := Which) (R := R) f (qs.map fun p _ => p) (by
      intro q hq
      obtain ⟨p, _, rfl⟩ := List.mem_map.mp hq
      exact hf p)
    have e : ∀ i : Which, ((qs.map fun p (_ : Which) => p).map (· i)) = qs := by
      intro i; rw [List.map_map]; exact List.map_id _
    simpa only [e] using this
  have hint : Together (Each (SumS a b)) (fun i => SInterp.interpolate sqrt g loc false (A i)
      (ps.map fun p => (p.pos, p.cell))) := by
    unfold SInterp.interpolate
    split
    · refine Or.inr ⟨_, ⟨(ps.map fun p => (p.pos, p.cell)).map fun _ _ => none, ?_, fun i => ?_⟩,
        fun _ => rfl⟩
      · intro c hc
        obtain ⟨_, _, rfl⟩ := List.mem_map.mp hc
        exact sumS_none
      · simp
    rcases loc with _ | loc
    · exact Or.inl ⟨_, fun _ => rfl⟩
    have hedge : ∀ loc, Together (Each (SumS a b)) (fun i =>
        match mapE (SInterp.edgeRow sqrt g loc (A i)) (ps.map fun p => (p.pos, p.cell)) with
        | .error e => Except.error e
        | .ok rows => SInterp.computeInterpolant g.behavior (rows.map (·.1)) (rows.map (·.2))) := by
      intro loc
      rcases key _ (fun i => SInterp.edgeRow sqrt g loc (A i)) (ps.map fun p => (p.pos, p.cell))
        (fun q => edgeRow_sum sqrt g loc h q) with ⟨e, he⟩ | ⟨l, ⟨L, hL, hl⟩, he⟩
      · exact Or.inl ⟨e, fun i => by simp only [he i]⟩
      · have := computeInterpolant_sum g.behavior L hL
        simpa only [he, hl] using this
    cases loc with
    | center =>
      refine key _ _ _ fun q => ?_
      rcases q with ⟨p, _ | ij⟩
      · exact Or.inr ⟨fun _ => none, sumS_none, fun _ => rfl⟩
      · exact centerValue_sum g h ij
    | node =>
      refine key _ (fun i q => match q.2 with
        | none => Except.ok none
        | some ij => SInterp.nodeValue sqrt g (A i) q.1 ij) _ fun q => ?_
      rcases q with ⟨p, _ | ij⟩
      · exact Or.inr ⟨fun _ => none, sumS_none, fun _ => rfl⟩
      · exact nodeValue_sum sqrt g h p ij
    | edge1 => exact hedge .edge1
    | edge2 => exact hedge .edge2
  unfold xyS
  rcases hint with ⟨e, he⟩ | ⟨l, ⟨L, hL, hl⟩, he⟩
  · exact Or.inl ⟨e, fun i => by simp only [he i]⟩
  · refine Or.inr ⟨fun i => (l i).map fun v => ({ value := v, masked := v.isNone } : Cell K),
      ⟨L.map fun v i => ({ value := v i, masked := (v i).isNone } : Cell K), ?_, ?_⟩,
      fun i => by simp only [he i]⟩
    · intro c hc
      obtain ⟨v, hv, rfl⟩ := List.mem_map.mp hc
      obtain ⟨h1, h2⟩ := hL v hv
      refine ⟨h1, h2, ?_⟩
      unfold SumO at h1
      show (v .sum).isNone = (v .f).isNone
      rw [h1]
      rcases hf : v .f with _ | x <;> rcases hg : v .g with _ | y <;> rw [hf, hg] at h2 <;>
        simp_all [wsum]
    · intro i
      simp only [hl i, List.map_map]
      rfl

end

end Verif.At
