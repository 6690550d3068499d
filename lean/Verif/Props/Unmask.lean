import Verif.Model.Unmask
import Verif.Model.Constant
import Verif.Lemmas.AtCells
import Verif.Props.At

/-!
# C185: the `unmask` option
-/

set_option autoImplicit false

namespace Verif
open Verif.At Verif.DepthM Verif.Spec Verif.TimeM Verif.Unmask

section C185
variable {K P σ : Type} [Field K] [LinearOrder K]

/-- An entry that is a number. -/
def IsNumber (c : Cell K) : Prop := ∃ v, c = ⟨some v, false⟩

/-- Entries without a value are masked. -/
def Sound (c : Cell K) : Prop := c.value = none → c.masked = true

omit [LinearOrder K] in
private theorem number_fill {c : Cell K} (h : Sound c) (fill : K) : IsNumber (fillCell fill c) := by
  unfold fillCell
  split_ifs with hm
  · exact ⟨fill, rfl⟩
  · obtain ⟨v, m⟩ := c
    cases v with
    | none => exact absurd (h rfl) hm
    | some v => exact ⟨v, by simp only [Bool.not_eq_true] at hm; rw [hm]⟩

/-- Properties of entries by position that mixing keeps and masked entries have. -/
private structure Kept (R : Nat → Cell K → Prop) : Prop where
  mix : ∀ j c d w, R j c → R j d → R j (mixCell c d (some w))
  masked : ∀ j, R j ⟨none, true⟩

/-- What is kept here: missing values are masked, and so is every point in `off`. -/
private def SoundAt (off : Nat → Prop) (j : Nat) (c : Cell K) : Prop :=
  Sound c ∧ (off j → c.masked = true)

omit [LinearOrder K] in
private theorem kept_sound (off : Nat → Prop) : Kept (SoundAt (K := K) off) where
  mix := by
    rintro j c d w ⟨hc, oc⟩ ⟨hd, _⟩
    refine ⟨fun h => ?_, fun h => ?_⟩
    · unfold mixCell at h ⊢
      simp only [Bool.or_eq_true]
      cases h1 : c.value with
      | none => exact .inl (hc h1)
      | some x =>
        cases h2 : d.value with
        | none => exact .inr (hd h2)
        | some y => simp [h1, h2] at h
    · unfold mixCell
      simp [oc h]
  masked := fun _ => ⟨fun _ => rfl, fun _ => rfl⟩

/-- A list of results, one for each position of `l`. -/
private def Fits (R : Nat → Cell K → Prop) (l : List Nat) (cs : List (Cell K)) : Prop :=
  cs.length = l.length ∧ ∀ (i j : Nat) (c : Cell K), l[i]? = some j → cs[i]? = some c → R j c

private theorem timeStage_all {R : Nat → Cell K → Prop} (hR : Kept R)
    {times : List Int} {val : Int → Except Err (List (Cell K))} {l : List Nat}
    (hv : ∀ i cs, val i = .ok cs → Fits R l cs) {t : Int} {e : Bool}
    {out : List (Cell K)} (h : timeStage times val t e = .ok out) : Fits R l out := by
  unfold timeStage at h
  split at h
  · cases h
  · split_ifs at h
    · exact hv _ _ h
    · split at h
      · cases h
      · split_ifs at h
        · exact hv _ _ h
        · split at h
          · cases h
          · split at h
            · rename_i v0 v1 a e0 e1 _
              cases h
              obtain ⟨l0, s0⟩ := hv _ _ e0
              obtain ⟨l1, s1⟩ := hv _ _ e1
              refine ⟨by simp [l0, l1], ?_⟩
              intro i j c hj hc
              rw [List.getElem?_zipWith] at hc
              split at hc
              · rename_i x y hx hy
                cases hc
                exact hR.mix _ _ _ _ (s0 _ _ _ hj hx) (s1 _ _ _ hj hy)
              · cases hc
            all_goals cases h

omit [LinearOrder K] in
private theorem put_all {R : Nat → Cell K → Prop} {l : List Nat} {cs : List (Cell K)} (hf : Fits R l cs)
    (out : List (Cell K)) (j : Nat) (c : Cell K)
    (hj : j ∈ l ∨ ∀ c', out[j]? = some c' → R j c') (h : (putCells out (l.zip cs))[j]? = some c) :
    R j c := by
  induction l generalizing cs out with
  | nil =>
    rcases hj with hj | hj
    · cases hj
    · exact hj c (by simpa [putCells] using h)
  | cons i t ih =>
    obtain ⟨hl, hs⟩ := hf
    obtain _ | ⟨x, xs⟩ := cs
    · simp at hl
    · simp only [List.zip_cons_cons, putCells] at h
      refine ih ⟨by simpa using hl, fun i' j' c' hj' hc' => hs (i' + 1) j' c' (by simpa using hj')
        (by simpa using hc')⟩ _ ?_ h
      by_cases hjt : j ∈ t
      · exact .inl hjt
      · right
        intro c' hc'
        by_cases hij : i = j
        · subst hij
          by_cases hlt : i < out.length
          · rw [List.getElem?_set_self hlt] at hc'
            cases hc'
            exact hs 0 i x rfl rfl
          · rw [List.getElem?_eq_none (by simp; omega)] at hc'
            cases hc'
        · rw [List.getElem?_set_ne hij] at hc'
          rcases hj with hj | hj
          · rcases List.mem_cons.mp hj with rfl | hj
            · exact absurd rfl hij
            · exact absurd hj hjt
          · exact hj c' hc'

private theorem levelCells_all {R : Nat → Cell K → Prop} (hR : Kept R) {m : Nat} {ents : List (Entry K)}
    {val : Int → List P → Except Err (List (Cell K))} {pts : List P} (hep : ents.length = pts.length)
    (hv : ∀ (k : Int) (l : List Nat) cs, (∀ i ∈ l, i < pts.length) → val k (pick pts l) = .ok cs →
      Fits R l cs)
    (hα : ∀ e ∈ ents, e.masked = false → ∃ a, e.alpha = some a) (ks : List Int)
    (hk : ∀ k ∈ ks, k ≠ (m : Int) - 1)
    (lay : Option (List Nat)) (out : List (Cell K)) (st : Option (List Nat) × List (Cell K))
    (h : levelCells m ents val pts ks (lay, out) = .ok st) :
    st.2.length = out.length ∧ ∀ (j : Nat) (c : Cell K), st.2[j]? = some c →
      ((∃ k ∈ ks, At ents j k) ∨ ∀ c', out[j]? = some c' → R j c') → R j c := by
  induction ks generalizing lay out with
  | nil =>
    simp only [levelCells, Except.ok.injEq] at h
    subst h
    refine ⟨rfl, ?_⟩
    rintro j c hc (⟨k, hk, _⟩ | h)
    · cases hk
    · exact h c hc
  | cons k ks ih =>
    unfold levelCells at h
    rw [if_neg (hk k (by simp))] at h
    simp only at h
    have hgl : ∀ i ∈ groupOf ents k, i < pts.length := fun i hi => by rw [← hep]; exact groupOf_lt hi
    split at h
    · rename_i v1 v0 e1 e0
      obtain ⟨l1, s1⟩ := hv _ _ _ hgl e1
      obtain ⟨l0, s0⟩ := hv _ _ _ hgl e0
      obtain ⟨h1, h2⟩ := ih (fun k' hk' => hk k' (by simp [hk'])) _ _ h
      rw [putCells_length] at h1
      refine ⟨h1, ?_⟩
      intro j c hc hor
      refine h2 j c hc ?_
      by_cases hks : ∃ k' ∈ ks, At ents j k'
      · exact .inl hks
      · right
        intro c' hc'
        refine put_all (l := groupOf ents k) ⟨by simp [l0, l1], ?_⟩ out j c' ?_ hc'
        · intro i j' d hj' hd
          rw [List.getElem?_zipWith] at hd
          split at hd
          · rename_i x y hx hy
            cases hd
            rw [hj'] at hy
            cases hy
            obtain ⟨e, he, hm, _⟩ := mem_groupOf.mp (List.mem_of_getElem? hj')
            obtain ⟨a, ha⟩ := hα e (List.mem_of_getElem? he) hm
            have : alphaAt ents j' = some a := by unfold alphaAt; rw [he]; exact ha
            rw [this]
            obtain ⟨x0, x1⟩ := x
            rw [List.getElem?_zip_eq_some] at hx
            exact hR.mix _ _ _ a (s0 _ _ _ hj' hx.1) (s1 _ _ _ hj' hx.2)
          · cases hd
        · rcases hor with ⟨k', hk', hat⟩ | hor
          · rcases List.mem_cons.mp hk' with rfl | hk'
            · exact .inl (mem_groupOf.mpr hat)
            · exact absurd ⟨k', hk', hat⟩ hks
          · exact .inr hor
    · cases h
    · cases h

private theorem depthStage_all {R : Nat → Cell K → Prop} (hR : Kept R) {ds : DepthSys K P} {m : Nat}
    {val : Int → List P → Except Err (List (Cell K))} {pts : List P}
    (hv : ∀ (k : Int) (l : List Nat) cs, (∀ i ∈ l, i < pts.length) → val k (pick pts l) = .ok cs →
      Fits R l cs)
    {ents : List (Entry K)} (ha : ds.alphas pts = .ok ents) (hep : ents.length = pts.length)
    (hm : m ≠ ds.numLayers)
    (hα : ∀ e ∈ ents, e.masked = false → e.idx ≠ (m : Int) - 1 ∧ ∃ a, e.alpha = some a)
    {out : List (Cell K)} (h : depthStage ds m val pts = .ok out) :
    Fits R (List.range pts.length) out := by
  have key : ∀ out : List (Cell K), out.length = pts.length →
      (∀ (j : Nat) (c : Cell K), out[j]? = some c → R j c) → Fits R (List.range pts.length) out := by
    intro out hl h
    refine ⟨by simp [hl], ?_⟩
    intro i j c hj hc
    obtain ⟨_, rfl⟩ := List.getElem?_eq_some_iff.mp hj
    simp only [List.getElem_range]
    exact h i c hc
  have hinit : ∀ (j : Nat) (c : Cell K) (e : Entry K), ents[j]? = some e → e.masked = true →
      (ents.map fun e => ({ value := none, masked := e.masked } : Cell K))[j]? = some c → R j c := by
    intro j c e he hu hc
    rw [List.getElem?_map, he] at hc
    simp only [Option.map_some, Option.some.injEq, hu] at hc
    subst hc
    exact hR.masked j
  unfold depthStage at h
  rw [ha] at h
  simp only at h
  split_ifs at h with hall
  · cases h
    refine key _ (by simp [hep]) ?_
    intro j c hc
    have hjl : j < ents.length := by simpa using (List.getElem?_eq_some_iff.mp hc).1
    exact hinit j c _ (List.getElem?_eq_getElem hjl)
      (List.all_eq_true.mp hall _ (List.getElem_mem hjl)) hc
  · split at h
    · rename_i st hst
      cases h
      obtain ⟨h1, h2⟩ := levelCells_all hR hep hv (fun e he hu => (hα e he hu).2) (uniqIdx ents)
        (by
          intro k hk
          obtain ⟨j, e, he, hu, rfl⟩ := mem_uniqIdx.mp hk
          exact (hα e (List.mem_of_getElem? he) hu).1) none _ st hst
      refine key _ (by rw [h1]; simp [hep]) ?_
      intro j c hj
      refine h2 j c hj ?_
      have hjl : j < ents.length := by
        have := (List.getElem?_eq_some_iff.mp hj).1
        rw [h1] at this
        simpa using this
      by_cases hu : ents[j].masked = true
      · exact .inr fun c' hc' => hinit j c' _ (List.getElem?_eq_getElem hjl) hu hc'
      · left
        have hat : At ents j ents[j].idx := ⟨_, List.getElem?_eq_getElem hjl, by simpa using hu, rfl⟩
        exact ⟨_, mem_uniqIdx.mpr ⟨j, hat⟩, hat⟩
    · cases h

/-- C185 in full, for data at the nodes of triangles: a point off the grid gets the fill value. -/
def C185_statement : Prop :=
  ∀ (m : UGeom.Mesh ℚ) (times : List Int) (ds : DepthSys ℚ (UPt ℚ)) (data : List (List (Option ℚ)))
    (fill : ℚ) (pts : List (UPt ℚ)) (t : Int) (e : Bool) (out : List (Cell ℚ)),
    atUnmask (xyU m .node) times ds (.time data) fill pts t e true = .ok out →
    ∀ (n : Nat) (p : UPt ℚ), pts[n]? = some p → p.face = -1 → out[n]? = some ⟨some fill, false⟩

/-- **C185 is false** on unstructured grids: a point off the grid gets 0, whatever the fill value. -/
theorem C185_refuted : ¬ C185_statement := by
  intro h
  have := h oneTriangle [0, 10] ⟨0, fun _ => .ok []⟩
    [[some 1, some 2, some 3], [some 1, some 2, some 3]] (-999) [⟨-1, (9, 9), 0⟩] 5 false
    [⟨some 0, false⟩] (by decide +kernel) 0 _ rfl rfl
  exact absurd this (by decide +kernel)

/-- C185. Masked entries become the fill value, the others stay as they are, and nothing is masked; on
any grid, with any depth object. -/
theorem C185_entries (xy : σ → List P → Except Err (List (Cell K))) (times : List Int) (ds : DepthSys K P)
    (d : Data σ) (fill : K) (pts : List P) (t : Int) (e : Bool) (out : List (Cell K))
    (h : atUnmask xy times ds d fill pts t e false = .ok out) :
    ∃ out', atUnmask xy times ds d fill pts t e true = .ok out' ∧ out'.length = out.length ∧
      ∀ (n : Nat) (c c' : Cell K), out[n]? = some c → out'[n]? = some c' →
        c'.masked = false ∧ (c.masked = true → c'.value = some fill) ∧ (c.masked = false → c' = c) := by
  unfold atUnmask at h ⊢
  cases he : eval xy times ds d pts t e with
  | error x => rw [he] at h; cases h
  | ok cs =>
    rw [he] at h
    cases h
    refine ⟨_, rfl, by simp, ?_⟩
    intro n c c' hc hc'
    simp only [if_true, List.getElem?_map] at hc'
    simp only [Bool.false_eq_true, if_false] at hc
    rw [hc] at hc'
    simp only [Option.map_some, Option.some.injEq] at hc'
    subst hc'
    unfold fillCell
    cases hm : c.masked <;> simp [hm]

/-- Failures are the same. -/
theorem C185_errors (xy : σ → List P → Except Err (List (Cell K))) (times : List Int) (ds : DepthSys K P)
    (d : Data σ) (fill : K) (pts : List P) (t : Int) (e : Bool) (x : Err) :
    atUnmask xy times ds d fill pts t e true = .error x ↔
      atUnmask xy times ds d fill pts t e false = .error x := by
  unfold atUnmask
  cases eval xy times ds d pts t e <;> simp

private theorem mapE_len {α β : Type} {f : α → Except Err β} {l : List α} {r : List β}
    (h : mapE f l = .ok r) : r.length = l.length ∧
      ∀ (i : Nat) (a : α) (b : β), l[i]? = some a → r[i]? = some b → f a = .ok b := by
  induction l generalizing r with
  | nil =>
    cases h
    exact ⟨rfl, by simp⟩
  | cons a t ih =>
    unfold mapE at h
    split at h
    · cases h
    · rename_i x hx
      split at h
      · cases h
      · rename_i hr
        cases h
        obtain ⟨h1, h2⟩ := ih hr
        refine ⟨by simp [h1], ?_⟩
        intro i a' b ha hb
        cases i with
        | zero => cases ha; cases hb; exact hx
        | succ i => exact h2 i a' b (by simpa using ha) (by simpa using hb)

/-- Structured grids give one entry per point, masked where there is no value and at every point off the
grid. -/
private theorem structured_fits (sqrt : K → K) (g : SInterp.Grid K) (loc : Option SIndex.Loc)
    (s : List (List (SInterp.MV K))) (pts : List (SPt K)) (l : List Nat) (hl : ∀ i ∈ l, i < pts.length)
    (cs : List (Cell K)) (h : xyS sqrt g loc s (pick pts l) = .ok cs) :
    Fits (SoundAt fun j => ∃ p, pts[j]? = some p ∧ p.cell = none) l cs := by
  have hpl : (pick pts l).length = l.length ∧ ∀ (i j : Nat), l[i]? = some j → (pick pts l)[i]? = pts[j]? := by
    clear h
    unfold pick
    induction l with
    | nil => exact ⟨rfl, by simp⟩
    | cons a t ih =>
      obtain ⟨h1, h2⟩ := ih fun i hi => hl i (by simp [hi])
      have ha := List.getElem?_eq_getElem (hl a (by simp))
      rw [List.filterMap_cons, ha]
      refine ⟨by simp [h1], ?_⟩
      intro i j hj
      cases i with
      | zero => cases hj; exact ha.symm
      | succ i => exact h2 i j (by simpa using hj)
  generalize pick pts l = ps at h hpl
  unfold xyS at h
  split at h
  · cases h
  · rename_i vs hvs
    cases h
    have hoff : vs.length = ps.length ∧ ∀ (i : Nat) (p : SPt K), ps[i]? = some p → p.cell = none →
        vs[i]? = some none := by
      unfold SInterp.interpolate at hvs
      by_cases hall : ((ps.map fun p => (p.pos, p.cell)).all fun q => q.2.isNone) = true
      · rw [if_pos hall] at hvs
        cases hvs
        refine ⟨by simp, ?_⟩
        intro i p hp _
        simp [hp]
      · rw [if_neg hall] at hvs
        have hm : ∀ (f : (K × K) × Option (Int × Int) → Except Err (Option K)),
            (∀ q, q.2 = none → f q = .ok none) → mapE f (ps.map fun p => (p.pos, p.cell)) = .ok vs →
            vs.length = ps.length ∧ ∀ (i : Nat) (p : SPt K), ps[i]? = some p → p.cell = none →
              vs[i]? = some none := by
          intro f hf h
          obtain ⟨h1, h2⟩ := mapE_len h
          rw [List.length_map] at h1
          refine ⟨h1, ?_⟩
          intro i p hp hc
          have hi : i < vs.length := by rw [h1]; exact (List.getElem?_eq_some_iff.mp hp).1
          have := h2 i (p.pos, p.cell) vs[i] (by simp [hp]) (List.getElem?_eq_getElem hi)
          rw [hf _ hc] at this
          rw [List.getElem?_eq_getElem hi, ← Except.ok.inj this]
        have he : ∀ loc', (match mapE (SInterp.edgeRow sqrt g loc' s) (ps.map fun p => (p.pos, p.cell)) with
            | .error e => .error e
            | .ok rows => SInterp.computeInterpolant g.behavior (rows.map (·.1)) (rows.map (·.2))) =
              Except.ok vs →
            vs.length = ps.length ∧ ∀ (i : Nat) (p : SPt K), ps[i]? = some p → p.cell = none →
              vs[i]? = some none := by
          intro loc' h
          split at h
          · cases h
          · rename_i rows hrows
            obtain ⟨h1, h2⟩ := mapE_len hrows
            rw [List.length_map] at h1
            have hr : ∀ (i : Nat) (p : SPt K), ps[i]? = some p → p.cell = none →
                ∃ r, rows[i]? = some (r, none) := by
              intro i p hp hc
              have hi : i < rows.length := by rw [h1]; exact (List.getElem?_eq_some_iff.mp hp).1
              have := h2 i (p.pos, p.cell) rows[i] (by simp [hp]) (List.getElem?_eq_getElem hi)
              unfold SInterp.edgeRow at this
              simp only [hc] at this
              exact ⟨_, by rw [List.getElem?_eq_getElem hi, ← Except.ok.inj this]⟩
            unfold SInterp.computeInterpolant at h
            split_ifs at h <;> cases h <;> refine ⟨by simp [h1], ?_⟩ <;> intro i p hp hc <;>
              obtain ⟨r, hr⟩ := hr i p hp hc <;> simp [List.getElem?_zipWith, hr]
        split at hvs
        · cases hvs
        · exact hm _ (by intro q hq; simp [hq]) hvs
        · rw [if_neg (by decide)] at hvs
          exact hm _ (by intro q hq; simp [hq]) hvs
        · rw [if_neg (by decide)] at hvs
          exact he _ hvs
    refine ⟨by simp [hoff.1, hpl.1], ?_⟩
    intro i j c hj hc
    rw [List.getElem?_map] at hc
    refine ⟨?_, ?_⟩
    · cases hv : vs[i]? with
      | none => rw [hv] at hc; cases hc
      | some v =>
        rw [hv] at hc
        cases hc
        intro hn
        simp only at hn
        simp [hn]
    · rintro ⟨p, hp, hcell⟩
      rw [hoff.2 i p (by rw [hpl.2 i j hj, hp]) hcell] at hc
      cases hc
      rfl

private theorem pick_range (pts : List P) : pick pts (List.range pts.length) = pts := by
  unfold pick
  induction pts using List.reverseRecOn with
  | nil => rfl
  | append_singleton l a ih =>
    rw [List.length_append, List.length_singleton, List.range_succ, List.filterMap_append]
    congr 1
    · refine Eq.trans (List.filterMap_congr ?_) ih
      intro i hi
      exact List.getElem?_append_left (List.mem_range.mp hi)
    · simp

private theorem fill_all {off : Nat → Prop} {n : Nat} {cs : List (Cell K)}
    (hf : Fits (SoundAt off) (List.range n) cs) (fill : K) :
    (cs.map (fillCell fill)).length = n ∧ (∀ c ∈ cs.map (fillCell fill), IsNumber c) ∧
      ∀ j, j < n → off j → (cs.map (fillCell fill))[j]? = some ⟨some fill, false⟩ := by
  obtain ⟨hl, hs⟩ := hf
  rw [List.length_range] at hl
  have hs' : ∀ (j : Nat) (c : Cell K), cs[j]? = some c → SoundAt off j c := by
    intro j c hc
    refine hs j j c ?_ hc
    have := (List.getElem?_eq_some_iff.mp hc).1
    exact List.getElem?_range (by omega)
  refine ⟨by simp [hl], ?_, ?_⟩
  · intro c hc
    obtain ⟨d, hd, rfl⟩ := List.mem_map.mp hc
    obtain ⟨j, hj⟩ := List.getElem?_of_mem hd
    exact number_fill (hs' j d hj).1 fill
  · intro j hj ho
    have hjl : j < cs.length := by omega
    have := (hs' j _ (List.getElem?_eq_getElem hjl)).2 ho
    rw [List.getElem?_map, List.getElem?_eq_getElem hjl]
    simp [fillCell, this]

/-- C185 on structured grids, data without depth: a number at every point, and the fill value off the
grid. Missing: unstructured grids, see `C185_refuted`. -/
theorem C185_structured_partial (sqrt : K → K) (g : SInterp.Grid K) (loc : Option SIndex.Loc)
    (times : List Int) (ds : DepthSys K (SPt K)) (data : List (List (List (SInterp.MV K)))) (fill : K)
    (pts : List (SPt K)) (t : Int) (e : Bool) (out : List (Cell K))
    (h : atUnmask (xyS sqrt g loc) times ds (.time data) fill pts t e true = .ok out) :
    out.length = pts.length ∧ (∀ c ∈ out, IsNumber c) ∧
      ∀ (n : Nat) (p : SPt K), pts[n]? = some p → p.cell = none → out[n]? = some ⟨some fill, false⟩ := by
  unfold atUnmask at h
  split at h
  · cases h
  · rename_i cs hcs
    cases h
    unfold eval at hcs
    have hf := timeStage_all (kept_sound fun j => ∃ p, pts[j]? = some p ∧ p.cell = none)
      (l := List.range pts.length) (by
      intro i cs h
      unfold withSlice at h
      split at h
      · cases h
      · rename_i s _
        refine structured_fits sqrt g loc s pts _ (by simp) cs ?_
        rw [pick_range]
        exact h) hcs
    simp only [if_true]
    obtain ⟨h1, h2, h3⟩ := fill_all hf fill
    exact ⟨h1, h2, fun n p hp hc => h3 n (List.getElem?_eq_some_iff.mp hp).1 ⟨p, hp, hc⟩⟩

/-- C185 on structured grids, data over time and levels: a number at every point, in the water or not,
and the fill value off the grid, if no point that is not masked has the level listed last or a weight that
is not a number. Missing: those depths (see C18), data on layers, and unstructured grids. -/
theorem C185_structured_levels_partial (sqrt : K → K) (g : SInterp.Grid K) (loc : Option SIndex.Loc)
    (times : List Int) (ds : DepthSys K (SPt K)) (m : Nat) (hm : m ≠ ds.numLayers)
    (data : List (List (List (List (SInterp.MV K))))) (hd : (data.headD []).length = m) (fill : K)
    (pts : List (SPt K)) (ents : List (Entry K)) (ha : ds.alphas pts = .ok ents)
    (hep : ents.length = pts.length)
    (hα : ∀ e ∈ ents, e.masked = false → e.idx ≠ (m : Int) - 1 ∧ ∃ a, e.alpha = some a)
    (t : Int) (e : Bool) (out : List (Cell K))
    (h : atUnmask (xyS sqrt g loc) times ds (.timeDepth data) fill pts t e true = .ok out) :
    out.length = pts.length ∧ (∀ c ∈ out, IsNumber c) ∧
      ∀ (n : Nat) (p : SPt K), pts[n]? = some p → p.cell = none → out[n]? = some ⟨some fill, false⟩ := by
  unfold atUnmask at h
  split at h
  · cases h
  · rename_i cs hcs
    cases h
    unfold eval at hcs
    simp only [hd] at hcs
    have hf := timeStage_all (kept_sound fun j => ∃ p, pts[j]? = some p ∧ p.cell = none)
      (l := List.range pts.length) (by
      intro i cs h
      refine depthStage_all (kept_sound _) ?_ ha hep hm hα h
      intro k l cs hl h
      unfold withSlice at h
      split at h
      · cases h
      · rename_i s _
        exact structured_fits sqrt g loc s pts l hl cs h) hcs
    simp only [if_true]
    obtain ⟨h1, h2, h3⟩ := fill_all hf fill
    exact ⟨h1, h2, fun n p hp hc => h3 n (List.getElem?_eq_some_iff.mp hp).1 ⟨p, hp, hc⟩⟩

/-- C185 on unstructured grids, data without depth: nothing is ever masked, so `unmask` changes
nothing. -/
theorem C185_unstructured (m : UGeom.Mesh K) (loc : UGeom.Loc) (times : List Int) (ds : DepthSys K (UPt K))
    (data : List (List (Option K))) (fill : K) (pts : List (UPt K)) (t : Int) (e : Bool) :
    atUnmask (xyU m loc) times ds (.time data) fill pts t e true =
      atUnmask (xyU m loc) times ds (.time data) fill pts t e false := by
  unfold atUnmask
  cases he : eval (xyU m loc) times ds (.time data) pts t e with
  | error x => rfl
  | ok cs =>
    simp only [if_true, Bool.false_eq_true, if_false]
    congr 1
    have hx : ∀ i cs, withSlice (xyU m loc) (Np.pyGet data i) pts = .ok cs →
        ∀ c ∈ cs, c.masked = false := by
      intro i cs h
      unfold withSlice xyU at h
      split at h
      · cases h
      · split at h
        · cases h
        · cases h
        · cases h
          intro c hc
          obtain ⟨v, _, rfl⟩ := List.mem_map.mp hc
          rfl
    have hall : ∀ c ∈ cs, c.masked = false := by
      unfold eval at he
      simp only at he
      unfold timeStage at he
      split at he
      · cases he
      · split_ifs at he
        · exact hx _ _ he
        · split at he
          · cases he
          · split_ifs at he
            · exact hx _ _ he
            · split at he
              · cases he
              · split at he
                · rename_i v0 v1 a e0 e1 _
                  cases he
                  intro c hc
                  obtain ⟨i, hi, rfl⟩ := List.getElem_of_mem hc
                  rw [List.getElem_zipWith]
                  simp only [mixCell, hx _ _ e0 _ (List.getElem_mem _), hx _ _ e1 _ (List.getElem_mem _),
                    Bool.or_self]
                all_goals cases he
    conv_rhs => rw [← List.map_id cs]
    refine List.map_congr_left fun c hc => ?_
    unfold fillCell
    simp [hall c hc]

/-- A masked time and a point off the grid: with `unmask` both get the fill value. -/
example : atUnmask (xyS (K := ℚ) (fun x => x) (Constant.grid) (some .center)) [0, 10] ⟨0, fun _ => .ok []⟩
      (.time [[[⟨1, false⟩, ⟨2, false⟩], [⟨3, true⟩, ⟨4, false⟩]], [[⟨1, false⟩, ⟨2, false⟩], [⟨3, false⟩, ⟨4, false⟩]]])
      (-999) [⟨some (0, 0), (-1, -1), 0⟩, ⟨some (1, 0), (-1, -1), 0⟩, ⟨none, (0, 900), 0⟩] 5 false true =
    .ok [⟨some 1, false⟩, ⟨some (-999), false⟩, ⟨some (-999), false⟩] := by decide +kernel

/-- Data on three levels: a point between two of them, one below the last, and one off the grid. -/
example : (levelSys (P := SPt ℚ) SPt.z [0, 10, 20] .mask .mask).alphas [⟨some (0, 0), (-1, -1), 5⟩,
      ⟨some (0, 0), (-1, -1), 25⟩, ⟨none, (0, 900), 5⟩] =
      .ok [⟨0, some (1 / 2), false⟩, ⟨2, some 0, true⟩, ⟨0, some (1 / 2), false⟩] ∧
    atUnmask (xyS (K := ℚ) (fun x => x) (Constant.grid) (some .center)) [0]
      (levelSys SPt.z [0, 10, 20] .mask .mask) (.timeDepth [[[[⟨1, false⟩]], [[⟨2, false⟩]], [[⟨3, false⟩]]]])
      (-999) [⟨some (0, 0), (-1, -1), 5⟩, ⟨some (0, 0), (-1, -1), 25⟩, ⟨none, (0, 900), 5⟩] 0 false true =
    .ok [⟨some (3 / 2), false⟩, ⟨some (-999), false⟩, ⟨some (-999), false⟩] := by
  constructor <;> decide +kernel

end C185

end Verif
