import Verif.Lemmas.At

set_option autoImplicit false

namespace Verif.At
open Verif.TimeM Verif.DepthM Verif.Spec

section
variable {K P : Type} [Field K]

theorem putCells_length (out : List (Cell K)) (l : List (Nat × Cell K)) :
    (putCells out l).length = out.length := by
  induction l generalizing out with
  | nil => rfl
  | cons q t ih => obtain ⟨i, c⟩ := q; rw [putCells, ih]; simp

theorem putCells_get (out : List (Cell K)) (g : Nat → Cell K) (l : List Nat) (j : Nat)
    (hj : j < out.length) :
    (j ∈ l → (putCells out (l.map fun i => (i, g i)))[j]? = some (g j)) ∧
    (j ∉ l → (putCells out (l.map fun i => (i, g i)))[j]? = out[j]?) := by
  induction l generalizing out with
  | nil => simp [putCells]
  | cons i t ih =>
    have hj' : j < (out.set i (g i)).length := by simpa using hj
    obtain ⟨h1, h2⟩ := ih (out.set i (g i)) hj'
    simp only [List.map_cons, putCells]
    by_cases hjt : j ∈ t
    · exact ⟨fun _ => h1 hjt, fun hn => absurd (List.mem_cons_of_mem _ hjt) hn⟩
    · refine ⟨fun hm => ?_, fun hn => ?_⟩
      · rcases List.mem_cons.mp hm with rfl | hm
        · rw [h2 hjt, List.getElem?_set_self hj]
        · exact absurd hm hjt
      · rw [h2 hjt, List.getElem?_set_ne]
        rintro rfl
        exact hn (List.mem_cons_self ..)

/-- Index of the level read for a level number, which may be -1. -/
def lev (m : Nat) (k : Int) : Nat := if k = -1 then m - 1 else k.toNat

/-- The next stage gives, for every level, the entry `h k p` at each of the points. -/
def ServesCells (m : Nat) (val : Int → List P → Except Err (List (Cell K))) (h : Nat → P → Cell K)
    (pts : List P) : Prop :=
  ∀ k : Int, -1 ≤ k → k < (m : Int) → ∀ ps : List P, (∀ p ∈ ps, p ∈ pts) →
    val k ps = .ok (ps.map (h (lev m k)))

theorem levelCells_good {m : Nat} {ents : List (Entry K)}
    {val : Int → List P → Except Err (List (Cell K))} {h : Nat → P → Cell K} {pts : List P}
    (hep : ents.length = pts.length) (hval : ServesCells m val h pts) (ks : List Int)
    (lay : Option (List Nat)) (out : List (Cell K)) (hlen : out.length = ents.length) (hnd : ks.Nodup)
    (hk : ∀ k ∈ ks, -1 ≤ k ∧ k < (m : Int) - 1) :
    ∃ lay' out', levelCells m ents val pts ks (lay, out) = .ok (lay', out') ∧
      out'.length = out.length ∧
      (∀ j k p, k ∈ ks → At ents j k → pts[j]? = some p →
        out'[j]? = some (mixCell (h (lev m k) p) (h (lev m (k + 1)) p) (alphaAt ents j))) ∧
      (∀ j, j < out.length → (∀ k ∈ ks, ¬ At ents j k) → out'[j]? = out[j]?) := by
  induction ks generalizing lay out with
  | nil => exact ⟨lay, out, rfl, rfl, by simp, fun _ _ _ => rfl⟩
  | cons k ks ih =>
    obtain ⟨hk1, hk2⟩ := hk k (by simp)
    have hgl : ∀ i ∈ groupOf ents k, i < pts.length := fun i hi => by
      rw [← hep]; exact groupOf_lt hi
    let f : Int → Nat → Cell K := fun q i => match pts[i]? with
      | some p => h (lev m q) p
      | none => ⟨none, false⟩
    have hread : ∀ q : Int, -1 ≤ q → q < (m : Int) →
        val q (pick pts (groupOf ents k)) = .ok ((groupOf ents k).map (f q)) := by
      intro q hq1 hq2
      rw [hval q hq1 hq2 _ (fun p hp => mem_pick hp)]
      congr 1
      refine pick_map pts _ hgl _ _ ?_
      intro i p hp
      simp only [f, hp]
    let g : Nat → Cell K := fun i => mixCell (f k i) (f (k + 1) i) (alphaAt ents i)
    have hz : List.zipWith (fun (vv : Cell K × Cell K) i => mixCell vv.1 vv.2 (alphaAt ents i))
        (((groupOf ents k).map (f k)).zip ((groupOf ents k).map (f (k + 1)))) (groupOf ents k) =
        (groupOf ents k).map g := by
      generalize groupOf ents k = l
      induction l with
      | nil => rfl
      | cons a t iht =>
        simp only [List.map_cons, List.zip_cons_cons, List.zipWith_cons_cons, iht, g]
    have hnd' := List.nodup_cons.mp hnd
    obtain ⟨lay', out', h1, h2, h3, h4⟩ := ih (some (groupOf ents k))
      (putCells out ((groupOf ents k).map fun i => (i, g i))) (by rw [putCells_length, hlen]) hnd'.2
      (fun k' hk' => hk k' (by simp [hk']))
    refine ⟨lay', out', ?_, by rw [h2, putCells_length], ?_, ?_⟩
    · simp only [levelCells, if_neg (show ¬ k = (m : Int) - 1 by omega), hread k hk1 (by omega),
        hread (k + 1) (by omega) (by omega), hz, zip_self_map]
      exact h1
    · intro j k' p hk' hat hp
      rcases List.mem_cons.mp hk' with rfl | hk'
      · have hj : j < out.length := by
          obtain ⟨e, he, _⟩ := hat
          rw [hlen]; exact (List.getElem?_eq_some_iff.mp he).1
        rw [h4 j (by rw [putCells_length]; exact hj) (fun k'' hk'' hat' => by
          have := hat.unique hat'
          subst this
          exact hnd'.1 hk''), (putCells_get out g _ j hj).1 (mem_groupOf.mpr hat)]
        simp only [g, f, hp]
      · exact h3 j k' p hk' hat hp
    · intro j hj hn
      rw [h4 j (by rw [putCells_length]; exact hj) (fun k' hk' => hn k' (by simp [hk']))]
      exact (putCells_get out g _ j hj).2 (fun hm => hn k (by simp) (mem_groupOf.mp hm))

theorem layerCells_good {m : Nat} {ents : List (Entry K)}
    {val : Int → List P → Except Err (List (Cell K))} {h : Nat → P → Cell K} {pts : List P}
    (hep : ents.length = pts.length) (hval : ServesCells m val h pts) (ks : List Int)
    (out : List (Cell K)) (hlen : out.length = ents.length) (hnd : ks.Nodup)
    (hk : ∀ k ∈ ks, 0 ≤ k ∧ k < (m : Int)) :
    ∃ out', layerCells ents val pts ks out = .ok out' ∧ out'.length = out.length ∧
      (∀ j k p, k ∈ ks → At ents j k → pts[j]? = some p → out'[j]? = some (h (lev m k) p)) ∧
      (∀ j, j < out.length → (∀ k ∈ ks, ¬ At ents j k) → out'[j]? = out[j]?) := by
  induction ks generalizing out with
  | nil => exact ⟨out, rfl, rfl, by simp, fun _ _ _ => rfl⟩
  | cons k ks ih =>
    obtain ⟨hk1, hk2⟩ := hk k (by simp)
    have hgl : ∀ i ∈ groupOf ents k, i < pts.length := fun i hi => by
      rw [← hep]; exact groupOf_lt hi
    let g : Nat → Cell K := fun i => match pts[i]? with
      | some p => h (lev m k) p
      | none => ⟨none, false⟩
    have hread : val k (pick pts (groupOf ents k)) = .ok ((groupOf ents k).map g) := by
      rw [hval k (by omega) hk2 _ (fun p hp => mem_pick hp)]
      congr 1
      refine pick_map pts _ hgl _ _ ?_
      intro i p hp
      simp only [g, hp]
    have hnd' := List.nodup_cons.mp hnd
    obtain ⟨out', h1, h2, h3, h4⟩ := ih
      (putCells out ((groupOf ents k).map fun i => (i, g i))) (by rw [putCells_length, hlen]) hnd'.2
      (fun k' hk' => hk k' (by simp [hk']))
    refine ⟨out', ?_, by rw [h2, putCells_length], ?_, ?_⟩
    · simp only [layerCells, if_neg (show ¬ k = -1 by omega), hread, zip_self_map]
      exact h1
    · intro j k' p hk' hat hp
      rcases List.mem_cons.mp hk' with rfl | hk'
      · have hj : j < out.length := by
          obtain ⟨e, he, _⟩ := hat
          rw [hlen]; exact (List.getElem?_eq_some_iff.mp he).1
        rw [h4 j (by rw [putCells_length]; exact hj) (fun k'' hk'' hat' => by
          have := hat.unique hat'
          subst this
          exact hnd'.1 hk''), (putCells_get out g _ j hj).1 (mem_groupOf.mpr hat)]
        simp only [g, hp]
      · exact h3 j k' p hk' hat hp
    · intro j hj hn
      rw [h4 j (by rw [putCells_length]; exact hj) (fun k' hk' => hn k' (by simp [hk']))]
      exact (putCells_get out g _ j hj).2 (fun hm => hn k (by simp) (mem_groupOf.mp hm))

/-- What the depth stage gives for a point, by its entry: masked, or the mixture of two levels, or the
layer. -/
def depthCell (layers : Bool) (m : Nat) (h : Nat → P → Cell K) (p : P) (e : Entry K) : Cell K :=
  if layers then h (lev m e.idx) p else mixCell (h (lev m e.idx) p) (h (lev m (e.idx + 1)) p) e.alpha

theorem depthStage_cells {m : Nat} (ds : DepthSys K P) {ents : List (Entry K)}
    {val : Int → List P → Except Err (List (Cell K))} {h : Nat → P → Cell K} {pts : List P}
    (ha : ds.alphas pts = .ok ents) (hep : ents.length = pts.length) (hval : ServesCells m val h pts)
    (hidx : ∀ e ∈ ents, e.masked = false → if m = ds.numLayers then 0 ≤ e.idx ∧ e.idx < (m : Int)
      else -1 ≤ e.idx ∧ e.idx < (m : Int) - 1) :
    ∃ out, depthStage ds m val pts = .ok out ∧ out.length = pts.length ∧
      ∀ (n : Nat) (p : P) (e : Entry K), pts[n]? = some p → ents[n]? = some e →
        out[n]? = some (if e.masked then { value := none, masked := true }
          else depthCell (decide (m = ds.numLayers)) m h p e) := by
  have hks : ∀ k ∈ uniqIdx ents, if m = ds.numLayers then 0 ≤ k ∧ k < (m : Int)
      else -1 ≤ k ∧ k < (m : Int) - 1 := by
    intro k hk
    obtain ⟨j, e, he, hu, rfl⟩ := mem_uniqIdx.mp hk
    exact hidx e (List.mem_of_getElem? he) hu
  have hnd : (uniqIdx ents).Nodup := (Np.unique_pairwise _).imp ne_of_lt
  have hinit : ∀ (n : Nat) (e : Entry K), ents[n]? = some e → e.masked = true →
      (ents.map fun e => ({ value := none, masked := e.masked } : Cell K))[n]? =
        some { value := none, masked := true } := by
    intro n e he hm
    rw [List.getElem?_map, he]
    simp [hm]
  have hnot : ∀ (n : Nat) (e : Entry K), ents[n]? = some e → e.masked = true →
      ∀ k ∈ uniqIdx ents, ¬ At ents n k := by
    rintro n e he hm k _ ⟨e', he', hu, _⟩
    rw [he] at he'; cases he'
    rw [hm] at hu; cases hu
  unfold depthStage
  simp only [ha]
  by_cases hall : ents.all Entry.masked = true
  · refine ⟨ents.map fun e => { value := none, masked := e.masked }, by simp only [hall, if_true],
      by simp [hep], ?_⟩
    intro n p e hp he
    have hm := List.all_eq_true.mp hall e (List.mem_of_getElem? he)
    rw [hinit n e he hm, if_pos hm]
  · simp only [if_neg hall]
    by_cases hl : m = ds.numLayers
    · simp only [if_pos hl] at hks ⊢
      obtain ⟨out, h1, h2, h3, h4⟩ := layerCells_good hep hval (uniqIdx ents)
        (ents.map fun e => { value := none, masked := e.masked }) (by simp) hnd hks
      refine ⟨out, h1, by rw [h2]; simp [hep], ?_⟩
      intro n p e hp he
      by_cases hm : e.masked = true
      · rw [if_pos hm, h4 n (by simpa using (List.getElem?_eq_some_iff.mp he).1) (hnot n e he hm),
          hinit n e he hm]
      · have hat : At ents n e.idx := ⟨e, he, by simpa using hm, rfl⟩
        rw [if_neg hm, h3 n e.idx p (mem_uniqIdx.mpr ⟨n, hat⟩) hat hp]
        simp [depthCell, hl]
    · simp only [if_neg hl] at hks ⊢
      obtain ⟨lay, out, h1, h2, h3, h4⟩ := levelCells_good hep hval (uniqIdx ents) none
        (ents.map fun e => { value := none, masked := e.masked }) (by simp) hnd hks
      refine ⟨out, by rw [h1], by rw [h2]; simp [hep], ?_⟩
      intro n p e hp he
      by_cases hm : e.masked = true
      · rw [if_pos hm, h4 n (by simpa using (List.getElem?_eq_some_iff.mp he).1) (hnot n e he hm),
          hinit n e he hm]
      · have hat : At ents n e.idx := ⟨e, he, by simpa using hm, rfl⟩
        rw [if_neg hm, h3 n e.idx p (mem_uniqIdx.mpr ⟨n, hat⟩) hat hp]
        simp [depthCell, hl, alphaAt, he]

end

end Verif.At
