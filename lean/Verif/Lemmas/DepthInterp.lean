import Verif.Model.DepthInterp
import Verif.Lemmas.Depth

set_option autoImplicit false

namespace Verif.Np
variable {α : Type*} [LinearOrder α]

theorem mem_dedupAdj (x : α) (l : List α) : x ∈ dedupAdj l ↔ x ∈ l := by
  induction l with
  | nil => simp [dedupAdj]
  | cons a t ih =>
    cases t with
    | nil => simp [dedupAdj]
    | cons b t =>
      simp only [dedupAdj]
      split
      · rename_i h
        rw [ih, h]
        simp
      · rw [List.mem_cons, ih, List.mem_cons (a := x) (b := a)]

theorem dedupAdj_pairwise {l : List α} (h : l.Pairwise (· ≤ ·)) : (dedupAdj l).Pairwise (· < ·) := by
  induction l with
  | nil => simp [dedupAdj]
  | cons a t ih =>
    cases t with
    | nil => simp [dedupAdj]
    | cons b t =>
      obtain ⟨h1, h2⟩ := List.pairwise_cons.mp h
      simp only [dedupAdj]
      split
      · exact ih h2
      · rename_i hne
        refine List.pairwise_cons.mpr ⟨?_, ih h2⟩
        intro y hy
        rw [mem_dedupAdj] at hy
        rcases List.mem_cons.mp hy with rfl | hy
        · exact lt_of_le_of_ne (h1 y (by simp)) hne
        · exact lt_of_lt_of_le (lt_of_le_of_ne (h1 b (by simp)) hne)
            ((List.pairwise_cons.mp h2).1 y hy)

theorem mem_unique (x : α) (l : List α) : x ∈ unique l ↔ x ∈ l := by
  rw [unique, mem_dedupAdj, (sort_perm l).mem_iff]

theorem unique_pairwise (l : List α) : (unique l).Pairwise (· < ·) :=
  dedupAdj_pairwise (sort_pairwise l)

end Verif.Np

namespace Verif.DepthM
variable {K : Type*} [Field K]

/-- Point `j` is unmasked and has index `k`. -/
def At (ents : List (Entry K)) (j : Nat) (k : Int) : Prop :=
  ∃ e, ents[j]? = some e ∧ e.masked = false ∧ e.idx = k

theorem mem_groupOf {ents : List (Entry K)} {k : Int} {j : Nat} :
    j ∈ groupOf ents k ↔ At ents j k := by
  unfold groupOf At
  rw [List.mem_filter, List.mem_range]
  constructor
  · rintro ⟨hj, h⟩
    rw [List.getElem?_eq_getElem hj] at h ⊢
    simp only [Bool.and_eq_true, Bool.not_eq_true', decide_eq_true_eq] at h
    exact ⟨_, rfl, h.1, h.2⟩
  · rintro ⟨e, h, h1, h2⟩
    refine ⟨(List.getElem?_eq_some_iff.mp h).1, ?_⟩
    rw [h]
    simp [h1, h2]

theorem At.unique {ents : List (Entry K)} {j : Nat} {k k' : Int} (h : At ents j k)
    (h' : At ents j k') : k = k' := by
  obtain ⟨e, h1, _, h2⟩ := h
  obtain ⟨e', h1', _, h2'⟩ := h'
  rw [h1] at h1'
  cases h1'
  rw [← h2, ← h2']

theorem mem_uniqIdx {ents : List (Entry K)} {k : Int} : k ∈ uniqIdx ents ↔ ∃ j, At ents j k := by
  unfold uniqIdx At
  rw [Np.mem_unique, List.mem_map]
  constructor
  · rintro ⟨e, he, rfl⟩
    obtain ⟨hm, hu⟩ := List.mem_filter.mp he
    obtain ⟨j, hj⟩ := List.getElem?_of_mem hm
    exact ⟨j, e, hj, by simpa using hu, rfl⟩
  · rintro ⟨j, e, hj, hm, rfl⟩
    exact ⟨e, List.mem_filter.mpr ⟨List.mem_of_getElem? hj, by simp [hm]⟩, rfl⟩

theorem putAll_length (out : List (Cell K)) (ps : List (Nat × Option K)) :
    (putAll out ps).length = out.length := by
  induction ps generalizing out with
  | nil => rfl
  | cons p t ih => obtain ⟨i, v⟩ := p; rw [putAll, ih]; simp

theorem putAll_get (out : List (Cell K)) (g : Nat → Option K) (l : List Nat) (j : Nat)
    (hj : j < out.length) :
    (j ∈ l → (putAll out (l.map fun i => (i, g i)))[j]? = some { value := g j, masked := false }) ∧
    (j ∉ l → (putAll out (l.map fun i => (i, g i)))[j]? = out[j]?) := by
  induction l generalizing out with
  | nil => simp [putAll]
  | cons i t ih =>
    have hj' : j < (out.set i { value := g i, masked := false }).length := by simpa using hj
    obtain ⟨h1, h2⟩ := ih (out.set i { value := g i, masked := false }) hj'
    simp only [List.map_cons, putAll]
    by_cases hjt : j ∈ t
    · exact ⟨fun _ => h1 hjt, fun hn => absurd (List.mem_cons_of_mem _ hjt) hn⟩
    · refine ⟨fun hm => ?_, fun hn => ?_⟩
      · rcases List.mem_cons.mp hm with rfl | hm
        · rw [h2 hjt, List.getElem?_set_self hj]
        · exact absurd hm hjt
      · rw [h2 hjt, List.getElem?_set_ne]
        rintro rfl
        exact hn (List.mem_cons_self ..)

theorem levelLoop_append (m : Nat) (ents : List (Entry K)) (cols : List (List K)) (ks ks' : List Int)
    (st : Option (List Nat) × List (Cell K)) :
    levelLoop m ents cols (ks ++ ks') st = match levelLoop m ents cols ks st with
      | .ok st' => levelLoop m ents cols ks' st'
      | .error e => .error e := by
  induction ks generalizing st with
  | nil => simp [levelLoop]
  | cons k ks ih =>
    obtain ⟨lay, out⟩ := st
    simp only [List.cons_append, levelLoop]
    split
    · split
      · rfl
      · split
        · rfl
        · rw [ih]
    · split
      · rfl
      · rw [ih]

/-- The loop over indices other than the last level fills each group with its blended values. -/
theorem levelLoop_good {m : Nat} {ents : List (Entry K)} {cols : List (List K)} {g : Nat → Option K}
    (ks : List Int) (lay : Option (List Nat)) (out : List (Cell K))
    (hlen : out.length = ents.length) (hnd : ks.Nodup)
    (hk : ∀ k ∈ ks, k ≠ (m : Int) - 1 ∧ ∀ j, At ents j k → blendAt ents cols k j = .ok (j, g j)) :
    ∃ out', levelLoop m ents cols ks (lay, out) = .ok (match ks.getLast? with
        | some k => some (groupOf ents k)
        | none => lay, out') ∧ out'.length = out.length ∧
      (∀ j k, k ∈ ks → At ents j k → out'[j]? = some { value := g j, masked := false }) ∧
      (∀ j, j < out.length → (∀ k ∈ ks, ¬ At ents j k) → out'[j]? = out[j]?) := by
  induction ks generalizing lay out with
  | nil => exact ⟨out, rfl, rfl, by simp, fun _ _ _ => rfl⟩
  | cons k ks ih =>
    obtain ⟨hne, hb⟩ := hk k (by simp)
    have hok : mapE (blendAt ents cols k) (groupOf ents k)
        = .ok ((groupOf ents k).map fun i => (i, g i)) :=
      mapE_ok fun j hj => hb j (mem_groupOf.mp hj)
    have hnd' := List.nodup_cons.mp hnd
    obtain ⟨out', h1, h2, h3, h4⟩ := ih (some (groupOf ents k))
      (putAll out ((groupOf ents k).map fun i => (i, g i))) (by rw [putAll_length, hlen]) hnd'.2
      (fun k' hk' => hk k' (by simp [hk']))
    refine ⟨out', ?_, by rw [h2, putAll_length], ?_, ?_⟩
    · simp only [levelLoop, if_neg hne, hok]
      rw [h1]
      rcases ks with _ | ⟨k', ks⟩
      · rfl
      · rw [List.getLast?_cons_cons]
        rcases hg : (k' :: ks).getLast? with _ | x
        · simp at hg
        · rfl
    · intro j k' hk' hat
      rcases List.mem_cons.mp hk' with rfl | hk'
      · have hj : j < out.length := by
          obtain ⟨e, he, _⟩ := hat
          rw [hlen]; exact (List.getElem?_eq_some_iff.mp he).1
        rw [h4 j (by rw [putAll_length]; exact hj) (fun k'' hk'' hat' => by
          have := hat.unique hat'
          subst this
          exact hnd'.1 hk'')]
        exact (putAll_get out g _ j hj).1 (mem_groupOf.mpr hat)
      · exact h3 j k' hk' hat
    · intro j hj hn
      rw [h4 j (by rw [putAll_length]; exact hj) (fun k' hk' => hn k' (by simp [hk']))]
      exact (putAll_get out g _ j hj).2 (fun hm => hn k (by simp) (mem_groupOf.mp hm))

/-- The layer loop over indices 0 and up. -/
theorem layerLoop_good {ents : List (Entry K)} {cols : List (List K)} {g : Nat → Option K}
    (ks : List Int) (out : List (Cell K))
    (hlen : out.length = ents.length) (hnd : ks.Nodup)
    (hk : ∀ k ∈ ks, k ≠ -1 ∧ ∀ j, At ents j k → plainAt cols k j = .ok (j, g j)) :
    ∃ out', layerLoop ents cols ks out = .ok out' ∧ out'.length = out.length ∧
      (∀ j k, k ∈ ks → At ents j k → out'[j]? = some { value := g j, masked := false }) ∧
      (∀ j, j < out.length → (∀ k ∈ ks, ¬ At ents j k) → out'[j]? = out[j]?) := by
  induction ks generalizing out with
  | nil => exact ⟨out, rfl, rfl, by simp, fun _ _ _ => rfl⟩
  | cons k ks ih =>
    obtain ⟨hne, hb⟩ := hk k (by simp)
    have hok : mapE (plainAt cols k) (groupOf ents k)
        = .ok ((groupOf ents k).map fun i => (i, g i)) :=
      mapE_ok fun j hj => hb j (mem_groupOf.mp hj)
    have hnd' := List.nodup_cons.mp hnd
    obtain ⟨out', h1, h2, h3, h4⟩ := ih
      (putAll out ((groupOf ents k).map fun i => (i, g i))) (by rw [putAll_length, hlen]) hnd'.2
      (fun k' hk' => hk k' (by simp [hk']))
    refine ⟨out', ?_, by rw [h2, putAll_length], ?_, ?_⟩
    · simp only [layerLoop, if_neg hne, hok]
      exact h1
    · intro j k' hk' hat
      rcases List.mem_cons.mp hk' with rfl | hk'
      · have hj : j < out.length := by
          obtain ⟨e, he, _⟩ := hat
          rw [hlen]; exact (List.getElem?_eq_some_iff.mp he).1
        rw [h4 j (by rw [putAll_length]; exact hj) (fun k'' hk'' hat' => by
          have := hat.unique hat'
          subst this
          exact hnd'.1 hk'')]
        exact (putAll_get out g _ j hj).1 (mem_groupOf.mpr hat)
      · exact h3 j k' hk' hat
    · intro j hj hn
      rw [h4 j (by rw [putAll_length]; exact hj) (fun k' hk' => hn k' (by simp [hk']))]
      exact (putAll_get out g _ j hj).2 (fun hm => hn k (by simp) (mem_groupOf.mp hm))

/-- In the layer loop a point at -1 is never filled. -/
theorem layerLoop_neg {ents : List (Entry K)} {cols : List (List K)} (ks : List Int)
    (out out' : List (Cell K)) (h : layerLoop ents cols ks out = .ok out') (j : Nat)
    (hj : j < out.length) (hat : At ents j (-1)) : out'[j]? = out[j]? := by
  induction ks generalizing out with
  | nil => simp only [layerLoop, Except.ok.injEq] at h; rw [h]
  | cons k ks ih =>
    simp only [layerLoop] at h
    split at h
    · cases h
    · rename_i vs hvs
      rw [ih _ h (by rw [putAll_length]; exact hj)]
      have hpairs : ∀ (l : List Nat) (idx : Int) (vs : List (Nat × Option K)),
          mapE (plainAt cols idx) l = .ok vs → vs.map Prod.fst = l := by
        intro l idx
        induction l with
        | nil => intro vs hv; simp only [mapE, Except.ok.injEq] at hv; rw [← hv]; rfl
        | cons a t iht =>
          intro vs hv
          simp only [mapE] at hv
          split at hv
          · cases hv
          · rename_i b hb
            split at hv
            · cases hv
            · rename_i bs hbs
              cases hv
              have : b.1 = a := by
                unfold plainAt at hb
                split at hb
                · cases hb; rfl
                · cases hb
              simp [this, iht bs hbs]
      have hkeep : ∀ (ps : List (Nat × Option K)) (o : List (Cell K)), j ∉ ps.map Prod.fst →
          (putAll o ps)[j]? = o[j]? := by
        intro ps
        induction ps with
        | nil => intro o _; rfl
        | cons p t iht =>
          intro o hnm
          obtain ⟨i, v⟩ := p
          simp only [List.map_cons, List.mem_cons, not_or] at hnm
          rw [putAll, iht _ hnm.2, List.getElem?_set_ne (fun hh => hnm.1 hh.symm)]
      apply hkeep
      rw [hpairs _ _ _ hvs]
      intro hm
      have h1 := (mem_groupOf.mp hm).unique hat
      split_ifs at h1 with hk
      exact hk h1

end Verif.DepthM
