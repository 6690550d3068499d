import Verif.Lemmas.Loops
import Mathlib.Algebra.Order.Ring.Int

/-!
# C25-C30, C35: mesh topology of unstructured grids
-/

set_option autoImplicit false

namespace Verif
open UTopo Spec

/-! ## C25 -/

section C25

/-- Zero-based with fill -1: what the grid stores. -/
def ZeroBased (n : Nat) (faces : List (List Int)) : Prop :=
  ∀ r ∈ faces, ∀ e ∈ r, -1 ≤ e ∧ e < n

/-- One-based, with the last node used. -/
def OneBased (n : Nat) (faces : List (List Int)) : Prop :=
  (∀ r ∈ faces, ∀ e ∈ r, 1 ≤ e ∧ e ≤ n) ∧ ∃ r ∈ faces, (n : Int) ∈ r

theorem foldl_max_spec (l : List Int) (a : Int) :
    (l.foldl max a ∈ a :: l) ∧ ∀ x ∈ a :: l, x ≤ l.foldl max a := by
  induction l generalizing a with
  | nil => simp
  | cons b l ih =>
    obtain ⟨h1, h2⟩ := ih (max a b)
    rw [List.foldl_cons]
    constructor
    · rcases List.mem_cons.mp h1 with h | h
      · rw [h]
        rcases le_total a b with h | h
        · rw [max_eq_right h]; simp
        · rw [max_eq_left h]; simp
      · exact List.mem_cons_of_mem _ (List.mem_cons_of_mem _ h)
    · intro x hx
      have hm := h2 (max a b) (List.mem_cons_self ..)
      rcases List.mem_cons.mp hx with rfl | hx
      · omega
      · rcases List.mem_cons.mp hx with rfl | hx
        · omega
        · exact h2 x (List.mem_cons_of_mem _ hx)

theorem foldl_min_spec (l : List Int) (a : Int) :
    (l.foldl min a ∈ a :: l) ∧ ∀ x ∈ a :: l, l.foldl min a ≤ x := by
  induction l generalizing a with
  | nil => simp
  | cons b l ih =>
    obtain ⟨h1, h2⟩ := ih (min a b)
    rw [List.foldl_cons]
    constructor
    · rcases List.mem_cons.mp h1 with h | h
      · rw [h]
        rcases le_total a b with h | h
        · rw [min_eq_left h]; simp
        · rw [min_eq_right h]; simp
      · exact List.mem_cons_of_mem _ (List.mem_cons_of_mem _ h)
    · intro x hx
      have hm := h2 (min a b) (List.mem_cons_self ..)
      rcases List.mem_cons.mp hx with rfl | hx
      · omega
      · rcases List.mem_cons.mp hx with rfl | hx
        · omega
        · exact h2 x (List.mem_cons_of_mem _ hx)

theorem maxL_spec {l : List Int} (h : l ≠ []) : ∃ m, maxL l = some m ∧ m ∈ l ∧ ∀ x ∈ l, x ≤ m := by
  cases l with
  | nil => exact absurd rfl h
  | cons a l => exact ⟨_, rfl, foldl_max_spec l a⟩

theorem minL_spec {l : List Int} (h : l ≠ []) : ∃ m, minL l = some m ∧ m ∈ l ∧ ∀ x ∈ l, m ≤ x := by
  cases l with
  | nil => exact absurd rfl h
  | cons a l => exact ⟨_, rfl, foldl_min_spec l a⟩

theorem flat_iff (faces : List (List Int)) (p : Int → Prop) :
    (∀ e ∈ faces.flatten, p e) ↔ ∀ r ∈ faces, ∀ e ∈ r, p e := by
  simp only [List.mem_flatten]
  exact ⟨fun h r hr e he => h e ⟨r, hr, he⟩, fun h e ⟨r, hr, he⟩ => h r hr e he⟩

/-- The three outcomes of assigning a non-empty table: zero-based tables are stored as they are,
one-based tables that use the last node are shifted by one, everything else raises. -/
theorem C25_faces_setter (n : Nat) (faces : List (List Int)) (hne : faces.flatten ≠ []) :
    (ZeroBased n faces → setFaces n faces = .ok faces) ∧
    (OneBased n faces → setFaces n faces = .ok (faces.map (fun r => r.map (fun e => e - 1)))) ∧
    (¬ ZeroBased n faces → ¬ OneBased n faces → setFaces n faces = .error .valueError) := by
  obtain ⟨mx, hmx, hmxm, hmxle⟩ := maxL_spec hne
  obtain ⟨mn, hmn, hmnm, hmnle⟩ := minL_spec hne
  have zb : ZeroBased n faces ↔ -1 ≤ mn ∧ mx < n := by
    unfold ZeroBased
    rw [← flat_iff faces (fun e => -1 ≤ e ∧ e < (n : Int))]
    constructor
    · intro h; exact ⟨(h mn hmnm).1, (h mx hmxm).2⟩
    · intro h e he
      have h1 := hmxle e he
      have h2 := hmnle e he
      omega
  have ob : OneBased n faces ↔ 1 ≤ mn ∧ mx = n := by
    unfold OneBased
    rw [← flat_iff faces (fun e => 1 ≤ e ∧ e ≤ (n : Int))]
    constructor
    · rintro ⟨h, r, hr, hn⟩
      have h1 := hmxle n (List.mem_flatten.mpr ⟨r, hr, hn⟩)
      have h2 := (h mx hmxm).2
      exact ⟨(h mn hmnm).1, by omega⟩
    · rintro ⟨h1, rfl⟩
      refine ⟨fun e he => ⟨by have := hmnle e he; omega, hmxle e he⟩, ?_⟩
      obtain ⟨r, hr, hx⟩ := List.mem_flatten.mp hmxm
      exact ⟨r, hr, hx⟩
  rw [zb, ob]
  refine ⟨?_, ?_, ?_⟩
  · rintro ⟨h1, h2⟩
    have a1 : ¬ (n : Int) < mx := by omega
    have a2 : ¬ mx = n := by omega
    have a3 : ¬ mn < -1 := by omega
    simp [setFaces, hmx, hmn, a1, a2, a3]
  · rintro ⟨h1, h2⟩
    have a1 : ¬ (n : Int) < mx := by omega
    have hsub : faces.map (fun r => r.map (fun e => if 0 < e then e - 1 else e))
        = faces.map (fun r => r.map (fun e => e - 1)) := by
      refine List.map_congr_left fun r hr => List.map_congr_left fun e he => ?_
      have := hmnle e (List.mem_flatten.mpr ⟨r, hr, he⟩)
      rw [if_pos (by omega)]
    have hne' : (faces.map (fun r => r.map (fun e => e - 1))).flatten ≠ [] := by
      rw [← List.map_flatten]
      simpa using hne
    obtain ⟨mn', hmn', hmn'm, -⟩ := minL_spec hne'
    have hge : 0 ≤ mn' := by
      rw [← List.map_flatten, List.mem_map] at hmn'm
      obtain ⟨e, he, rfl⟩ := hmn'm
      have := hmnle e he
      omega
    have a3 : ¬ mn' < -1 := by omega
    simp only [setFaces, hmx, hmn, a1, if_false, h2, if_true, h1, hsub, hmn', a3]
    simp
  · intro h1 h2
    by_cases a1 : (n : Int) < mx
    · simp [setFaces, hmx, hmn, a1]
    · by_cases a2 : mx = n
      · have a3 : ¬ 1 ≤ mn := fun h => h2 ⟨h, a2⟩
        simp [setFaces, hmx, hmn, a2, a3]
      · have a3 : mn < -1 := by
          by_contra h
          exact h1 ⟨by omega, by omega⟩
        simp [setFaces, hmx, hmn, a1, a2, a3]

/-- Whatever is accepted is zero-based, with the shape of the input. -/
theorem C25_accepted_indices (n : Nat) (faces faces' : List (List Int))
    (h : setFaces n faces = .ok faces') :
    ZeroBased n faces' ∧ faces'.map List.length = faces.map List.length := by
  by_cases hne : faces.flatten = []
  · simp [setFaces, hne, maxL] at h
  · obtain ⟨h1, h2, h3⟩ := C25_faces_setter n faces hne
    by_cases hz : ZeroBased n faces
    · rw [h1 hz] at h
      cases h
      exact ⟨hz, rfl⟩
    · by_cases ho : OneBased n faces
      · rw [h2 ho] at h
        cases h
        refine ⟨?_, by simp [Function.comp_def]⟩
        intro r hr e he
        rw [List.mem_map] at hr
        obtain ⟨r', hr', rfl⟩ := hr
        rw [List.mem_map] at he
        obtain ⟨e', he', rfl⟩ := he
        have := ho.1 r' hr' e' he'
        omega
      · rw [h3 hz ho] at h
        cases h

example : setFaces 4 [[1, 2, 3], [2, 3, 4]] = .ok [[0, 1, 2], [1, 2, 3]] ∧
    setFaces 4 [[0, 1, 2], [1, 2, -1]] = .ok [[0, 1, 2], [1, 2, -1]] ∧
    setFaces 4 [[0, 1, 4]] = .error .valueError ∧ setFaces 4 [[0, 1, 5]] = .error .valueError ∧
    setFaces 4 [[0, 1, -2]] = .error .valueError := by decide

end C25

/-! ## C26 -/

section C26
variable {nv : Nat} {faces : List (List Int)}

/-- Every entry is -1, or the number of a face one of whose other sides is the same edge and names
this face in turn. -/
theorem C26_neighbours (hr : Rect nv faces) (i j : Nat) (v : Int)
    (h : Entry (buildFaceFace nv faces) i j v) :
    v = -1 ∨ ∃ k l : Nat, v = k ∧ (k, l) ≠ (i, j) ∧ Shares faces i j k l ∧
      Entry (buildFaceFace nv faces) k l i := by
  obtain ⟨hi, hj, ht⟩ := entry_iff.mp h
  obtain ⟨M, op, I⟩ := inv_ff nv faces
  have hnd := scan_nodup nv faces
  have hmem1 : ∀ m ∈ M, m.1 ∈ scan nv faces := fun m hm => I.perm.mem_iff.mpr (by
    simp only [List.mem_append, List.mem_map]; exact Or.inl ⟨m, hm, rfl⟩)
  have hmem2 : ∀ m ∈ M, m.2 ∈ scan nv faces := fun m hm => I.perm.mem_iff.mpr (by
    simp only [List.mem_append, List.mem_map]; exact Or.inr (Or.inl ⟨m, hm, rfl⟩))
  have hdiff : ∀ m ∈ M, m.1.1 ≠ m.2.1 := by
    intro m hm
    have := (I.perm.map Prod.fst).nodup_iff.mp hnd
    rw [List.map_append, List.nodup_append] at this
    exact this.2.2 _ (List.mem_map_of_mem (List.mem_map_of_mem hm)) _
      (List.mem_map_of_mem (List.mem_append_left _ (List.mem_map_of_mem hm)))
  have hb : ∀ x ∈ scan nv faces, x.1.1 < faces.length ∧ x.1.2 < nv := by
    rintro ⟨⟨a, b⟩, e⟩ hx
    exact side_bounds hr ((mem_scan hr).mp hx)
  by_cases hM : ∃ m ∈ M, (i, j) = m.1.1 ∨ (i, j) = m.2.1
  · right
    obtain ⟨m, hm, hor⟩ := hM
    obtain ⟨t1, t2⟩ := I.table₁ m hm
    rcases hor with e | e
    · refine ⟨m.2.1.1, m.2.1.2, ?_, ?_, ?_, ?_⟩
      · rw [← ht, e, t1]
      · intro he
        exact hdiff m hm (by rw [← e, ← he])
      · have := shares_of hr (hmem1 m hm) (hmem2 m hm) (I.same m hm)
        rw [← e] at this
        exact this
      · rw [entry_iff]
        obtain ⟨b1, b2⟩ := hb _ (hmem2 m hm)
        exact ⟨b1, b2, by rw [show (m.2.1.1, m.2.1.2) = m.2.1 from rfl, t2, ← e]⟩
    · refine ⟨m.1.1.1, m.1.1.2, ?_, ?_, ?_, ?_⟩
      · rw [← ht, e, t2]
      · intro he
        exact hdiff m hm (by rw [← e, ← he])
      · have := shares_of hr (hmem2 m hm) (hmem1 m hm) (I.same m hm).symm
        rw [← e] at this
        exact this
      · rw [entry_iff]
        obtain ⟨b1, b2⟩ := hb _ (hmem1 m hm)
        exact ⟨b1, b2, by rw [show (m.1.1.1, m.1.1.2) = m.1.1 from rfl, t1, ← e]⟩
  · left
    push Not at hM
    rw [← ht]
    exact I.table₂ (i, j) hM

/-- A side marked -1 is open. -/
theorem open_of_entry (hr : Rect nv faces) {M : List (UTopo.S × UTopo.S)} {op : List UTopo.S}
    (I : UTopo.Inv (scan nv faces) (ffRun nv faces) M op) {x : UTopo.S} (hx : x ∈ scan nv faces) :
    (ffRun nv faces).table x.1 = -1 ↔ x ∈ op := by
  have hnd' := (I.perm.map Prod.fst).nodup_iff.mp (scan_nodup nv faces)
  have hinj : ∀ a ∈ scan nv faces, ∀ b ∈ scan nv faces, a.1 = b.1 → a = b := by
    rintro ⟨⟨i, j⟩, a, b⟩ ha ⟨⟨k, l⟩, c, d⟩ hb he
    simp only [Prod.mk.injEq] at he
    obtain ⟨rfl, rfl⟩ := he
    obtain ⟨rfl, rfl⟩ := side_unique ((mem_scan hr).mp ha) ((mem_scan hr).mp hb)
    rfl
  constructor
  · intro ht
    have := I.perm.mem_iff.mp hx
    simp only [List.mem_append, List.mem_map] at this
    rcases this with ⟨m, hm, rfl⟩ | ⟨m, hm, rfl⟩ | h
    · rw [(I.table₁ m hm).1] at ht; omega
    · rw [(I.table₁ m hm).2] at ht; omega
    · exact h
  · intro ho
    refine I.table₂ x.1 fun m hm => ⟨fun he => ?_, fun he => ?_⟩
    · rw [List.map_append, List.nodup_append] at hnd'
      exact hnd'.2.2 _ (List.mem_map_of_mem (List.mem_map_of_mem hm)) _
        (by rw [List.map_append]; exact List.mem_append_right _ (List.mem_map_of_mem ho)) he.symm
    · rw [List.map_append, List.nodup_append] at hnd'
      have h2 := hnd'.2.1
      rw [List.map_append, List.nodup_append] at h2
      exact h2.2.2 _ (List.mem_map_of_mem (List.mem_map_of_mem hm)) _ (List.mem_map_of_mem ho)
        he.symm

/-- On any mesh at most one side of an edge is marked -1. -/
theorem C26_one_open_per_edge (hr : Rect nv faces) (i j k l : Nat)
    (h1 : Entry (buildFaceFace nv faces) i j (-1)) (h2 : Entry (buildFaceFace nv faces) k l (-1))
    (hs : Shares faces i j k l) : (k, l) = (i, j) := by
  obtain ⟨M, op, I⟩ := inv_ff nv faces
  obtain ⟨a, b, c, d, s1, s2, hse⟩ := hs
  have m1 := (mem_scan (e := (a, b)) hr).mpr s1
  have m2 := (mem_scan (e := (c, d)) hr).mpr s2
  have o1 := (open_of_entry hr I m1).mp (entry_iff.mp h1).2.2
  have o2 := (open_of_entry hr I m2).mp (entry_iff.mp h2).2.2
  have hk : sortEdge (a, b) = sortEdge (c, d) := (sortEdge_eq_iff a b c d).mpr hse
  have := List.inj_on_of_nodup_map I.keys o1 o2 hk
  simp only [Prod.mk.injEq] at this
  rw [this.1.1, this.1.2]

/-- On meshes where every edge belongs to at most two sides the entry is -1 exactly when no other
side is that edge. -/
theorem C26_boundary_iff (hr : Rect nv faces) (h2 : AtMostTwo faces) (i j : Nat)
    (hi : i < faces.length) (hj : j < nv) :
    Entry (buildFaceFace nv faces) i j (-1) ↔ ∀ k l, Shares faces i j k l → (k, l) = (i, j) := by
  have hex : ∀ i j, i < faces.length → j < nv → ∃ v, Entry (buildFaceFace nv faces) i j v :=
    fun i j hi hj => ⟨_, entry_iff.mpr ⟨hi, hj, rfl⟩⟩
  constructor
  · intro h k l hs
    by_contra hne
    obtain ⟨a, b, c, d, s1, s2, hse⟩ := hs
    obtain ⟨hk, hl⟩ := side_bounds hr s2
    obtain ⟨v, hv⟩ := hex k l hk hl
    rcases C26_neighbours hr k l v hv with rfl | ⟨k', l', rfl, hne', hs', he'⟩
    · exact hne (C26_one_open_per_edge hr i j k l h hv ⟨a, b, c, d, s1, s2, hse⟩)
    · have hs2 : Shares faces i j k' l' := by
        obtain ⟨a', b', c', d', t1, t2, hse'⟩ := hs'
        obtain ⟨rfl, rfl⟩ := side_unique s2 t1
        refine ⟨a, b, c', d', s1, t2, ?_⟩
        unfold SameEdge at hse hse' ⊢
        omega
      rcases h2 i j k l k' l' ⟨a, b, c, d, s1, s2, hse⟩ hs2 with e | e | e
      · exact hne e
      · rw [Prod.mk.injEq] at e
        obtain ⟨rfl, rfl⟩ := e
        obtain ⟨-, -, t1⟩ := entry_iff.mp h
        obtain ⟨-, -, t2⟩ := entry_iff.mp he'
        rw [t1] at t2
        omega
      · exact hne' e.symm
  · intro h
    obtain ⟨v, hv⟩ := hex i j hi hj
    rcases C26_neighbours hr i j v hv with rfl | ⟨k, l, -, hne, hs, -⟩
    · exact hv
    · exact absurd (h k l hs) hne

/-- Two triangles sharing an edge. -/
example : Rect 3 [[0, 1, 2], [1, 3, 2]] ∧
    buildFaceFace 3 [[0, 1, 2], [1, 3, 2]] = [[-1, 1, -1], [-1, -1, 0]] := by
  refine ⟨?_, by decide⟩
  intro f hf
  simp only [List.mem_cons, List.not_mem_nil, or_false] at hf
  rcases hf with rfl | rfl <;> rfl

/-- The hypothesis of `C26_boundary_iff` holds there. -/
example : AtMostTwo [[0, 1, 2], [1, 3, 2]] := by
  have hb : ∀ i j a b, Side [[0, 1, 2], [1, 3, 2]] i j a b →
      ((i, j), (a, b)) ∈ scan 3 [[0, 1, 2], [1, 3, 2]] := fun i j a b h =>
    (mem_scan (e := (a, b)) (by
      intro f hf
      simp only [List.mem_cons, List.not_mem_nil, or_false] at hf
      rcases hf with rfl | rfl <;> rfl)).mpr h
  have hs : scan 3 [[0, 1, 2], [1, 3, 2]] = [((0, 0), (0, 1)), ((0, 1), (1, 2)), ((0, 2), (2, 0)),
      ((1, 0), (1, 3)), ((1, 1), (3, 2)), ((1, 2), (2, 1))] := by decide
  rw [hs] at hb
  rintro i j k l m n ⟨a, b, c, d, s1, s2, hse⟩ ⟨a', b', c', d', s1', s2', hse'⟩
  obtain ⟨rfl, rfl⟩ := side_unique s1 s1'
  have h1 := hb _ _ _ _ s1
  have h2 := hb _ _ _ _ s2
  have h3 := hb _ _ _ _ s2'
  clear s1 s2 s1' s2' hb hs
  simp only [List.mem_cons, Prod.mk.injEq, List.not_mem_nil, or_false] at h1 h2 h3
  unfold SameEdge at hse hse'
  simp only [Prod.mk.injEq]
  omega

end C26

/-! ## C27 -/

section C27
variable {nv : Nat} {faces : List (List Int)}

/-- Each unordered pair of consecutive vertices is listed exactly once, smaller number first, and
nothing else is. -/
theorem C27_edges (hr : Rect nv faces) :
    (buildEdges nv faces).Nodup ∧
    ∀ a b, (a, b) ∈ buildEdges nv faces ↔
      a ≤ b ∧ ∃ i j, Side faces i j a b ∨ Side faces i j b a := by
  refine ⟨List.nodup_dedup _, fun a b => ?_⟩
  unfold buildEdges
  rw [List.mem_dedup, List.mem_flatMap]
  -- vertex before `j` and vertex `j` are side `j - 1`
  have prev : ∀ (i : Nat) (f : List Int), faces[i]? = some f → ∀ j < nv, ∃ j', j' < nv ∧
      Side faces i j' (at' f (if j = 0 then nv - 1 else j - 1)) (at' f j) := by
    intro i f hf j hj
    have hl := hr f (List.mem_of_getElem? hf)
    refine ⟨if j = 0 then nv - 1 else j - 1, by split <;> omega, f, hf, ?_, ?_⟩
    · have hlt : (if j = 0 then nv - 1 else j - 1) < f.length := by split <;> omega
      rw [List.getElem?_eq_getElem hlt, at'_eq (List.getElem?_eq_getElem hlt)]
    · have e : ((if j = 0 then nv - 1 else j - 1) + 1) % f.length = j := by
        split
        · rw [hl, show nv - 1 + 1 = nv by omega, Nat.mod_self]; omega
        · rw [hl, show j - 1 + 1 = j by omega, Nat.mod_eq_of_lt hj]
      have hlt : j < f.length := by omega
      rw [e, List.getElem?_eq_getElem hlt, at'_eq (List.getElem?_eq_getElem hlt)]
  constructor
  · rintro ⟨f, hf, hm⟩
    rw [List.mem_map] at hm
    obtain ⟨j, hj, he⟩ := hm
    rw [List.mem_range] at hj
    obtain ⟨i, hi⟩ := List.getElem?_of_mem hf
    obtain ⟨j', -, hs⟩ := prev i f hi j hj
    generalize at' f (if j = 0 then nv - 1 else j - 1) = x at he hs
    generalize at' f j = y at he hs
    unfold sortEdge at he
    simp only at he
    split at he
    · rename_i hlt
      simp only [Prod.mk.injEq] at he
      rw [he.1, he.2] at hs
      rw [he.1, he.2] at hlt
      exact ⟨by omega, i, j', Or.inr hs⟩
    · rename_i hlt
      simp only [Prod.mk.injEq] at he
      rw [he.1, he.2] at hs
      rw [he.1, he.2] at hlt
      exact ⟨by omega, i, j', Or.inl hs⟩
  · rintro ⟨hab, i, j, hs⟩
    -- side `j` ends at vertex `j + 1`
    have key : ∀ c d, Side faces i j c d → ∃ f ∈ faces,
        sortEdge (c, d) ∈ (List.range nv).map (fun j =>
          sortEdge (at' f (if j = 0 then nv - 1 else j - 1), at' f j)) := by
      intro c d hs
      obtain ⟨-, hj⟩ := side_bounds hr hs
      obtain ⟨f, hf, h1, h2⟩ := hs
      have hl := hr f (List.mem_of_getElem? hf)
      refine ⟨f, List.mem_of_getElem? hf, ?_⟩
      rw [List.mem_map]
      refine ⟨(j + 1) % nv, by rw [List.mem_range]; exact Nat.mod_lt _ (by omega), ?_⟩
      rw [hl] at h2
      have e : (if (j + 1) % nv = 0 then nv - 1 else (j + 1) % nv - 1) = j := by
        by_cases hlast : j + 1 = nv
        · rw [hlast, Nat.mod_self]; simp; omega
        · rw [Nat.mod_eq_of_lt (by omega)]; simp
      simp only [e, at'_eq h1, at'_eq h2]
    rcases hs with hs | hs
    · obtain ⟨f, hf, hm⟩ := key _ _ hs
      refine ⟨f, hf, ?_⟩
      have : sortEdge (a, b) = (a, b) := by unfold sortEdge; simp only; rw [if_neg (by omega)]
      rwa [this] at hm
    · obtain ⟨f, hf, hm⟩ := key _ _ hs
      refine ⟨f, hf, ?_⟩
      have : sortEdge (b, a) = (a, b) := by
        unfold sortEdge
        simp only
        split
        · rfl
        · have : a = b := by omega
          rw [this]
      rwa [this] at hm

example : Rect 3 [[0, 1, 2], [1, 3, 2]] ∧
    (buildEdges 3 [[0, 1, 2], [1, 3, 2]]).length = 5 := by
  refine ⟨?_, by decide⟩
  intro f hf
  simp only [List.mem_cons, List.not_mem_nil, or_false] at hf
  rcases hf with rfl | rfl <;> rfl

end C27

/-! ## C28 -/

section C28
variable {nv : Nat} {faces : List (List Int)}

/-- Without a neighbour table in place, the boundary segments are the sides marked -1, each once,
in face order and in the direction of the face. -/
theorem C28_boundaries (hr : Rect nv faces) :
    ∃ ps : List (Nat × Nat), ps.Nodup ∧
      (∀ i j, (i, j) ∈ ps ↔ Entry (buildFaceFace nv faces) i j (-1)) ∧
      List.Forall₂ (fun p (s : Int × Int) => Side faces p.1 p.2 s.1 s.2) ps
        (buildBoundaries nv faces none) := by
  refine ⟨((scan nv faces).filter (fun x => (ffRun nv faces).table x.1 = -1)).map Prod.fst, ?_, ?_, ?_⟩
  · exact List.Nodup.sublist (List.Sublist.map _ List.filter_sublist) (scan_nodup nv faces)
  · intro i j
    rw [entry_iff, List.mem_map]
    constructor
    · rintro ⟨⟨⟨i', j'⟩, e⟩, hx, he⟩
      rw [List.mem_filter] at hx
      simp only [Prod.mk.injEq] at he
      obtain ⟨rfl, rfl⟩ := he
      obtain ⟨h1, h2⟩ := side_bounds hr ((mem_scan hr).mp hx.1)
      exact ⟨h1, h2, by simpa using hx.2⟩
    · rintro ⟨h1, h2, h3⟩
      obtain ⟨a, b, hs⟩ := side_exists hr h1 h2
      exact ⟨((i, j), (a, b)), by
        rw [List.mem_filter]; exact ⟨(mem_scan hr).mpr hs, by simpa using h3⟩, rfl⟩
  · unfold buildBoundaries
    rw [Option.getD_none, bounds_eq, List.forall₂_map_left_iff, List.forall₂_map_right_iff]
    rw [List.forall₂_same]
    rintro ⟨⟨i, j⟩, e⟩ hx
    exact (mem_scan hr).mp (List.mem_of_mem_filter hx)

/-- On meshes where an edge belongs to at most two sides, they are the sides whose edge belongs to
no other side. -/
theorem C28_boundaries_manifold (hr : Rect nv faces) (h2 : AtMostTwo faces) :
    ∃ ps : List (Nat × Nat), ps.Nodup ∧
      (∀ i j, (i, j) ∈ ps ↔ (i < faces.length ∧ j < nv) ∧
        ∀ k l, Shares faces i j k l → (k, l) = (i, j)) ∧
      List.Forall₂ (fun p (s : Int × Int) => Side faces p.1 p.2 s.1 s.2) ps
        (buildBoundaries nv faces none) := by
  obtain ⟨ps, h1, h3, h4⟩ := C28_boundaries hr
  refine ⟨ps, h1, fun i j => ?_, h4⟩
  rw [h3]
  constructor
  · intro h
    have hb := entry_iff.mp h
    exact ⟨⟨hb.1, hb.2.1⟩, (C26_boundary_iff hr h2 i j hb.1 hb.2.1).mp h⟩
  · rintro ⟨⟨hi, hj⟩, h⟩
    exact (C26_boundary_iff hr h2 i j hi hj).mpr h

/-- A neighbour table left from earlier faces (the `faces` setter keeps it) gives boundaries that
are not those of the current faces. -/
theorem C28_stale_table :
    buildBoundaries 3 [[0, 1, 2], [3, 4, 5]] (some (buildFaceFace 3 [[0, 1, 2], [1, 3, 2]]))
      ≠ buildBoundaries 3 [[0, 1, 2], [3, 4, 5]] none ∧
    (4, 5) ∈ buildBoundaries 3 [[0, 1, 2], [3, 4, 5]] none ∧
    (1, 2) ∉ buildBoundaries 3 [[0, 1, 2], [3, 4, 5]]
      (some (buildFaceFace 3 [[0, 1, 2], [1, 3, 2]])) := by decide

/-- C28 for every mesh and whatever neighbour table is in place: none, or the one of earlier faces. -/
def C28_statement : Prop :=
  ∀ (nv : Nat) (faces : List (List Int)) (table : Option (List (List Int))), Rect nv faces →
    (∀ t, table = some t → ∃ old, Rect nv old ∧ t = buildFaceFace nv old) →
    ∃ ps : List (Nat × Nat), ps.Nodup ∧
      (∀ i j, (i, j) ∈ ps ↔ Entry (buildFaceFace nv faces) i j (-1)) ∧
      List.Forall₂ (fun p (s : Int × Int) => Side faces p.1 p.2 s.1 s.2) ps
        (buildBoundaries nv faces table)

/-- C28 is false as listed: with the neighbour table of earlier faces, sides are missing. -/
theorem C28_refuted : ¬ C28_statement := by
  intro h
  have hr : ∀ c d e : Int, Rect 3 [[0, 1, 2], [c, d, e]] := by
    intro c d e f hf
    simp only [List.mem_cons, List.not_mem_nil, or_false] at hf
    rcases hf with rfl | rfl <;> rfl
  obtain ⟨ps, hn, hm, hp⟩ := h 3 [[0, 1, 2], [3, 4, 5]]
    (some (buildFaceFace 3 [[0, 1, 2], [1, 3, 2]])) (hr _ _ _)
    (by rintro t ⟨⟩; exact ⟨_, hr _ _ _, rfl⟩)
  obtain ⟨qs, hn', hm', hp'⟩ := C28_boundaries (hr 3 4 5)
  have e : ps.length = qs.length := by
    have : ps.Perm qs := (List.perm_ext_iff_of_nodup hn hn').mpr fun a => by
      rw [show a = (a.1, a.2) from rfl, hm, hm']
    exact this.length_eq
  rw [hp.length_eq, hp'.length_eq] at e
  revert e
  decide

example : buildBoundaries 3 [[0, 1, 2], [1, 3, 2]] none = [(0, 1), (2, 0), (1, 3), (3, 2)] := by
  decide

end C28

/-! ## C29 -/

section C29
variable {nv : Nat} {faces : List (List Int)}

/-- Facts used below: what the boundary list is, up to order. -/
theorem bounds_open (hr : Rect nv faces) {M : List (UTopo.S × UTopo.S)} {op : List UTopo.S}
    (I : UTopo.Inv (scan nv faces) (ffRun nv faces) M op) :
    (buildBoundaries nv faces none).Perm (op.map Prod.snd) := by
  unfold buildBoundaries
  rw [Option.getD_none, bounds_eq]
  refine List.Perm.map _ ?_
  have hnd : (scan nv faces).Nodup := List.Nodup.of_map _ (scan_nodup nv faces)
  have hnd' := I.perm.nodup_iff.mp hnd
  rw [List.nodup_append] at hnd'
  have h2 := hnd'.2.1
  rw [List.nodup_append] at h2
  rw [List.perm_ext_iff_of_nodup (hnd.filter _) h2.2.1]
  intro x
  rw [List.mem_filter]
  constructor
  · rintro ⟨hx, ht⟩
    exact (open_of_entry hr I hx).mp (by simpa using ht)
  · intro ho
    have hx : x ∈ scan nv faces := I.perm.mem_iff.mpr (by simp [ho])
    exact ⟨hx, by simpa using (open_of_entry hr I hx).mpr ho⟩

/-- Every node ends an even number of boundary segments, on any mesh. -/
theorem C29_even_degree (hr : Rect nv faces) (v : Int) :
    degree v (buildBoundaries nv faces none) % 2 = 0 := by
  obtain ⟨M, op, I⟩ := inv_ff nv faces
  rw [degree_perm v (bounds_open hr I)]
  have h1 := degree_scan_even v hr
  rw [degree_perm v (I.perm.map Prod.snd), List.map_append, List.map_append, degree_append,
    degree_append] at h1
  have h2 : degree v ((M.map Prod.fst).map Prod.snd) = degree v ((M.map Prod.snd).map Prod.snd) := by
    rw [← degree_sort, ← degree_sort v ((M.map Prod.snd).map Prod.snd)]
    congr 1
    simp only [List.map_map]
    exact List.map_congr_left fun m hm => I.same m hm
  omega

/-- So the boundary is made of closed loops: the segments, each walked once, can be arranged into
closed walks. -/
theorem C29_closed_loops (hr : Rect nv faces) : ClosedLoops (buildBoundaries nv faces none) :=
  closedLoops_of_even _ _ (le_refl _) (fun v => C29_even_degree hr v)

/-- If neighbouring faces are wound the same way (no two sides run along an edge in the same
direction), as many boundary segments arrive at a node as leave it. -/
theorem C29_oriented_balanced (hr : Rect nv faces)
    (ho : ∀ i j k l a b, Side faces i j a b → Side faces k l a b → (i, j) = (k, l)) (v : Int) :
    ((buildBoundaries nv faces none).map Prod.fst).count v
      = ((buildBoundaries nv faces none).map Prod.snd).count v := by
  obtain ⟨M, op, I⟩ := inv_ff nv faces
  have hp := bounds_open hr I
  rw [(hp.map Prod.fst).count_eq, (hp.map Prod.snd).count_eq]
  -- over all sides arrivals and departures agree
  have hall : (((scan nv faces).map Prod.snd).map Prod.fst).count v
      = (((scan nv faces).map Prod.snd).map Prod.snd).count v := by
    unfold scan
    rw [List.map_flatMap]
    have e : ∀ (fi : List Int × Nat),
        List.map Prod.snd (List.map (fun j => ((fi.2, j), side nv fi.1 j)) (List.range nv))
          = (List.range nv).map (side nv fi.1) := by
      intro fi; simp [Function.comp_def]
    simp only [e]
    have hz : ∀ x ∈ faces.zipIdx, x.1.length = nv := by
      rintro ⟨f, i⟩ hx
      rw [List.mem_zipIdx_iff_getElem?] at hx
      exact hr f (List.mem_of_getElem? hx)
    generalize faces.zipIdx = z at hz
    induction z with
    | nil => rfl
    | cons x z ih =>
      rw [List.flatMap_cons, List.map_append, List.map_append, List.count_append,
        List.count_append, ih (fun y hy => hz y (List.mem_cons_of_mem _ hy))]
      congr 1
      have hx := hz x (List.mem_cons_self ..)
      rw [List.map_map, List.map_map]
      have h1 : (List.range nv).map (Prod.fst ∘ side nv x.1) = x.1 := by
        apply List.ext_getElem?
        intro j
        rw [List.getElem?_map]
        by_cases hj : j < nv
        · rw [List.getElem?_range hj]
          simp only [Option.map_some, Function.comp]
          exact (side_spec hx hj).1.symm
        · rw [List.getElem?_eq_none (by simp; omega), List.getElem?_eq_none (by omega)]
          rfl
      have h2 : (List.range nv).map (Prod.snd ∘ side nv x.1) = x.1.rotate 1 := by
        apply List.ext_getElem?
        intro j
        rw [List.getElem?_map]
        by_cases hj : j < nv
        · rw [List.getElem?_range hj, List.getElem?_rotate (by omega)]
          simp only [Option.map_some, Function.comp]
          exact (side_spec hx hj).2.symm
        · rw [List.getElem?_eq_none (by simp; omega), List.getElem?_eq_none (by simp; omega)]
          rfl
      rw [h1, h2, (List.rotate_perm x.1 1).count_eq]
  rw [((I.perm.map Prod.snd).map Prod.fst).count_eq, ((I.perm.map Prod.snd).map Prod.snd).count_eq]
    at hall
  simp only [List.map_append, List.count_append] at hall
  -- the two sides of a pair run in opposite directions
  have hopp : ∀ m ∈ M, m.1.2.1 = m.2.2.2 ∧ m.1.2.2 = m.2.2.1 := by
    intro m hm
    have hs := I.same m hm
    have h1 : m.1 ∈ scan nv faces := I.perm.mem_iff.mpr (by
      simp only [List.mem_append, List.mem_map]; exact Or.inl ⟨m, hm, rfl⟩)
    have h2 : m.2 ∈ scan nv faces := I.perm.mem_iff.mpr (by
      simp only [List.mem_append, List.mem_map]; exact Or.inr (Or.inl ⟨m, hm, rfl⟩))
    have hdiff : m.1.1 ≠ m.2.1 := by
      have := (I.perm.map Prod.fst).nodup_iff.mp (scan_nodup nv faces)
      rw [List.map_append, List.nodup_append] at this
      exact this.2.2 _ (List.mem_map_of_mem (List.mem_map_of_mem hm)) _
        (List.mem_map_of_mem (List.mem_append_left _ (List.mem_map_of_mem hm)))
    obtain ⟨⟨⟨i, j⟩, a, b⟩, ⟨⟨k, l⟩, c, d⟩⟩ := m
    simp only at hs h1 h2 hdiff ⊢
    rcases (sortEdge_eq_iff a b c d).mp hs with ⟨rfl, rfl⟩ | h
    · exact absurd (ho i j k l a b ((mem_scan hr).mp h1) ((mem_scan hr).mp h2)) hdiff
    · exact h
  have e1 : ((M.map Prod.fst).map Prod.snd).map Prod.fst
      = ((M.map Prod.snd).map Prod.snd).map Prod.snd := by
    simp only [List.map_map]
    exact List.map_congr_left fun m hm => (hopp m hm).1
  have e2 : ((M.map Prod.fst).map Prod.snd).map Prod.snd
      = ((M.map Prod.snd).map Prod.snd).map Prod.fst := by
    simp only [List.map_map]
    exact List.map_congr_left fun m hm => (hopp m hm).2
  rw [e1, e2] at hall
  omega

example : degree 1 (buildBoundaries 3 [[0, 1, 2], [1, 3, 2]] none) = 2 ∧
    -- not a manifold: three faces on the edge (0, 1)
    degree 0 (buildBoundaries 3 [[0, 1, 2], [0, 1, 3], [0, 1, 4]] none) = 4 := by decide

end C29

/-! ## C30 -/

section C30
variable {nv : Nat} {faces : List (List Int)}

/-- The contract of a nearest-neighbour query: an existing index, none nearer. -/
def Nearest (query : List (Int × Int) → Int × Int → Nat) : Prop :=
  ∀ es p, es ≠ [] → ∃ q, es[query es p]? = some q ∧
    ∀ q' ∈ es, (q.1 - p.1) ^ 2 + (q.2 - p.2) ^ 2 ≤ (q'.1 - p.1) ^ 2 + (q'.2 - p.2) ^ 2

/-- Entry `(i, j)` is the index of an edge joining the ends of side `j` of face `i`, whenever there
is one; edges may be listed in any order and direction. -/
theorem C30_face_edges (query : List (Int × Int) → Int × Int → Nat) (hq : Nearest query)
    (hr : Rect nv faces) (edges : List (Int × Int)) (i j : Nat) (a b : Int)
    (hs : Side faces i j a b) (he : (a, b) ∈ edges ∨ (b, a) ∈ edges) :
    ∃ row k c d, (buildFaceEdge query nv faces edges)[i]? = some row ∧ row[j]? = some k ∧
      edges[k]? = some (c, d) ∧ SameEdge a b c d := by
  obtain ⟨-, hj⟩ := side_bounds hr hs
  obtain ⟨f, hf, h1, h2⟩ := hs
  have hl := hr f (List.mem_of_getElem? hf)
  rw [hl] at h2
  -- the query for the rolled position is the query for this side
  have e : (if (j + 1) % nv = 0 then nv - 1 else (j + 1) % nv - 1) = j := by
    by_cases hlast : j + 1 = nv
    · rw [hlast, Nat.mod_self]; simp; omega
    · rw [Nat.mod_eq_of_lt (by omega)]; simp
  have hmem : sortEdge (b, a) ∈ edges.map sortEdge := by
    rcases he with h | h
    · have : sortEdge (b, a) = sortEdge (a, b) :=
        (sortEdge_eq_iff b a a b).mpr (Or.inr ⟨rfl, rfl⟩)
      rw [this]
      exact List.mem_map_of_mem h
    · exact List.mem_map_of_mem h
  have hne : edges.map sortEdge ≠ [] := fun h => by rw [h] at hmem; simp at hmem
  obtain ⟨q, hq1, hq2⟩ := hq (edges.map sortEdge) (sortEdge (b, a)) hne
  have h0 := hq2 _ hmem
  have hqe : q = sortEdge (b, a) := by
    have z : (q.1 - (sortEdge (b, a)).1) ^ 2 + (q.2 - (sortEdge (b, a)).2) ^ 2 ≤ 0 := by
      simpa using h0
    have s1 := sq_nonneg (q.1 - (sortEdge (b, a)).1)
    have s2 := sq_nonneg (q.2 - (sortEdge (b, a)).2)
    have z1 : (q.1 - (sortEdge (b, a)).1) ^ 2 = 0 := by omega
    have z2 : (q.2 - (sortEdge (b, a)).2) ^ 2 = 0 := by omega
    rw [sq_eq_zero_iff] at z1 z2
    exact Prod.ext (by omega) (by omega)
  rw [List.getElem?_map] at hq1
  cases hk : edges[query (edges.map sortEdge) (sortEdge (b, a))]? with
  | none => rw [hk] at hq1; simp at hq1
  | some cd =>
    rw [hk] at hq1
    simp only [Option.map_some, Option.some.injEq] at hq1
    refine ⟨((List.range nv).map (fun k => query (edges.map sortEdge)
        (sortEdge (at' f k, at' f (if k = 0 then nv - 1 else k - 1))))).rotate 1,
      query (edges.map sortEdge) (sortEdge (b, a)), cd.1, cd.2, ?_, ?_, hk, ?_⟩
    · unfold buildFaceEdge
      rw [List.getElem?_map, hf]
      rfl
    · rw [List.getElem?_rotate (by simpa using hj)]
      simp only [List.length_map, List.length_range]
      rw [List.getElem?_map, List.getElem?_range (Nat.mod_lt _ (by omega))]
      simp only [Option.map_some, e, at'_eq h1, at'_eq h2]
    · have : sortEdge (cd.1, cd.2) = sortEdge (b, a) := hq1.trans hqe
      have := (sortEdge_eq_iff _ _ _ _).mp this
      unfold SameEdge at this ⊢
      omega

/-- Squared distance between two integer pairs. -/
def dist2 (p q : Int × Int) : Int := (q.1 - p.1) ^ 2 + (q.2 - p.2) ^ 2

/-- A nearest-neighbour query exists: the first index of least distance. -/
def firstNearest (es : List (Int × Int)) (p : Int × Int) : Nat :=
  es.findIdx (fun q => es.all (fun q' => dist2 p q ≤ dist2 p q'))

theorem exists_least (p : Int × Int) (es : List (Int × Int)) (h : es ≠ []) :
    ∃ q ∈ es, ∀ q' ∈ es, dist2 p q ≤ dist2 p q' := by
  induction es with
  | nil => exact absurd rfl h
  | cons a es ih =>
    by_cases hes : es = []
    · subst hes
      exact ⟨a, by simp, by simp⟩
    · obtain ⟨q, hq, hle⟩ := ih hes
      by_cases hc : dist2 p a ≤ dist2 p q
      · refine ⟨a, by simp, fun q' hq' => ?_⟩
        rcases List.mem_cons.mp hq' with rfl | hq'
        · exact le_refl _
        · exact hc.trans (hle q' hq')
      · refine ⟨q, by simp [hq], fun q' hq' => ?_⟩
        rcases List.mem_cons.mp hq' with rfl | hq'
        · exact le_of_lt (not_le.mp hc)
        · exact hle q' hq'

/-- The contract is met by it, and the table comes out right on two triangles. -/
example : Nearest firstNearest ∧
    buildFaceEdge firstNearest 3 [[0, 1, 2], [1, 3, 2]] [(2, 0), (1, 0), (2, 3), (1, 2), (3, 1)]
      = [[1, 3, 0], [4, 2, 3]] := by
  refine ⟨?_, by decide⟩
  intro es p h
  obtain ⟨q, hq, hle⟩ := exists_least p es h
  have hlt : firstNearest es p < es.length := by
    unfold firstNearest
    rw [List.findIdx_lt_length]
    exact ⟨q, hq, by simpa [List.all_eq_true] using hle⟩
  refine ⟨es[firstNearest es p], List.getElem?_eq_getElem hlt, fun q' hq' => ?_⟩
  have := List.findIdx_getElem (w := hlt) (p := fun q => es.all (fun q' => dist2 p q ≤ dist2 p q'))
  simp only [List.all_eq_true, decide_eq_true_eq] at this
  exact this q' hq'

end C30

/-! ## C35 -/

section C35

/-- What the sizes say about where data belong. -/
def Fits (nodes : Nat) (faces boundaries : Option Nat) (shape : List Nat) : Where → Prop
  | .node => shape.getLast? = some nodes
  | .face => ∃ n, faces = some n ∧ shape.getLast? = some n
  | .boundary => ∃ n, boundaries = some n ∧ shape.getLast? = some n

/-- Nodes win over faces, faces over boundaries; None when nothing fits. -/
theorem C35_infer_location (nodes : Nat) (faces boundaries : Option Nat) (shape : List Nat) :
    (inferLocation nodes faces boundaries shape = some .node ↔
      Fits nodes faces boundaries shape .node) ∧
    (inferLocation nodes faces boundaries shape = some .face ↔
      Fits nodes faces boundaries shape .face ∧ ¬ Fits nodes faces boundaries shape .node) ∧
    (inferLocation nodes faces boundaries shape = some .boundary ↔
      Fits nodes faces boundaries shape .boundary ∧ ¬ Fits nodes faces boundaries shape .node ∧
        ¬ Fits nodes faces boundaries shape .face) ∧
    (inferLocation nodes faces boundaries shape = none ↔
      ∀ w, ¬ Fits nodes faces boundaries shape w) := by
  have hall : (∀ w, ¬ Fits nodes faces boundaries shape w) ↔
      (¬ Fits nodes faces boundaries shape .node ∧ ¬ Fits nodes faces boundaries shape .face ∧
        ¬ Fits nodes faces boundaries shape .boundary) :=
    ⟨fun h => ⟨h _, h _, h _⟩, fun h w => by cases w; exacts [h.1, h.2.1, h.2.2]⟩
  rw [hall]
  unfold Fits inferLocation
  cases shape.getLast? with
  | none => simp
  | some size =>
    by_cases h1 : size = nodes
    · simp [h1]
    · by_cases h2 : faces = some size
      · simp [h1, h2]
      · by_cases h3 : boundaries = some size
        · have : ¬ ∃ n, faces = some n ∧ size = n := by
            rintro ⟨n, hn, rfl⟩; exact h2 hn
          simp [h1, h2, h3]
        · simp [h1, h2, h3]

example : inferLocation 5 (some 4) (some 3) [2, 4] = some .face ∧
    inferLocation 5 (some 5) none [5] = some .node ∧ inferLocation 5 none none [] = none := by decide

end C35

end Verif
