import Verif.Model.UFlex
import Verif.Props.UTopo

/-!
# C206, C207: flexible meshes
-/

set_option autoImplicit false

namespace Verif
open UTopo Spec UFlex

/-- The table of a flexible mesh: every face padded with masked entries to `nv`. -/
def padded (nv : Nat) (f : List Int) : List (Option Int) :=
  f.map some ++ List.replicate (nv - f.length) none

/-- The table of a mesh whose faces have at most `nv` vertices. -/
def flexible (nv : Nat) (faces : List (List Int)) : List (List (Option Int)) := faces.map (padded nv)

/-! ## C206 -/

/-- Entry `(i, j)` of the table is an edge that joins `a` and `b`. -/
def NamesEdge (t : List (List (Option Nat))) (edges : List (Int × Int)) (i j : Nat) (a b : Int) : Prop :=
  ∃ row k c d, t[i]? = some row ∧ row[j]? = some (some k) ∧ edges[k]? = some (c, d) ∧ SameEdge a b c d

/-- C206 as stated: for every side of every face, the entry in its place is the edge. -/
def C206_statement : Prop :=
  ∀ (query : List (Int × Int) → Int × Int → Nat), Nearest query →
    ∀ (nv : Nat) (faces : List (List Int)) (edges : List (Int × Int)), (∀ f ∈ faces, f.length ≤ nv) →
      ∀ i j a b, Side faces i j a b → ((a, b) ∈ edges ∨ (b, a) ∈ edges) →
        NamesEdge (buildFaceEdgeM query nv (flexible nv faces) edges) edges i j a b

theorem atM_padded (nv : Nat) (f : List Int) (k : Nat) : atM (padded nv f) k = f[k]? := by
  unfold atM padded
  rw [List.getElem?_append]
  by_cases h : k < f.length
  · simp [h]
  · rw [if_neg (by simpa using h), List.getElem?_eq_none (show f.length ≤ k by omega),
      List.getElem?_replicate]
    split <;> rfl

/-- A nearest edge of an edge that is there is that edge. -/
theorem nearest_found (query : List (Int × Int) → Int × Int → Nat) (hq : Nearest query)
    (edges : List (Int × Int)) (a b : Int) (he : (a, b) ∈ edges ∨ (b, a) ∈ edges) :
    ∃ c d, edges[query (edges.map sortEdge) (sortEdge (b, a))]? = some (c, d) ∧ SameEdge a b c d := by
  obtain ⟨row, k, c, d, h1, h2, h3, h4⟩ := C30_face_edges (nv := 2) (faces := [[a, b]]) query hq
    (by intro f hf; rw [List.mem_singleton] at hf; rw [hf]; rfl) edges 0 0 a b ⟨[a, b], rfl, rfl, rfl⟩ he
  simp only [buildFaceEdge, List.map_cons, List.map_nil, List.getElem?_cons_zero, Option.some.injEq] at h1
  subst h1
  have e : ((List.range 2).map (fun k => query (edges.map sortEdge)
      (sortEdge (at' [a, b] k, at' [a, b] (if k = 0 then 2 - 1 else k - 1))))).rotate 1 =
      [query (edges.map sortEdge) (sortEdge (b, a)), query (edges.map sortEdge) (sortEdge (a, b))] := rfl
  rw [e] at h2
  simp only [List.getElem?_cons_zero, Option.some.injEq] at h2
  subst h2
  exact ⟨c, d, h3, h4⟩

/-- The entries of the table. -/
theorem buildFaceEdgeM_entry (query : List (Int × Int) → Int × Int → Nat) (nv : Nat)
    (faces : List (List Int)) (edges : List (Int × Int)) (i j : Nat) (f : List Int)
    (hf : faces[i]? = some f) (hj : j < nv) :
    ∃ row, (buildFaceEdgeM query nv (flexible nv faces) edges)[i]? = some row ∧
      row[j]? = some (match f[if j + 1 < nv then j + 1 else 0]?, f[j]? with
        | some a, some b => some (query (edges.map sortEdge) (sortEdge (a, b)))
        | _, _ => none) := by
  refine ⟨_, by simp only [buildFaceEdgeM, flexible, List.getElem?_map, hf, Option.map_some]; rfl, ?_⟩
  rw [List.getElem?_rotate (by simpa using hj)]
  simp only [List.length_map, List.length_range, atM_padded]
  rw [List.getElem?_map, List.getElem?_range (Nat.mod_lt _ (by omega))]
  simp only [Option.map_some]
  have e1 : (j + 1) % nv = if j + 1 < nv then j + 1 else 0 := by
    by_cases h : j + 1 < nv
    · rw [if_pos h, Nat.mod_eq_of_lt h]
    · rw [if_neg h, show j + 1 = nv by omega, Nat.mod_self]
  have e2 : (if (j + 1) % nv = 0 then nv - 1 else (j + 1) % nv - 1) = j := by
    rw [e1]
    by_cases h : j + 1 < nv
    · rw [if_pos h]; simp
    · rw [if_neg h]; simp; omega
  rw [e2, e1]
  rfl

/-- C206 for all sides but the last one of faces with fewer vertices than the table has columns; that
one is missing, see `C206_closing`. -/
theorem C206_partial (query : List (Int × Int) → Int × Int → Nat) (hq : Nearest query) (nv : Nat)
    (faces : List (List Int)) (edges : List (Int × Int)) (hl : ∀ f ∈ faces, f.length ≤ nv)
    (i j : Nat) (a b : Int) (hs : Side faces i j a b) (he : (a, b) ∈ edges ∨ (b, a) ∈ edges)
    (hj : ∀ f, faces[i]? = some f → j + 1 < f.length ∨ f.length = nv) :
    NamesEdge (buildFaceEdgeM query nv (flexible nv faces) edges) edges i j a b := by
  obtain ⟨f, hf, h1, h2⟩ := hs
  have hlen := hl f (List.mem_of_getElem? hf)
  have hjf : j < f.length := (List.getElem?_eq_some_iff.mp h1).1
  obtain ⟨row, hr, hv⟩ := buildFaceEdgeM_entry query nv faces edges i j f hf (by omega)
  have e : (if j + 1 < nv then j + 1 else 0) = (j + 1) % f.length := by
    rcases hj f hf with h | h
    · rw [if_pos (by omega), Nat.mod_eq_of_lt h]
    · by_cases h' : j + 1 < nv
      · rw [if_pos h', Nat.mod_eq_of_lt (by omega)]
      · rw [if_neg h', show j + 1 = f.length by omega, Nat.mod_self]
  rw [e, h1, h2] at hv
  obtain ⟨c, d, h3, h4⟩ := nearest_found query hq edges a b he
  exact ⟨row, _, c, d, hr, hv, h3, h4⟩

/-- C206, what happens instead: in every face with fewer vertices than columns the entry of the last
side, from the last vertex back to the first, is masked, as are the entries after it. -/
theorem C206_closing (query : List (Int × Int) → Int × Int → Nat) (nv : Nat) (faces : List (List Int))
    (edges : List (Int × Int)) (i j : Nat) (f : List Int) (hf : faces[i]? = some f)
    (hn : f.length < nv) (hj : f.length ≤ j + 1) (hj' : j < nv) :
    ∃ row, (buildFaceEdgeM query nv (flexible nv faces) edges)[i]? = some row ∧ row[j]? = some none := by
  obtain ⟨row, hr, hv⟩ := buildFaceEdgeM_entry query nv faces edges i j f hf hj'
  refine ⟨row, hr, ?_⟩
  rw [hv]
  by_cases h : j + 1 < nv
  · rw [if_pos h, List.getElem?_eq_none hj]
  · rw [if_neg h, List.getElem?_eq_none (show f.length ≤ j by omega)]
    split
    · rename_i hc; cases hc
    · rfl

/-- The index of a nearest edge, by looking at all of them. -/
def exSearch (es : List (Int × Int)) (p : Int × Int) : Nat :=
  let d := es.map fun q => (q.1 - p.1) ^ 2 + (q.2 - p.2) ^ 2
  d.idxOf (d.foldl min (d.headD 0))

theorem exSearch_nearest : Nearest exSearch := by
  intro es p hne
  have low : ∀ (l : List Int) (x : Int), (l.foldl min x ≤ x ∧ ∀ y ∈ l, l.foldl min x ≤ y) ∧
      (l.foldl min x = x ∨ l.foldl min x ∈ l) := by
    intro l
    induction l with
    | nil => intro x; simp
    | cons z l ih =>
      intro x
      obtain ⟨⟨h1, h2⟩, h3⟩ := ih (min x z)
      simp only [List.foldl_cons, List.mem_cons]
      refine ⟨⟨by omega, ?_⟩, ?_⟩
      · rintro y (rfl | hy)
        · omega
        · exact h2 y hy
      · rcases h3 with h3 | h3
        · rw [h3]
          rcases le_total x z with h | h
          · exact Or.inl (min_eq_left h)
          · exact Or.inr (Or.inl (min_eq_right h))
        · exact Or.inr (Or.inr h3)
  cases es with
  | nil => exact absurd rfl hne
  | cons e es =>
    let f : Int × Int → Int := fun q => (q.1 - p.1) ^ 2 + (q.2 - p.2) ^ 2
    obtain ⟨⟨h1, h2⟩, h3⟩ := low ((e :: es).map f) (f e)
    have hm : ((e :: es).map f).foldl min (f e) ∈ (e :: es).map f := by
      rcases h3 with h3 | h3
      · rw [h3]; simp
      · exact h3
    have hi := List.idxOf_lt_length_of_mem hm
    have hi' : List.idxOf (((e :: es).map f).foldl min (f e)) ((e :: es).map f) < (e :: es).length := by
      simpa using hi
    refine ⟨(e :: es)[List.idxOf (((e :: es).map f).foldl min (f e)) ((e :: es).map f)], ?_, ?_⟩
    · exact List.getElem?_eq_getElem hi'
    · intro q' hq'
      have e1 : f ((e :: es)[List.idxOf (((e :: es).map f).foldl min (f e)) ((e :: es).map f)]) =
          ((e :: es).map f).foldl min (f e) := by
        have := List.getElem_idxOf hi
        rw [List.getElem_map] at this
        exact this
      have e2 := h2 (f q') (List.mem_map_of_mem hq')
      rw [← e1] at e2
      exact e2

/-- C206 is false as listed: a square and a triangle with all their edges. -/
theorem C206_refuted : ¬ C206_statement := by
  intro h
  obtain ⟨row, k, c, d, h1, h2, -⟩ := h exSearch exSearch_nearest 4 [[0, 1, 2, 3], [1, 4, 2]]
    [(0, 1), (1, 2), (2, 3), (0, 3), (1, 4), (2, 4)] (by decide) 1 2 2 1 ⟨[1, 4, 2], rfl, rfl, rfl⟩
    (Or.inr (by decide))
  obtain ⟨row', h1', h2'⟩ := C206_closing exSearch 4 [[0, 1, 2, 3], [1, 4, 2]]
    [(0, 1), (1, 2), (2, 3), (0, 3), (1, 4), (2, 4)] 1 2 [1, 4, 2] rfl (by decide) (by decide) (by decide)
  rw [h1] at h1'
  cases h1'
  rw [h2] at h2'
  cases h2'

/-- The table of that mesh. -/
example : buildFaceEdgeM exSearch 4 (flexible 4 [[0, 1, 2, 3], [1, 4, 2]])
    [(0, 1), (1, 2), (2, 3), (0, 3), (1, 4), (2, 4)] =
    [[some 0, some 1, some 2, some 3], [some 4, some 5, none, none]] := by decide +kernel

/-! ## C207 -/

/-- C207 as stated: neighbours, edges and boundaries can be built, and the edges are the sides of the
faces. -/
def C207_statement : Prop :=
  ∀ (nv : Nat) (faces : List (List Int)), (∀ f ∈ faces, 3 ≤ f.length ∧ f.length ≤ nv) →
    (∃ t, buildFaceFaceM nv (flexible nv faces) = .ok t) ∧
    (∃ bs, buildBoundariesM nv (flexible nv faces) = .ok bs) ∧
    ∃ es, buildEdgesM nv (flexible nv faces) = .ok es ∧ es.Nodup ∧
      ∀ a b, (a, b) ∈ es ↔ a ≤ b ∧ ∃ i j, Side faces i j a b ∨ Side faces i j b a

theorem padded_full (nv : Nat) (f : List Int) (h : f.length = nv) : padded nv f = f.map some := by
  simp [padded, h]

theorem atM_some (f : List Int) (k : Nat) (h : k < f.length) : atM (f.map some) k = some (at' f k) := by
  simp [atM, at', h]

theorem sideM_some (nv : Nat) (f : List Int) (hl : f.length = nv) (j : Nat) (hj : j < nv) :
    sideM nv (f.map some) j = (some (side nv f j).1, some (side nv f j).2) := by
  unfold sideM side
  split
  · rw [atM_some f j (by omega), atM_some f (j + 1) (by omega)]
  · rw [atM_some f (nv - 1) (by omega), atM_some f 0 (by omega)]

theorem ffLoop_some (xs : List ((Nat × Nat) × (Int × Int))) : ∀ s : FF,
    ffLoop s (xs.map fun x => (x.1, (some x.2.1, some x.2.2))) =
      .ok (xs.foldl (fun s x => ffStep s x.1 x.2) s) := by
  induction xs with
  | nil => intro s; rfl
  | cons x xs ih => intro s; simp only [List.map_cons, ffLoop, hashed, List.foldl_cons]; exact ih _

theorem scanM_some (nv : Nat) (faces : List (List Int)) (hr : Rect nv faces) :
    scanM nv (flexible nv faces) = (scan nv faces).map fun x => (x.1, (some x.2.1, some x.2.2)) := by
  unfold scanM scan flexible
  rw [List.zipIdx_map, List.flatMap_map, List.map_flatMap]
  apply List.flatMap_congr
  rintro ⟨f, i⟩ hf
  have hl : f.length = nv := hr f (List.fst_mem_of_mem_zipIdx hf)
  rw [List.map_map]
  apply List.map_congr_left
  intro j hj
  simp only [Function.comp, Prod.map, id, padded_full nv f hl]
  rw [sideM_some nv f hl j (List.mem_range.mp hj)]

/-- Without masked entries the neighbours are those of the unmasked table. -/
theorem buildFaceFaceM_full (nv : Nat) (faces : List (List Int)) (hr : Rect nv faces) :
    buildFaceFaceM nv (flexible nv faces) = .ok (buildFaceFace nv faces) := by
  unfold buildFaceFaceM
  rw [scanM_some nv faces hr, ffLoop_some]
  simp [buildFaceFace, ffRun, flexible]

theorem hashed_bad (e : Option Int × Option Int) (h : e.1 = none ∨ e.2 = none) :
    hashed e = .error .typeError := by
  obtain ⟨a, b⟩ := e
  rcases h with h | h
  · simp only at h; subst h; rfl
  · simp only at h; subst h; cases a <;> rfl

theorem hashed_cases (e : Option Int × Option Int) :
    hashed e = .error .typeError ∨ ∃ a, hashed e = .ok a := by
  obtain ⟨_ | a, _ | b⟩ := e
  · exact Or.inl rfl
  · exact Or.inl rfl
  · exact Or.inl rfl
  · exact Or.inr ⟨_, rfl⟩

theorem ffLoop_bad (xs : List ((Nat × Nat) × (Option Int × Option Int)))
    (h : ∃ x ∈ xs, hashed x.2 = .error .typeError) : ∀ s, ffLoop s xs = .error .typeError := by
  induction xs with
  | nil => obtain ⟨x, hx, -⟩ := h; cases hx
  | cons y ys ih =>
    intro s
    unfold ffLoop
    rcases hashed_cases y.2 with hy | ⟨a, hy⟩
    · rw [hy]
    · rw [hy]
      obtain ⟨x, hx, hb⟩ := h
      rcases List.mem_cons.mp hx with rfl | hx
      · have := hb.symm.trans hy; cases this
      · exact ih ⟨x, hx, hb⟩ _

theorem edges_bad (xs : List (Option Int × Option Int))
    (h : ∃ x ∈ xs, hashed x = .error .typeError) :
    DepthM.mapE (fun e => (hashed e).map sortEdge) xs = .error .typeError := by
  induction xs with
  | nil => obtain ⟨x, hx, -⟩ := h; cases hx
  | cons y ys ih =>
    unfold DepthM.mapE
    rcases hashed_cases y with hy | ⟨a, hy⟩
    · rw [hy]; rfl
    · rw [hy]
      obtain ⟨x, hx, hb⟩ := h
      rcases List.mem_cons.mp hx with rfl | hx
      · have := hb.symm.trans hy; cases this
      · rw [ih ⟨x, hx, hb⟩]; rfl

theorem edges_good (xs : List (Int × Int)) :
    DepthM.mapE (fun e => (hashed e).map sortEdge) (xs.map fun e => (some e.1, some e.2)) =
      .ok (xs.map sortEdge) := by
  induction xs with
  | nil => rfl
  | cons y ys ih =>
    rw [List.map_cons]
    unfold DepthM.mapE
    rw [ih]
    rfl

/-- C207, what happens instead: with a single face of fewer vertices than columns, nothing can be
built. -/
theorem C207_refused (nv : Nat) (faces : List (List Int)) (f : List Int) (hf : f ∈ faces)
    (hn : f.length < nv) :
    buildFaceFaceM nv (flexible nv faces) = .error .typeError ∧
    buildBoundariesM nv (flexible nv faces) = .error .typeError ∧
    buildEdgesM nv (flexible nv faces) = .error .typeError := by
  have h1 : buildFaceFaceM nv (flexible nv faces) = .error .typeError := by
    unfold buildFaceFaceM
    rw [ffLoop_bad]
    obtain ⟨i, hi⟩ := List.getElem?_of_mem (List.mem_map_of_mem (f := padded nv) hf)
    refine ⟨((i, f.length), sideM nv (padded nv f) f.length), ?_, hashed_bad _ ?_⟩
    · unfold scanM
      rw [List.mem_flatMap]
      refine ⟨(padded nv f, i), ?_, List.mem_map.mpr ⟨f.length, by simpa using hn, rfl⟩⟩
      rw [List.mem_zipIdx_iff_getElem?]
      exact hi
    · left
      unfold sideM
      split
      · simp [atM_padded]
      · rw [atM_padded]; simp; omega
  refine ⟨h1, by unfold buildBoundariesM; rw [h1], ?_⟩
  unfold buildEdgesM
  rw [edges_bad]
  refine ⟨(atM (padded nv f) (if f.length = 0 then nv - 1 else f.length - 1), atM (padded nv f) f.length),
    ?_, hashed_bad _ (Or.inr (by simp [atM_padded]))⟩
  rw [List.mem_flatMap]
  exact ⟨padded nv f, List.mem_map_of_mem hf, List.mem_map.mpr ⟨f.length, by simpa using hn, rfl⟩⟩

/-- C207 for meshes all of whose faces have as many vertices as the table has columns; others are
missing, see `C207_refused`. Neighbours and boundaries are those of C26 and C28. -/
theorem C207_partial (nv : Nat) (faces : List (List Int)) (hr : ∀ f ∈ faces, f.length = nv) :
    (∃ t, buildFaceFaceM nv (flexible nv faces) = .ok t ∧
      ∀ i j v, Entry t i j v → v = -1 ∨ ∃ k l : Nat, v = k ∧ (k, l) ≠ (i, j) ∧ Shares faces i j k l ∧
        Entry t k l i) ∧
    (∃ bs, buildBoundariesM nv (flexible nv faces) = .ok bs ∧
      (AtMostTwo faces → ∃ ps : List (Nat × Nat), ps.Nodup ∧
        (∀ i j, (i, j) ∈ ps ↔ (i < faces.length ∧ j < nv) ∧
          ∀ k l, Shares faces i j k l → (k, l) = (i, j)) ∧
        List.Forall₂ (fun p (s : Int × Int) => Side faces p.1 p.2 s.1 s.2) ps bs)) ∧
    ∃ es, buildEdgesM nv (flexible nv faces) = .ok es ∧ es.Nodup ∧
      ∀ a b, (a, b) ∈ es ↔ a ≤ b ∧ ∃ i j, Side faces i j a b ∨ Side faces i j b a := by
  have hff := buildFaceFaceM_full nv faces hr
  have hback : (flexible nv faces).map (fun f => f.map (fun v => v.getD 0)) = faces := by
    unfold flexible
    rw [List.map_map]
    conv_rhs => rw [← List.map_id faces]
    apply List.map_congr_left
    intro f hf
    simp [padded_full nv f (hr f hf), Function.comp_def]
  refine ⟨⟨_, hff, fun i j v h => C26_neighbours hr i j v h⟩, ?_, ?_⟩
  · refine ⟨buildBoundaries nv faces none, ?_, fun h2 => C28_boundaries_manifold hr h2⟩
    unfold buildBoundariesM
    rw [hff, hback]
    rfl
  · obtain ⟨h1, h2⟩ := C27_edges (nv := nv) (faces := faces) hr
    refine ⟨buildEdges nv faces, ?_, h1, h2⟩
    unfold buildEdgesM
    have e : ((flexible nv faces).flatMap (fun f => (List.range nv).map
        (fun j => (atM f (if j = 0 then nv - 1 else j - 1), atM f j)))) =
        (faces.flatMap (fun f => (List.range nv).map (fun j =>
          (at' f (if j = 0 then nv - 1 else j - 1), at' f j)))).map fun e => (some e.1, some e.2) := by
      unfold flexible
      rw [List.flatMap_map, List.map_flatMap]
      apply List.flatMap_congr
      intro f hf
      have hl := hr f hf
      rw [List.map_map]
      apply List.map_congr_left
      intro j hj
      have hj := List.mem_range.mp hj
      rw [padded_full nv f hl, atM_some f j (by omega), atM_some f _ (by split <;> omega)]
      rfl
    rw [e, edges_good]
    simp only [buildEdges, List.map_flatMap, List.map_map]
    rfl

/-- C207 is false as listed: a square and a triangle. -/
theorem C207_refuted : ¬ C207_statement := by
  intro h
  obtain ⟨⟨t, ht⟩, -⟩ := h 4 [[0, 1, 2, 3], [1, 4, 2]] (by decide)
  have := (C207_refused 4 [[0, 1, 2, 3], [1, 4, 2]] [1, 4, 2] (by decide) (by decide)).1
  rw [this] at ht
  cases ht

/-- The hypotheses of `C207_partial` hold of two squares. -/
example : ∃ t, buildFaceFaceM 4 (flexible 4 [[0, 1, 2, 3], [1, 4, 5, 2]]) = .ok t :=
  let ⟨t, ht, _⟩ := (C207_partial 4 [[0, 1, 2, 3], [1, 4, 5, 2]] (by decide)).1
  ⟨t, ht⟩

example : buildFaceFaceM 4 (flexible 4 [[0, 1, 2, 3], [1, 4, 5, 2]]) =
    .ok [[-1, 1, -1, -1], [-1, -1, -1, 0]] := by decide +kernel

end Verif
