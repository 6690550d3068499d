import Verif.Lemmas.UIO
import Mathlib.Algebra.Field.Rat
import Mathlib.Algebra.Order.Ring.Rat

/-!
# C36 and C60: saving and loading unstructured grids, one-based tables
-/

set_option autoImplicit false

namespace Verif
open UIO

/-! ## C36 -/

section C36
variable {K : Type}

/-- A grid that can be saved: faces index nodes (as the `faces` setter leaves them), and
coordinates belong to something and have its length. -/
structure Valid (g : UGrid K) : Prop where
  faces : ∀ t, g.faces = some t → t.flatten ≠ [] ∧ ZeroBased g.nodes.length t
  faceCoords : ∀ c, g.faceCoords = some c → ∃ t, g.faces = some t ∧ c.length = t.length
  edgeCoords : ∀ c, g.edgeCoords = some c → ∃ t, g.edges = some t ∧ c.length = t.length
  boundaryCoords : ∀ c, g.boundaryCoords = some c → ∃ t, g.boundaries = some t ∧ c.length = t.length

theorem getD_lt {l : List Int} {i : Nat} (h : i < l.length) : l.getD i 0 = l[i] := by
  simp [List.getD, h]

/-- C36 as listed: what is loaded is what was saved. -/
def C36_statement (K : Type) : Prop :=
  ∀ g : UGrid K, Valid g → ∃ nc, save g = .ok nc ∧ ∀ mem, load mem nc = .ok g

theorem optCoords_ok {l : Loc} {t : Option (List (List Int))} {cs : Option (List (K × K))}
    (h : ∀ c, cs = some c → ∃ r, t = some r ∧ c.length = r.length) :
    optCoords l (t.map List.length) cs = .ok (optC l cs) := by
  cases cs with
  | none => simp [optCoords, optC]
  | some c =>
    obtain ⟨r, hr, hl⟩ := h c rfl
    simp [optCoords, optC, hr, hl]

theorem save_valid (g : UGrid K) (h : Valid g) : save g = .ok (saved g) := by
  simp only [save, optCoords_ok h.faceCoords, optCoords_ok h.edgeCoords,
    optCoords_ok h.boundaryCoords, saved]

/-- What is loaded, for any number of faces, edges and boundaries, when the faces read are
accepted. -/
theorem load_saved (mem : Loc → Nat → K × K) (g : UGrid K) (h : Valid g) (f' : Option (List (List Int)))
    (hf : ∀ t, g.faces = some t → ∃ t', f' = some t' ∧
      UTopo.setFaces g.nodes.length (if t.length = 3 then transpose t else t) = .ok t')
    (hn : g.faces = none → f' = none) :
    load mem (saved g) = .ok
      { nodes := g.nodes, faces := f',
        edges := g.edges.map (fun t => if t.length = 2 then transpose t else t),
        boundaries := g.boundaries.map (fun t => if t.length = 2 then transpose t else t),
        faceCoords := g.faceCoords, edgeCoords := g.edgeCoords } := by
  have hfc : g.faceCoords.isSome → g.faces.isSome := by
    intro hs
    obtain ⟨c, hc⟩ := Option.isSome_iff_exists.1 hs
    obtain ⟨t, ht, _⟩ := h.faceCoords c hc
    simp [ht]
  have hec : g.edgeCoords.isSome → g.edges.isSome := by
    intro hs
    obtain ⟨c, hc⟩ := Option.isSome_iff_exists.1 hs
    obtain ⟨t, ht, _⟩ := h.edgeCoords c hc
    simp [ht]
  simp only [load, loadMesh, filter_saved, readCoords_node, readCoords_face mem g hfc, readCoords_edge mem g hec,
    readCoords_boundary, readTable_faces, readTable_links, readTable_boundaries, readTable_edges]
  cases hfs : g.faces with
  | none => simp [hn hfs]
  | some t =>
    obtain ⟨t', h1, h2⟩ := hf t hfs
    simp [h1, h2]

/-- C36, what holds: with a number of faces other than 3 and numbers of edges and boundaries other
than 2, nodes, faces, edges, boundaries and the coordinates of faces and edges survive. The
connectivity tables and the boundary coordinates are lost: the statement also says that nothing
else is in their place. -/
theorem C36_roundtrip_partial (g : UGrid K) (h : Valid g)
    (h3 : ∀ t, g.faces = some t → t.length ≠ 3) (h2 : ∀ t, g.edges = some t → t.length ≠ 2)
    (hb : ∀ t, g.boundaries = some t → t.length ≠ 2) :
    ∃ nc, save g = .ok nc ∧
      ∀ mem, load mem nc = .ok { g with faceFace := none, faceEdge := none, boundaryCoords := none } := by
  refine ⟨saved g, save_valid g h, fun mem => ?_⟩
  rw [load_saved mem g h g.faces]
  · have he : g.edges.map (fun t => if t.length = 2 then transpose t else t) = g.edges := by
      cases hh : g.edges with
      | none => rfl
      | some t => simp [h2 t hh]
    have hb' : g.boundaries.map (fun t => if t.length = 2 then transpose t else t) = g.boundaries := by
      cases hh : g.boundaries with
      | none => rfl
      | some t => simp [hb t hh]
    rw [he, hb']
  · intro t ht
    refine ⟨t, ht, ?_⟩
    rw [if_neg (h3 t ht)]
    obtain ⟨a, b⟩ := h.faces t ht
    exact (C25_faces_setter _ t a).1 b
  · exact id

/-- C36 in full for grids of such sizes without connectivity tables and boundary coordinates. -/
theorem C36_same_grid_partial (g : UGrid K) (h : Valid g)
    (h3 : ∀ t, g.faces = some t → t.length ≠ 3) (h2 : ∀ t, g.edges = some t → t.length ≠ 2)
    (hb : ∀ t, g.boundaries = some t → t.length ≠ 2)
    (hff : g.faceFace = none) (hfe : g.faceEdge = none) (hbc : g.boundaryCoords = none) :
    ∃ nc, save g = .ok nc ∧ ∀ mem, load mem nc = .ok g := by
  obtain ⟨nc, a, b⟩ := C36_roundtrip_partial g h h3 h2 hb
  refine ⟨nc, a, fun mem => (b mem).trans ?_⟩
  obtain ⟨⟩ := g
  simp_all

/-- C36, three faces: every grid with exactly three faces of `w ≥ 1` vertices comes back with the
table turned on its side, `w` faces of three vertices. -/
theorem C36_three_faces (g : UGrid K) (h : Valid g) (r1 r2 r3 : List Int) (w : Nat) (hw : 0 < w)
    (hf : g.faces = some [r1, r2, r3])
    (l1 : r1.length = w) (l2 : r2.length = w) (l3 : r3.length = w) :
    ∃ nc g', save g = .ok nc ∧ (∀ mem, load mem nc = .ok g') ∧
      g'.faces = some ((List.range w).map (fun j => [r1.getD j 0, r2.getD j 0, r3.getD j 0])) := by
  have ht : transpose [r1, r2, r3] =
      (List.range w).map (fun j => [r1.getD j 0, r2.getD j 0, r3.getD j 0]) := by
    simp [transpose, cols, l1]
  obtain ⟨_, hz⟩ := h.faces _ hf
  have hne : (transpose [r1, r2, r3]).flatten ≠ [] := by
    rw [ht]
    intro hcon
    have : (List.range w).map (fun j => [r1.getD j 0, r2.getD j 0, r3.getD j 0]) ≠ [] := by
      simp; omega
    obtain ⟨a, ha⟩ := List.exists_mem_of_ne_nil _ this
    have := List.flatten_eq_nil_iff.1 hcon a ha
    obtain ⟨j, _, rfl⟩ := List.mem_map.1 ha
    simp at this
  have hz' : ZeroBased g.nodes.length (transpose [r1, r2, r3]) := by
    rw [ht]
    intro r hr e he
    obtain ⟨j, hj, rfl⟩ := List.mem_map.1 hr
    have hj := List.mem_range.1 hj
    have key : ∀ l : List Int, l ∈ [r1, r2, r3] → l.length = w → -1 ≤ l.getD j 0 ∧ l.getD j 0 < (g.nodes.length : Int) := by
      intro l hl hlen
      refine hz l hl _ ?_
      rw [getD_lt (by omega)]
      exact List.getElem_mem _
    simp only [List.mem_cons, List.not_mem_nil, or_false] at he
    rcases he with rfl | rfl | rfl
    · exact key r1 (by simp) l1
    · exact key r2 (by simp) l2
    · exact key r3 (by simp) l3
  refine ⟨saved g, _, save_valid g h, fun mem => load_saved mem g h (some (transpose [r1, r2, r3])) ?_ ?_, ?_⟩
  · intro t ht'
    rw [hf] at ht'
    cases ht'
    exact ⟨_, rfl, by simpa using (C25_faces_setter _ _ hne).1 hz'⟩
  · intro hnone
    simp [hf] at hnone
  · simp [ht]

/-- Three triangles around a node. -/
def exThree : UGrid ℚ :=
  { nodes := [(0, 0), (1, 0), (0, 1), (-1, -1)], faces := some [[0, 1, 2], [0, 2, 3], [0, 3, 1]] }

theorem exThree_valid : Valid exThree :=
  ⟨by intro t ht; cases ht; exact ⟨by decide, by unfold ZeroBased; decide⟩,
   (by intro c hc; cases hc), (by intro c hc; cases hc), (by intro c hc; cases hc)⟩

/-- C36 is false as listed. -/
theorem C36_refuted : ¬ C36_statement ℚ := by
  intro h
  obtain ⟨nc, h1, h2⟩ := h exThree exThree_valid
  rw [save_valid _ exThree_valid] at h1
  cases h1
  have h2 := h2 (fun _ _ => (0, 0))
  have : load (fun _ _ => (0, 0)) (saved exThree) =
      .ok { exThree with faces := some [[0, 0, 0], [1, 2, 3], [2, 3, 1]] } := by decide +kernel
  rw [this] at h2
  exact absurd h2 (by decide +kernel)

/-- C36: two boundary segments are turned on their side, too. -/
theorem C36_two_boundaries (mem : Loc → Nat → ℚ × ℚ) :
    let g : UGrid ℚ := { nodes := [(0, 0), (1, 0), (0, 1)], boundaries := some [[0, 1], [1, 2]] }
    load mem (saved g) = .ok { g with boundaries := some [[0, 1], [1, 2]] } ∧
    let g' : UGrid ℚ := { nodes := [(0, 0), (1, 0), (0, 1)], boundaries := some [[0, 1], [2, 0]] }
    load mem (saved g') = .ok { g' with boundaries := some [[0, 2], [1, 0]] } :=
  ⟨load_saved mem _ ⟨(by intro t h; cases h), (by intro c h; cases h), (by intro c h; cases h),
      (by intro c h; cases h)⟩ none (by intro t h; cases h) (fun _ => rfl),
    load_saved mem _ ⟨(by intro t h; cases h), (by intro c h; cases h), (by intro c h; cases h),
      (by intro c h; cases h)⟩ none (by intro t h; cases h) (fun _ => rfl)⟩

/-- Non-vacuity: a mesh of two triangles with face and edge coordinates meets the hypotheses. -/
def exTwo : UGrid ℚ :=
  { nodes := [(0, 0), (1, 0), (1, 1), (0, 1)], faces := some [[0, 1, 2], [0, 2, 3]],
    edges := some [[0, 1], [1, 2], [0, 2], [2, 3], [0, 3]],
    faceCoords := some [(2/3, 1/3), (1/3, 2/3)],
    faceFace := some [[-1, -1, 1], [0, -1, -1]] }

example : Valid exTwo :=
  ⟨by intro t ht; cases ht; exact ⟨by decide, by unfold ZeroBased; decide⟩,
   (by intro c hc; cases hc; exact ⟨_, rfl, rfl⟩), (by intro c hc; cases hc), (by intro c hc; cases hc)⟩

example : load (fun _ _ => (7, 7)) (saved exTwo) = .ok { exTwo with faceFace := none } := by decide +kernel

end C36

/-! ## C60 -/

section C60
variable {K : Type}

/-- Entries of a file's table that counts from `k` name nodes. -/
def CountsFrom (k : Int) (n : Nat) (t : List (List Int)) : Prop :=
  t.flatten ≠ [] ∧ ∀ r ∈ t, ∀ e ∈ r, k ≤ e ∧ e < k + n

theorem countsFrom_shift {k : Int} {n : Nat} {t : List (List Int)} (h : CountsFrom k n t) :
    (t.map (fun r => r.map (fun e => e - k))).flatten ≠ [] ∧
    ZeroBased n (t.map (fun r => r.map (fun e => e - k))) := by
  constructor
  · obtain ⟨x, hx⟩ := List.exists_mem_of_ne_nil _ h.1
    obtain ⟨r, hr, hxr⟩ := List.mem_flatten.1 hx
    intro hc
    have := List.flatten_eq_nil_iff.1 hc _ (List.mem_map.2 ⟨r, hr, rfl⟩)
    simp only [List.map_eq_nil_iff] at this
    rw [this] at hxr
    cases hxr
  · intro r hr e he
    obtain ⟨r', hr', rfl⟩ := List.mem_map.1 hr
    obtain ⟨e', he', rfl⟩ := List.mem_map.1 he
    have := h.2 r' hr' e' he'
    omega

/-- C60 as listed, for `load_from_varnames`: a one-based table with one row per face (or one column
per face) is loaded as the zero-based table. -/
def C60_statement : Prop :=
  ∀ (n : Nat) (t : List (List Int)), CountsFrom 1 n t → (∃ nv, Spec.Rect nv t) →
    facesFromVar n t = .ok (t.map (fun r => r.map (fun e => e - 1))) ∧
    facesFromVar n (transpose t) = .ok (t.map (fun r => r.map (fun e => e - 1)))

/-- Two faces of three vertices: taken for three faces of two. -/
theorem C60_two_faces : facesFromVar 4 [[1, 2, 3], [1, 3, 4]] = .ok [[0, 0], [1, 2], [2, 3]] := by
  decide +kernel

/-- C60 is false as listed. -/
theorem C60_refuted : ¬ C60_statement := by
  intro h
  have h1 := (h 4 [[1, 2, 3], [1, 3, 4]] ⟨by decide, by decide⟩ ⟨3, by unfold Spec.Rect; decide⟩).1
  rw [C60_two_faces] at h1
  exact absurd h1 (by decide)

/-- A one-based table that does not use node 1 nor the last node is not recognised. -/
theorem C60_unrecognised :
    facesFromVar 8 [[2, 3, 4], [3, 4, 5], [4, 5, 6], [5, 6, 7]] =
      .ok [[2, 3, 4], [3, 4, 5], [4, 5, 6], [5, 6, 7]] := by
  decide +kernel

/-- A zero-based table that does not use node 0 is shifted although it should not be. -/
theorem C60_zero_based_shifted :
    facesFromVar 7 [[1, 2, 3], [2, 3, 4], [3, 4, 5], [4, 5, 6]] =
      .ok [[0, 1, 2], [1, 2, 3], [2, 3, 4], [3, 4, 5]] := by
  decide +kernel

theorem transpose_length (t : List (List Int)) : (transpose t).length = cols t := by
  simp [transpose]

theorem cols_rect {nv : Nat} {t : List (List Int)} (ht : Spec.Rect nv t) (hne : t ≠ []) :
    cols t = nv := by
  obtain ⟨r0, t0, rfl⟩ := List.exists_cons_of_ne_nil hne
  exact ht r0 (by simp)

theorem cols_transpose {t : List (List Int)} (h : 0 < cols t) : cols (transpose t) = t.length := by
  obtain ⟨m, hm⟩ : ∃ m, cols t = m + 1 := ⟨cols t - 1, by omega⟩
  unfold transpose
  rw [hm, List.range_succ_eq_map]
  simp [cols]

/-- Turning a rectangular table twice gives it back. -/
theorem transpose_transpose (nv : Nat) (hnv : 0 < nv) (t : List (List Int)) (ht : Spec.Rect nv t)
    (hne : t ≠ []) : transpose (transpose t) = t := by
  have hc := cols_rect ht hne
  have hct := cols_transpose (t := t) (by omega)
  unfold transpose at hct ⊢
  rw [hct, hc]
  apply List.ext_getElem
  · simp
  · intro i hi1 hi2
    simp only [List.getElem_map, List.getElem_range]
    apply List.ext_getElem
    · simp only [List.length_map, List.length_range]
      exact (ht _ (List.getElem_mem _)).symm
    · intro j hj1 hj2
      simp only [List.getElem_map, List.getElem_range]
      rw [getD_lt (by simpa using hi2), List.getElem_map, getD_lt hj2]

/-- C60, what holds for `load_from_varnames`: with more faces than vertices per face, a one-based
table that uses node 1 or the last node is recognised in either orientation. -/
theorem C60_varnames_partial (n nv : Nat) (hnv : 0 < nv) (t : List (List Int)) (ht : Spec.Rect nv t)
    (hc : CountsFrom 1 n t) (hlong : nv < t.length)
    (huse : (∃ r ∈ t, (1 : Int) ∈ r) ∨ (∃ r ∈ t, (n : Int) ∈ r)) :
    facesFromVar n t = .ok (t.map (fun r => r.map (fun e => e - 1))) ∧
    facesFromVar n (transpose t) = .ok (t.map (fun r => r.map (fun e => e - 1))) := by
  have hne : t ≠ [] := by rintro rfl; simp at hlong
  obtain ⟨r0, t0, rfl⟩ := List.exists_cons_of_ne_nil hne
  have hcl : cols (r0 :: t0) = nv := ht r0 (by simp)
  obtain ⟨mn, hmn, hmem, hle⟩ := minL_spec hc.1
  have hmn1 : 1 ≤ mn := by
    obtain ⟨r, hr, he⟩ := List.mem_flatten.1 hmem
    exact (hc.2 r hr mn he).1
  -- what the rest does once the orientation is right
  have core : (match UTopo.minL (r0 :: t0).flatten with
      | none => Except.error Err.valueError
      | some mn => UTopo.setFaces n
          (if mn = 1 then (r0 :: t0).map (fun r : List Int => r.map (fun e => e - 1)) else r0 :: t0)) =
      .ok ((r0 :: t0).map (fun r => r.map (fun e => e - 1))) := by
    rw [hmn]
    simp only
    split
    · obtain ⟨a, b⟩ := countsFrom_shift hc
      exact (C25_faces_setter n _ a).1 b
    · rename_i hmn'
      have hob : OneBased n (r0 :: t0) := by
        refine ⟨fun r hr e he => ?_, ?_⟩
        · have := hc.2 r hr e he
          omega
        · rcases huse with ⟨r, hr, h1⟩ | h1
          · have := hle 1 (List.mem_flatten.2 ⟨r, hr, h1⟩)
            omega
          · exact h1
      exact (C25_faces_setter n _ hc.1).2.1 hob
  constructor
  · unfold facesFromVar
    simp only
    rw [if_neg (by rw [hcl]; omega)]
    exact core
  · have hT := transpose_transpose nv hnv (r0 :: t0) ht hne
    unfold facesFromVar
    simp only
    rw [if_pos (by rw [transpose_length, cols_transpose (by omega), hcl]; omega), hT]
    exact core

/-- C60, zero-based tables: left alone if node 0 is used. -/
theorem C60_varnames_zero_partial (n nv : Nat) (t : List (List Int)) (ht : Spec.Rect nv t)
    (hc : CountsFrom 0 n t) (hlong : nv < t.length) (huse : ∃ r ∈ t, (0 : Int) ∈ r) :
    facesFromVar n t = .ok t := by
  have hne : t ≠ [] := by rintro rfl; simp at hlong
  obtain ⟨r0, t0, rfl⟩ := List.exists_cons_of_ne_nil hne
  have hcl : cols (r0 :: t0) = nv := ht r0 (by simp)
  obtain ⟨mn, hmn, hmem, hle⟩ := minL_spec hc.1
  have : mn ≤ 0 := by
    obtain ⟨r, hr, h0⟩ := huse
    exact hle 0 (List.mem_flatten.2 ⟨r, hr, h0⟩)
  unfold facesFromVar
  simp only
  rw [if_neg (by rw [hcl]; omega), hmn]
  simp only
  rw [if_neg (by omega)]
  refine (C25_faces_setter n _ hc.1).1 ?_
  intro r hr e he
  have := hc.2 r hr e he
  omega

/-- C60 for files that state their start index (`load_grid_from_nc_dataset`): any start index is
taken off, for any number of faces other than 3 and any nodes used. -/
theorem C60_start_index (n : Nat) (k : Int) (hk : 0 ≤ k) (v : UIO.Var K) (hs : v.startIndex = some k)
    (hflag : v.flagValue = none) (hc : CountsFrom k n v.table) (h3 : v.table.length ≠ 3) :
    ∃ t, normalise 3 n v = .ok t ∧
      UTopo.setFaces n t = .ok (v.table.map (fun r => r.map (fun e => e - k))) := by
  obtain ⟨a, b⟩ := countsFrom_shift hc
  refine ⟨v.table.map (fun r => r.map (fun e => e - k)), ?_, (C25_faces_setter n _ a).1 b⟩
  simp only [normalise, if_neg h3, hs, hflag]
  split
  · rfl
  · have : k = 0 := by omega
    subst this
    simp

/-- C60, missing entries. With a flag value for entries that name nothing, the start index is taken
off every other entry and the flags stay as they are. -/
theorem C60_flags (w n : Nat) (k f : Int) (hk : 0 ≤ k) (v : UIO.Var K) (hs : v.startIndex = some k)
    (hflag : v.flagValue = some f) (hw : v.table.length ≠ w) :
    normalise w n v = .ok (v.table.map (fun r => r.map (fun e => if e = f then f else e - k))) := by
  simp only [normalise, if_neg hw, hs, hflag]
  split
  · congr 1
    apply List.map_congr_left
    intro r _
    apply List.map_congr_left
    intro e _
    by_cases h : e = f
    · simp [h]
    · rw [if_neg h, if_neg (by omega)]
  · have : k = 0 := by omega
    subst this
    have : ∀ e : Int, (if e = f then f else e - 0) = e := by
      intro e; split <;> omega
    simp only [this, List.map_id']

example : normalise (K := ℚ) 3 9
      { startIndex := some 1
        flagValue := some (-1)
        table := [[1, 2, -1], [3, 1, 2], [1, -1, -1], [2, 3, 4]] } =
    .ok [[0, 1, -1], [2, 0, 1], [0, -1, -1], [1, 2, 3]] := by decide +kernel

/-- C60 for files that do not state it: a one-based table is recognised if the last node is used,
and a zero-based table is always left alone. -/
theorem C60_no_start_index_partial (n : Nat) (v : UIO.Var K) (hs : v.startIndex = none)
    (hflag : v.flagValue = none) (h3 : v.table.length ≠ 3) :
    (CountsFrom 0 n v.table → ∃ t, normalise 3 n v = .ok t ∧ UTopo.setFaces n t = .ok v.table) ∧
    (CountsFrom 1 n v.table → (∃ r ∈ v.table, (n : Int) ∈ r) →
      ∃ t, normalise 3 n v = .ok t ∧
        UTopo.setFaces n t = .ok (v.table.map (fun r => r.map (fun e => e - 1)))) := by
  constructor
  · intro hc
    obtain ⟨mx, hmx, hmem, hle⟩ := maxL_spec hc.1
    obtain ⟨r, hr, he⟩ := List.mem_flatten.1 hmem
    have := hc.2 r hr mx he
    refine ⟨v.table, ?_, (C25_faces_setter n _ hc.1).1 (fun r hr e he => by
      have := hc.2 r hr e he; omega)⟩
    simp only [normalise, if_neg h3, hs, hmx]
    rw [if_neg (show ¬ mx = (n : Int) by omega)]
    simp
  · intro hc ⟨r, hr, he⟩
    obtain ⟨mx, hmx, hmem, hle⟩ := maxL_spec hc.1
    have h1 := hle n (List.mem_flatten.2 ⟨r, hr, he⟩)
    obtain ⟨r', hr', he'⟩ := List.mem_flatten.1 hmem
    have h2 := hc.2 r' hr' mx he'
    obtain ⟨a, b⟩ := countsFrom_shift hc
    refine ⟨_, ?_, (C25_faces_setter n _ a).1 b⟩
    simp only [normalise, if_neg h3, hs, hmx, hflag]
    rw [if_pos (show mx = (n : Int) by omega)]
    simp

/-- A one-based strip of four triangles, in both orientations. -/
example : facesFromVar 6 [[1, 2, 3], [2, 3, 4], [3, 4, 5], [4, 5, 6]] =
    .ok [[0, 1, 2], [1, 2, 3], [2, 3, 4], [3, 4, 5]] ∧
    facesFromVar 6 [[1, 2, 3, 4], [2, 3, 4, 5], [3, 4, 5, 6]] =
    .ok [[0, 1, 2], [1, 2, 3], [2, 3, 4], [3, 4, 5]] := by decide +kernel

example : CountsFrom 1 6 [[1, 2, 3], [2, 3, 4], [3, 4, 5], [4, 5, 6]] := ⟨by decide, by decide⟩

end C60

end Verif
