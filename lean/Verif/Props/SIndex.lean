import Verif.Lemmas.SIndex
import Mathlib.Tactic.Linarith

/-!
# Properties of indexing in structured grids: C40, C41, C42, C44, C61, C66, C67, C68
-/

set_option autoImplicit false

namespace Verif
open Verif.Spec Verif.SIndex

section
variable {α : Type*}

/-! ## C40 -/

/-- C40. Trimming a padded array by the padding slices gives back one value per cell. -/
theorem C40_slices (p : Pad × Pad) (h0 : p.1 ≠ .other) (h1 : p.2 ≠ .other)
    (core full : List (List α)) (h : Padded2 p core full) : trim2 p full = core := by
  obtain ⟨mid, hm, hf⟩ := h
  unfold trim2
  rw [trim_padded p.1 h0 mid full hf]
  clear hf
  induction hm with
  | nil => rfl
  | cons hr _ ih => simp [trim_padded p.2 h1 _ _ hr, ih]

/-- C40. For every padding type, reading the full array at the shifted cell index gives the value
of the trimmed array at the cell index. -/
theorem C40_indices (p : Pad × Pad) (h0 : p.1 ≠ .other) (h1 : p.2 ≠ .other) (c : Nat)
    (full : List (List α)) (hr : Rectangular c full) (i j : Nat) (v : α)
    (h : entry (trim2 p full) i j = some v) :
    ∃ ij, applyPadding p ((i : Int), (j : Int)) = .ok ij ∧ atIndex full ij = .ok v := by
  obtain ⟨r, hr1, hr2⟩ := entry_some _ _ _ _ h
  unfold trim2 at hr1
  rw [List.getElem?_map] at hr1
  cases hq : (trim p.1 full)[i]? with
  | none => simp [hq] at hr1
  | some q =>
    simp only [hq, Option.map_some, Option.some.injEq] at hr1
    subst hr1
    have g1 := trim_get p.1 full i q hq
    have g2 := trim_get p.2 q j v hr2
    refine ⟨(((i + lowPads p.1 : Nat) : Int), ((j + lowPads p.2 : Nat) : Int)), ?_, ?_⟩
    · simp [applyPadding, shift_ok _ h0, shift_ok _ h1]
    · exact atIndex_eq c full hr _ _ v (by simp [entry, g1, g2])

/-- C40. The same from the meaning of padding: every value of the unpadded array is read from the
padded one at the shifted index. -/
theorem C40_cells (p : Pad × Pad) (h0 : p.1 ≠ .other) (h1 : p.2 ≠ .other) (c : Nat)
    (core full : List (List α)) (hp : Padded2 p core full) (hr : Rectangular c full) (i j : Nat)
    (v : α) (h : entry core i j = some v) :
    ∃ ij, applyPadding p ((i : Int), (j : Int)) = .ok ij ∧ atIndex full ij = .ok v :=
  C40_indices p h0 h1 c full hr i j v (by rw [C40_slices p h0 h1 core full hp]; exact h)

/-- C40. A word that is not a padding type is treated differently by the two: nothing is trimmed,
while shifting an index raises `ValueError`. -/
theorem C40_unknown (xs : List α) (i : Int) :
    trim .other xs = xs ∧ shift .other i = .error .valueError := by
  simp [trim, padSlice, pySlice, shift]

/-- A 2 by 2 array of cells padded on both sides in the rows and below in the columns. -/
example : Padded2 (.both, .low) [[1, 2], [3, 4]]
    [[0, 0, 0], [9, 1, 2], [8, 3, 4], [7, 7, 7]] :=
  ⟨[[9, 1, 2], [8, 3, 4]],
    .cons ⟨[9], [], rfl, rfl, rfl⟩ (.cons ⟨[8], [], rfl, rfl, rfl⟩ .nil),
    [[0, 0, 0]], [[7, 7, 7]], rfl, rfl, rfl⟩

example : entry (trim2 (.both, .low) [[0, 0, 0], [9, 1, 2], [8, 3, 4], [7, 7, 7]]) 1 0 = some 3 := by
  decide

/-- The names of a place. -/
def placeNames : Loc → List String
  | .node => ["node", "nodes", "psi", "vertex", "vertices", "point", "points"]
  | .center => ["center", "centers", "face", "faces", "cell", "cells"]
  | .edge1 => ["edge1", "u"]
  | .edge2 => ["edge2", "v"]

/-- C40. A place may be called by any of its names: padding, interpolation and slicing take them for
the same place; other names are none to any of the three. -/
theorem C40_names (g : Shapes) (s : String) :
    (∀ l, s ∈ placeNames l → paddingNamed g s = (paddingAt g l).map some ∧ interpBranch s = some l ∧
      sliceBranch s = some l) ∧
    ((∀ l, s ∉ placeNames l) → paddingNamed g s = .ok none ∧ interpBranch s = none ∧
      sliceBranch s = none) := by
  constructor
  · intro l h
    have hl : locOf s = some l ∧ interpBranch s = some l ∧ sliceBranch s = some l := by
      cases l <;>
        simp only [placeNames, List.mem_cons, List.not_mem_nil, or_false] at h
      · rcases h with rfl | rfl | rfl | rfl | rfl | rfl | rfl <;> decide +kernel
      · rcases h with rfl | rfl | rfl | rfl | rfl | rfl <;> decide +kernel
      · rcases h with rfl | rfl <;> decide +kernel
      · rcases h with rfl | rfl <;> decide +kernel
    refine ⟨?_, hl.2⟩
    unfold paddingNamed
    rw [hl.1]
  · intro h
    have h1 : s ∉ nodeNames := h .node
    have h2 : s ∉ centerNames := h .center
    have h3 : s ∉ edge1Names := h .edge1
    have h4 : s ∉ edge2Names := h .edge2
    refine ⟨?_, ?_, ?_⟩
    · unfold paddingNamed locOf
      rw [if_neg h1, if_neg h2, if_neg h3, if_neg h4]
    · unfold interpBranch
      rw [if_neg h2, if_neg h3, if_neg h4, if_neg h1]
    · unfold sliceBranch
      rw [if_neg h3, if_neg h4, if_neg h1, if_neg h2]

/-- Both cases of `C40_names` occur. -/
example : "psi" ∈ placeNames .node ∧ ∀ l, "rho" ∉ placeNames l := by
  refine ⟨by decide, fun l => ?_⟩
  cases l <;> decide

/-- The padding given for a place when the grid was made. -/
def givenFor (g : Shapes) : Loc → Given
  | .node => g.nodePad
  | .center => g.facePad
  | .edge1 => g.edge1Pad
  | .edge2 => g.edge2Pad

/-- C40. A pair of paddings given for a place is the padding of that place, first axis first, under
each of its names. -/
theorem C40_given_for_place (g : Shapes) (l : Loc) (p q : Pad) (hg : givenFor g l = .pair p q)
    (s : String) (hs : s ∈ placeNames l) : paddingNamed g s = .ok (some (p, q)) := by
  rw [((C40_names g s).1 l hs).1]
  cases l <;> simp only [givenFor] at hg <;>
    simp [paddingAt, nodePadding, facePadding, edge1Padding, edge2Padding, hg, Except.map]

example : paddingNamed { node := (4, 4), edge2Pad := .pair .low .both, edge1Pad := .pair .high .none }
    "v" = .ok (some (.low, .both)) :=
  C40_given_for_place _ .edge2 _ _ rfl _ (by decide)

/-! ## C41 -/

/-- C41. When no padding is given, sizes that differ by −1, 0 or 1 give paddings under which
trimming an array of the size of the centers leaves one row and one column per cell. -/
theorem C41_inferred (g : Shapes) (hg : g.facePad = .nothing) (c : Nat × Nat)
    (hc : g.center = some c) (hn0 : 1 ≤ g.node.1) (hn1 : 1 ≤ g.node.2)
    (h0 : c.1 + 1 = g.node.1 ∨ c.1 = g.node.1 ∨ c.1 = g.node.1 + 1)
    (h1 : c.2 + 1 = g.node.2 ∨ c.2 = g.node.2 ∨ c.2 = g.node.2 + 1) :
    ∃ p, facePadding g = .ok p ∧ p.1 ≠ .other ∧ p.2 ≠ .other ∧
      ∀ A : List (List α), A.length = c.1 → Rectangular c.2 A →
        (trim2 p A).length = g.node.1 - 1 ∧ Rectangular (g.node.2 - 1) (trim2 p A) := by
  have key : ∀ f n : Nat, 1 ≤ n → (f + 1 = n ∨ f = n ∨ f = n + 1) →
      ∃ q, inferPad f n = .ok q ∧ q ≠ .other ∧ lowPads q + highPads q ≤ f ∧
        f - lowPads q - highPads q = n - 1 := by
    intro f n hn h
    rcases h with h | h | h
    · refine ⟨.none, ?_, by simp, by simp [lowPads, highPads], by simp [lowPads, highPads]; omega⟩
      have : (f : Int) - n = -1 := by omega
      simp [inferPad, this, Np.pyGet]
    · refine ⟨.low, ?_, by simp, by simp [lowPads, highPads]; omega,
        by simp [lowPads, highPads]; omega⟩
      have : (f : Int) - n = 0 := by omega
      simp [inferPad, this, Np.pyGet]
    · refine ⟨.both, ?_, by simp, by simp [lowPads, highPads]; omega,
        by simp [lowPads, highPads]; omega⟩
      have : (f : Int) - n = 1 := by omega
      simp [inferPad, this, Np.pyGet]
  obtain ⟨p, hp, hpo, hpl, hpe⟩ := key c.1 g.node.1 hn0 h0
  obtain ⟨q, hq, hqo, hql, hqe⟩ := key c.2 g.node.2 hn1 h1
  refine ⟨(p, q), by simp [facePadding, hg, hc, hp, hq], hpo, hqo, ?_⟩
  intro A hA hr
  constructor
  · simp only [trim2, List.length_map]
    rw [trim_length p A hpo (by omega)]
    omega
  · intro r hr'
    obtain ⟨x, hx, rfl⟩ := List.mem_map.1 hr'
    have hx' : x ∈ A := by
      simp only [trim, pySlice] at hx
      exact List.mem_of_mem_take (List.mem_of_mem_drop hx)
    have hl := hr x hx'
    rw [trim_length q x hqo (by omega)]
    omega

/-- C41. Paddings that are given are used as given. -/
theorem C41_given (g : Shapes) (p q : Pad) (hg : g.facePad = .pair p q) :
    facePadding g = .ok (p, q) := by
  simp [facePadding, hg]

/-- C41. Without centers and without paddings nothing is trimmed. -/
theorem C41_no_centers (g : Shapes) (hg : g.facePad = .nothing) (hc : g.center = none) :
    facePadding g = .ok (.absent, .absent) := by
  simp [facePadding, hg, hc]

/-- C41. Edges take the padding of the centers across the cell and none along the nodes. -/
theorem C41_edges (g : Shapes) (p : Pad × Pad) (h1 : g.edge1Pad = .nothing)
    (h2 : g.edge2Pad = .nothing) (hp : facePadding g = .ok p) :
    edge1Padding g = .ok (p.1, .absent) ∧ edge2Padding g = .ok (.absent, p.2) := by
  simp [edge1Padding, edge2Padding, h1, h2, hp, Except.map]

/-- C41. Paddings that a file declares are used: the two of the centers in order, the one of `edge1`
in the rows and the one of `edge2` in the columns. -/
theorem C41_declared (g : Shapes) (d e a b : Decl) (t u : List Decl)
    (hf : g.facePad = .decls (d :: e :: t)) (h1 : g.edge1Pad = .decls (a :: u))
    (h2 : g.edge2Pad = .decls (b :: u)) :
    facePadding g = .ok (d.padding, e.padding) ∧ edge1Padding g = .ok (a.padding, .absent) ∧
      edge2Padding g = .ok (.absent, b.padding) := by
  simp [facePadding, edge1Padding, edge2Padding, hf, h1, h2]

example : ∃ g : Shapes, facePadding g = .ok (.both, .low) ∧ edge1Padding g = .ok (.high, .absent) :=
  ⟨{ node := (4, 4), facePad := .decls [⟨"a", "b", .both⟩, ⟨"c", "d", .low⟩],
     edge1Pad := .decls [⟨"a", "b", .high⟩] }, by decide⟩

/-- C41, beyond the sizes it speaks about. Sizes further apart are accepted or refused by accident
of Python's indexing: two more centers than nodes count as not padded, two fewer as padded on both
sides. -/
theorem C41_other_sizes (n : Nat) :
    inferPad (n + 2) n = .ok .none ∧ inferPad n (n + 2) = .ok .both ∧
      inferPad n (n + 3) = .ok .low ∧ inferPad (n + 3) n = .error .indexError ∧
      inferPad n (n + 4) = .error .indexError := by
  have e1 : ((n + 2 : Nat) : Int) - n = 2 := by omega
  have e2 : (n : Int) - ((n + 2 : Nat) : Int) = -2 := by omega
  have e3 : (n : Int) - ((n + 3 : Nat) : Int) = -3 := by omega
  have e4 : ((n + 3 : Nat) : Int) - n = 3 := by omega
  have e5 : (n : Int) - ((n + 4 : Nat) : Int) = -4 := by omega
  unfold inferPad
  rw [e1, e2, e3, e4, e5]
  simp [Np.pyGet]

example : ∃ g : Shapes, g.facePad = .nothing ∧ g.center = some (5, 3) ∧ g.node = (4, 4) ∧
    facePadding g = .ok (.both, .none) :=
  ⟨{ node := (4, 4), center := some (5, 3) }, by decide⟩

/-! ## C42 -/

/-- C42 in full: the answer is a location whose array has the shape of the last two dimensions of
the data, and there is an answer whenever some location has that shape. -/
def C42_statement : Prop :=
  ∀ (g : Shapes) (lead : List Nat) (r c : Nat),
    (∀ loc, inferLocation g (lead ++ [r, c]) = some loc → shapeOf g loc = some (r, c)) ∧
    (inferLocation g (lead ++ [r, c]) = none → ∀ loc, shapeOf g loc ≠ some (r, c))

/-- C42 is false: with centers one larger than the nodes, data one smaller than the nodes count as
center data. -/
theorem C42_refuted : ¬ C42_statement := by
  intro h
  have := (h { node := (4, 4), center := some (5, 5) } [] 3 3).1 .center (by decide)
  exact absurd this (by decide)

/-- C42 is false in the other direction as well: edges without padding (one row fewer than the
nodes) are not recognised. -/
theorem C42_unrecognised : ∃ g : Shapes, shapeOf g .edge1 = some (3, 4) ∧
    inferLocation g [3, 4] = none :=
  ⟨{ node := (4, 4), edge1 := some (3, 4) }, by decide⟩

/-- C42, conventional sizes (missing: grids whose centers or edges have other sizes). When centers,
edge1 and edge2 are, if present, one larger than the nodes in both, the first and the second
dimension, the answer is the location with that shape and `None` if there is none, for all data
that is not one smaller than the nodes in both dimensions. -/
theorem C42_partial (g : Shapes) (hc : ∀ s, g.center = some s → s = (g.node.1 + 1, g.node.2 + 1))
    (h1 : ∀ s, g.edge1 = some s → s = (g.node.1 + 1, g.node.2))
    (h2 : ∀ s, g.edge2 = some s → s = (g.node.1, g.node.2 + 1))
    (lead : List Nat) (r c : Nat) (hsm : ¬ (r + 1 = g.node.1 ∧ c + 1 = g.node.2)) (loc : Loc) :
    inferLocation g (lead ++ [r, c]) = some loc ↔ shapeOf g loc = some (r, c) := by
  obtain ⟨⟨n, m⟩, ctr, e1, e2, np, fp, p1, p2, vp⟩ := g
  simp only at hc h1 h2 hsm
  unfold inferLocation
  simp only [List.reverse_append, List.reverse_cons, List.reverse_nil, List.nil_append,
    List.cons_append, Prod.mk.injEq]
  have tri : ∀ (o : Option (Nat × Nat)) (s : Nat × Nat), (∀ t, o = some t → t = s) →
      (o = none ∨ o = some s) := by
    intro o s h
    cases o with
    | none => exact Or.inl rfl
    | some t => exact Or.inr (by rw [h t rfl])
  rcases tri ctr _ hc with rfl | rfl <;> rcases tri e1 _ h1 with rfl | rfl <;>
    rcases tri e2 _ h2 with rfl | rfl <;> clear hc h1 h2 tri <;> cases loc <;>
    simp only [shapeOf, Option.isSome_some, Option.isSome_none, Bool.false_eq_true, and_false,
      if_false, and_true, Option.some.injEq, Prod.mk.injEq, reduceCtorEq] <;>
    (try split_ifs) <;> (try simp only [Option.some.injEq, reduceCtorEq, true_iff, false_iff]) <;>
    omega

/-- C42. Data with fewer than two dimensions has no location. -/
theorem C42_flat (g : Shapes) (shape : List Nat) (h : shape.length < 2) :
    inferLocation g shape = none := by
  match shape, h with
  | [], _ => rfl
  | [_], _ => rfl

example : let g : Shapes := { node := (4, 6), center := some (5, 7), edge1 := some (5, 6) }
    inferLocation g [10, 2, 5, 6] = some .edge1 ∧ inferLocation g [4, 6] = some .node ∧
      inferLocation g [4, 7] = none := by decide

/-! ## C44 -/

/-- C44. A flat cell number becomes the row and column of the cell. -/
theorem C44_cell (rows cols : Nat) (hc : 2 ≤ cols) (idx : Nat)
    (h : idx < (rows - 1) * (cols - 1)) :
    ∃ y x : Nat, cellOf cols (idx : Int) = ((y : Int), (x : Int)) ∧ y < rows - 1 ∧ x < cols - 1 ∧
      y * (cols - 1) + x = idx := by
  have e : (cols : Int) - 1 = ((cols - 1 : Nat) : Int) := by omega
  refine ⟨idx / (cols - 1), idx % (cols - 1), ?_, ?_, Nat.mod_lt _ (by omega), ?_⟩
  · unfold cellOf
    simp only [e]
    rw [Int.fdiv_eq_ediv_of_nonneg _ (by omega), Int.fmod_eq_emod_of_nonneg _ (by omega)]
    have h0 : 0 ≤ (idx : Int) / ((cols - 1 : Nat) : Int) := Int.ediv_nonneg (by omega) (by omega)
    rw [if_neg (by omega)]
    simp
  · exact Nat.div_lt_of_lt_mul (by rwa [Nat.mul_comm])
  · rw [Nat.mul_comm]; exact Nat.div_add_mod idx (cols - 1)

/-- C44. Different cells have different numbers, and every cell of the grid has one. -/
theorem C44_number (rows cols : Nat) (hc : 2 ≤ cols) (y x : Nat) (hy : y < rows - 1)
    (hx : x < cols - 1) :
    y * (cols - 1) + x < (rows - 1) * (cols - 1) ∧
      cellOf cols ((y * (cols - 1) + x : Nat) : Int) = ((y : Int), (x : Int)) := by
  have hlt : y * (cols - 1) + x < (rows - 1) * (cols - 1) := by
    calc y * (cols - 1) + x < y * (cols - 1) + (cols - 1) := by omega
      _ = (y + 1) * (cols - 1) := by ring
      _ ≤ (rows - 1) * (cols - 1) := Nat.mul_le_mul_right _ (by omega)
  refine ⟨hlt, ?_⟩
  have e : (cols : Int) - 1 = ((cols - 1 : Nat) : Int) := by omega
  unfold cellOf
  simp only [e]
  rw [Int.fdiv_eq_ediv_of_nonneg _ (by omega), Int.fmod_eq_emod_of_nonneg _ (by omega)]
  have h1 : (y * (cols - 1) + x) / (cols - 1) = y := by
    rw [Nat.mul_comm, Nat.mul_add_div (by omega)]
    rw [Nat.div_eq_of_lt hx]; rfl
  have h2 : (y * (cols - 1) + x) % (cols - 1) = x := by
    rw [Nat.mul_comm, Nat.mul_add_mod]; exact Nat.mod_eq_of_lt hx
  rw [← Int.natCast_ediv, ← Int.natCast_emod, h1, h2, if_neg (by omega)]

/-- C44. A miss gives (−1, −1). -/
theorem C44_miss (cols : Nat) (hc : 2 ≤ cols) : cellOf cols (-1) = (-1, -1) := by
  have e : Int.fdiv (-1) ((cols : Int) - 1) = -1 := by
    obtain ⟨k, rfl⟩ : ∃ k : Nat, cols = k + 2 := ⟨cols - 2, by omega⟩
    have : ((k + 2 : Nat) : Int) - 1 = ((k + 1 : Nat) : Int) := by omega
    rw [this, Int.fdiv_eq_ediv_of_nonneg _ (by omega)]
    exact Int.ediv_eq_neg_one_of_neg_of_le (by omega) (by omega)
  simp [cellOf, e]

example : cellOf 4 7 = (2, 1) ∧ cellOf 4 (-1) = (-1, -1) := by decide

/-! ## C61 -/

/-- The window of a location holds, for every given cell, all values that belong to the cell. -/
def C61_contains (loc : Loc) : Prop :=
  ∀ inds : List (Nat × Nat), (∀ p ∈ inds, p.1 < 4294967296 ∧ p.2 < 4294967296) → inds ≠ [] →
    ∃ w, efficientSlice (inds.map (fun p => ((p.1 : Int), (p.2 : Int)))) (some loc) = .ok w ∧
      ∀ p ∈ inds, ∀ o ∈ belongs loc, inWindow w (p.1 + o.1) (p.2 + o.2)

/-- C61 in full: at every location, and indices shifted by the window's origin address the same
data. -/
def C61_statement : Prop :=
  (∀ loc, C61_contains loc) ∧
  ∀ (A : List (List Nat)) (c : Nat), Rectangular c A → ∀ (w : Window) (i j : Nat),
    inWindow w i j → i < A.length → j < c →
    atIndex (window w A) ((i : Int) - w.lo0, (j : Int) - w.lo1) = atIndex A ((i : Int), (j : Int))

theorem efficient_bounds (inds : List (Nat × Nat))
    (hb : ∀ p ∈ inds, p.1 < 4294967296 ∧ p.2 < 4294967296) (hne : inds ≠ []) (loc : Loc) :
    ∃ w, efficientSlice (inds.map (fun p => ((p.1 : Int), (p.2 : Int)))) (some loc) = .ok w ∧
      ∀ p ∈ inds, w.lo0 ≤ p.1 ∧ w.lo1 ≤ p.2 ∧
        p.1 + (if loc = .node ∨ loc = .edge1 then 1 else 0) < w.hi0 ∧
        p.2 + (if loc = .node ∨ loc = .edge2 then 1 else 0) < w.hi1 := by
  have hxs : ∀ p ∈ inds, p.1 ∈ (inds.map (fun p => ((p.1 : Int), (p.2 : Int)))).map
      (fun p => u32 p.1) := by
    intro p hp
    rw [List.map_map]
    exact List.mem_map.2 ⟨p, hp, by simp [u32_nat _ (hb p hp).1]⟩
  have hys : ∀ p ∈ inds, p.2 ∈ (inds.map (fun p => ((p.1 : Int), (p.2 : Int)))).map
      (fun p => u32 p.2) := by
    intro p hp
    rw [List.map_map]
    exact List.mem_map.2 ⟨p, hp, by simp [u32_nat _ (hb p hp).2]⟩
  generalize hI : inds.map (fun p => ((p.1 : Int), (p.2 : Int))) = I at hxs hys ⊢
  cases I with
  | nil => exact absurd (List.map_eq_nil_iff.1 hI) hne
  | cons a t =>
    have hx0 := fun p hp => minN_le _ _ (hxs p hp)
    have hx1 := fun p hp => le_maxN _ _ (hxs p hp)
    have hy0 := fun p hp => minN_le _ _ (hys p hp)
    have hy1 := fun p hp => le_maxN _ _ (hys p hp)
    cases loc <;> refine ⟨_, rfl, ?_⟩ <;> intro p hp <;>
      refine ⟨hx0 p hp, hy0 p hp, ?_, ?_⟩ <;>
      simp only [reduceCtorEq, or_false, or_true, true_or, if_true, if_false] <;>
      first
        | exact Nat.lt_succ_of_le (hx1 p hp)
        | exact Nat.lt_succ_of_le (hy1 p hp)
        | exact Nat.succ_lt_succ (Nat.lt_succ_of_le (hx1 p hp))
        | exact Nat.succ_lt_succ (Nat.lt_succ_of_le (hy1 p hp))

/-- C61 for nodes and centers (missing: the edges, where it is false). -/
theorem C61_contains_partial : C61_contains .node ∧ C61_contains .center := by
  constructor
  · intro inds hb hne
    obtain ⟨w, hw, h⟩ := efficient_bounds inds hb hne .node
    refine ⟨w, hw, ?_⟩
    intro p hp o ho
    obtain ⟨h1, h2, h3, h4⟩ := h p hp
    simp only [true_or, if_true] at h3 h4
    simp only [belongs, List.mem_cons, List.not_mem_nil, or_false] at ho
    rcases ho with rfl | rfl | rfl | rfl <;> refine ⟨?_, ?_, ?_, ?_⟩ <;> simp only <;> omega
  · intro inds hb hne
    obtain ⟨w, hw, h⟩ := efficient_bounds inds hb hne .center
    refine ⟨w, hw, ?_⟩
    intro p hp o ho
    obtain ⟨h1, h2, h3, h4⟩ := h p hp
    simp only [reduceCtorEq, or_self, if_false] at h3 h4
    simp only [belongs, List.mem_cons, List.not_mem_nil, or_false] at ho
    subst ho
    exact ⟨by simp only; omega, by simp only; omega, by simp only; omega, by simp only; omega⟩

/-- C61. Every requested cell index itself is in the window, at every location. -/
theorem C61_cells (inds : List (Nat × Nat))
    (hb : ∀ p ∈ inds, p.1 < 4294967296 ∧ p.2 < 4294967296) (hne : inds ≠ []) (loc : Loc) :
    ∃ w, efficientSlice (inds.map (fun p => ((p.1 : Int), (p.2 : Int)))) (some loc) = .ok w ∧
      ∀ p ∈ inds, inWindow w p.1 p.2 := by
  obtain ⟨w, hw, h⟩ := efficient_bounds inds hb hne loc
  exact ⟨w, hw, fun p hp => by
    obtain ⟨h1, h2, h3, h4⟩ := h p hp
    exact ⟨h1, by omega, h2, by omega⟩⟩

/-- C61. A shifted index addresses the same data in the window. -/
theorem C61_same_data (c : Nat) (A : List (List α)) (hr : Rectangular c A) (w : Window) (i j : Nat)
    (h : inWindow w i j) (v : α) (hv : entry A i j = some v) :
    atIndex (window w A) ((i : Int) - w.lo0, (j : Int) - w.lo1) = .ok v ∧
      atIndex A ((i : Int), (j : Int)) = .ok v := by
  obtain ⟨c', hc'⟩ := window_rect w c A hr
  have e := atIndex_eq c' (window w A) hc' _ _ v (by rw [window_entry w A i j h]; exact hv)
  have e1 : ((i - w.lo0 : Nat) : Int) = (i : Int) - w.lo0 := by have := h.1; omega
  have e2 : ((j - w.lo1 : Nat) : Int) = (j : Int) - w.lo1 := by have := h.2.2.1; omega
  rw [e1, e2] at e
  exact ⟨e, atIndex_eq c A hr i j v hv⟩

/-- C61 is false for edges: the window for edge1 grows in the row direction, while the second edge
of a cell is in the next column. -/
theorem C61_refuted : ¬ C61_statement := by
  intro h
  obtain ⟨w, hw, hc⟩ := h.1 .edge1 [(2, 3)] (by decide) (by decide)
  have hw' : w = ⟨2, 4, 3, 4⟩ := by
    have : efficientSlice [((2 : Int), (3 : Int))] (some .edge1) = .ok ⟨2, 4, 3, 4⟩ := by decide
    have e : efficientSlice ([(2, 3)].map (fun p : Nat × Nat => ((p.1 : Int), (p.2 : Int))))
        (some .edge1) = .ok ⟨2, 4, 3, 4⟩ := this
    rw [e] at hw
    exact (Except.ok.inj hw).symm
  have := hc (2, 3) (by simp) (0, 1) (by simp [belongs])
  subst hw'
  exact absurd this.2.2.2 (by decide)

/-- C61. The same at edge2, one row too few. -/
theorem C61_edge2_missing :
    ¬ C61_contains .edge2 := by
  intro h
  obtain ⟨w, hw, hc⟩ := h [(2, 3)] (by decide) (by decide)
  have hw' : w = ⟨2, 3, 3, 5⟩ := by
    have e : efficientSlice ([(2, 3)].map (fun p : Nat × Nat => ((p.1 : Int), (p.2 : Int))))
        (some .edge2) = .ok ⟨2, 3, 3, 5⟩ := by decide
    rw [e] at hw
    exact (Except.ok.inj hw).symm
  have := hc (2, 3) (by simp) (1, 0) (by simp [belongs])
  subst hw'
  exact absurd this.2.1 (by decide)

example : efficientSlice [(4, 1), (2, 3)] (some .node) = .ok ⟨2, 6, 1, 5⟩ := by decide

example : inWindow ⟨2, 6, 1, 5⟩ 4 1 := by unfold inWindow; decide

/-! ## C67 -/

/-- C67 in full: nearest-neighbour lookup returns, for every point, the value at the location its
tree found, for every location, whether the tree has been built before or not and however the
variable's location came to be known. -/
def C67_statement : Prop :=
  ∀ (trees : List Loc) (A : List (List Nat)) (loc : Loc) (inferred : Option Loc) (cols : Nat)
    (near : List Nat), near ≠ [] → 0 < cols → Rectangular cols A →
    (∀ n ∈ near, n < A.length * cols ∧ n < 4294967296) →
    ∃ vs, nearestVar trees A loc inferred true cols near = .ok vs ∧
      List.Forall₂ (fun n v => entry A (n / cols) (n % cols) = some v) near vs

theorem mapM_nil_error {β γ : Type} (f : β → Except Err γ) (e : Err) (xs : List β) (h : xs ≠ [])
    (hf : ∀ x ∈ xs, f x = .error e) : xs.mapM f = .error e := by
  cases xs with
  | nil => exact absurd rfl h
  | cons x t =>
    rw [List.mapM_cons, hf x (by simp)]
    rfl

theorem mapM_ok {β γ : Type*} (f : β → Except Err γ) (g : β → γ) (xs : List β)
    (hf : ∀ x ∈ xs, f x = .ok (g x)) : xs.mapM f = .ok (xs.map g) := by
  induction xs with
  | nil => rfl
  | cons x t ih =>
    rw [List.mapM_cons, hf x (by simp), ih (fun y hy => hf y (by simp [hy]))]
    rfl

/-- C67. The first lookup at a location always raises `KeyError`: the table of trees is indexed
before anything is put into it. -/
theorem C67_first_use (A : List (List α)) (loc : Loc) (inferred : Option Loc) (masked : Bool)
    (cols : Nat) (near : List Nat) (hn : near ≠ []) :
    nearestVar [] A loc inferred masked cols near = .error .keyError := by
  unfold nearestVar
  rw [mapM_nil_error _ .keyError near hn (fun n _ => by simp [locateNearest])]

/-- C67 is false. -/
theorem C67_refuted : ¬ C67_statement := by
  intro h
  obtain ⟨vs, hv, _⟩ := h [] [[1, 2], [3, 4]] .node (some .node) 2 [3] (by simp) (by simp)
    (by intro r hr; simp only [List.mem_cons, List.not_mem_nil, or_false] at hr
        rcases hr with rfl | rfl <;> rfl) (by simp)
  rw [C67_first_use _ _ _ _ _ _ (by simp)] at hv
  exact absurd hv (by simp)

/-- C67. With the tree built, a variable whose location is given because it cannot be inferred from
its shape is read at the wrong place: the index is shifted but the variable is not cut. -/
theorem C67_not_cut :
    nearestVar [.center] [[1, 2], [3, 4]] .center none true 2 [3] = .ok [1] := by decide

/-- C67 when the tree has been built, the variable is a masked array and its location can be
inferred (missing: first use, plain arrays, locations that cannot be inferred). -/
theorem C67_partial (trees : List Loc) (A : List (List α)) (loc inf : Loc) (cols : Nat)
    (near : List Nat) (ht : loc ∈ trees) (hn : near ≠ []) (hr : Rectangular cols A)
    (hb : ∀ n ∈ near, n < A.length * cols ∧ n < 4294967296) :
    ∃ vs, nearestVar trees A loc (some inf) true cols near = .ok vs ∧
      List.Forall₂ (fun n v => entry A (n / cols) (n % cols) = some v) near vs := by
  have hent : ∀ n ∈ near, ∃ v, entry A (n / cols) (n % cols) = some v := by
    intro n hn
    have h1 := (hb n hn).1
    have hc : 0 < cols := by
      rcases Nat.eq_zero_or_pos cols with h | h
      · rw [h] at h1; omega
      · exact h
    have hi : n / cols < A.length := Nat.div_lt_of_lt_mul (by rwa [Nat.mul_comm])
    have hl : (A[n / cols]).length = cols := hr _ (List.getElem_mem _)
    have hj : n % cols < (A[n / cols]).length := by rw [hl]; exact Nat.mod_lt _ hc
    exact ⟨(A[n / cols])[n % cols], by
      simp [entry, List.getElem?_eq_getElem hi, List.getElem?_eq_getElem hj]⟩
  have hmap : near.mapM (locateNearest trees loc cols) =
      .ok ((near.map (fun n => (n / cols, n % cols))).map
        (fun p : Nat × Nat => ((p.1 : Int), (p.2 : Int)))) := by
    rw [List.map_map]
    exact mapM_ok _ _ near (fun n _ => by simp [locateNearest, ht])
  unfold nearestVar
  rw [hmap]
  simp only
  obtain ⟨w, hw, hin⟩ := C61_cells (near.map (fun n => (n / cols, n % cols)))
    (by
      intro p hp
      obtain ⟨n, hn, rfl⟩ := List.mem_map.1 hp
      have := (hb n hn).2
      exact ⟨Nat.lt_of_le_of_lt (Nat.div_le_self _ _) this,
        Nat.lt_of_le_of_lt (Nat.mod_le _ _) this⟩)
    (by simpa using hn) loc
  have hval : ∀ n ∈ near, ∀ v, entry A (n / cols) (n % cols) = some v →
      nearestAt A loc (some inf) true ((near.map (fun n => (n / cols, n % cols))).map
        (fun p : Nat × Nat => ((p.1 : Int), (p.2 : Int))))
        (((n / cols : Nat) : Int), ((n % cols : Nat) : Int)) = .ok v := by
    intro n hn v hv
    have hin' := hin (n / cols, n % cols) (List.mem_map.2 ⟨n, hn, rfl⟩)
    have := (C61_same_data cols A hr w _ _ hin' v hv).1
    unfold nearestAt
    rw [hw]
    simp only [Option.isSome_some, if_true]
    rw [this]
  have gen : ∀ l : List Nat, (∀ n ∈ l, n ∈ near) →
      ∃ vs, ((l.map (fun n => (n / cols, n % cols))).map
          (fun p : Nat × Nat => ((p.1 : Int), (p.2 : Int)))).mapM
          (nearestAt A loc (some inf) true ((near.map (fun n => (n / cols, n % cols))).map
            (fun p : Nat × Nat => ((p.1 : Int), (p.2 : Int))))) = .ok vs ∧
        List.Forall₂ (fun n v => entry A (n / cols) (n % cols) = some v) l vs := by
    intro l
    induction l with
    | nil => intro _; exact ⟨[], rfl, .nil⟩
    | cons n t ih =>
      intro hl
      obtain ⟨vs, h1, h2⟩ := ih (fun m hm => hl m (by simp [hm]))
      obtain ⟨v, hv⟩ := hent n (hl n (by simp))
      refine ⟨v :: vs, ?_, .cons hv h2⟩
      rw [List.map_cons, List.map_cons, List.mapM_cons]
      simp only
      rw [hval n (hl n (by simp)) v hv, h1]
      rfl
  exact gen near (fun _ h => h)

/-- C67. A plain array is refused with `AttributeError` once its value has been found. -/
theorem C67_plain_array (A : List (List α)) (loc : Loc) (inf : Option Loc)
    (inds : List (Int × Int)) (ij : Int × Int) (v : α)
    (h : nearestAt A loc inf true inds ij = .ok v) :
    nearestAt A loc inf false inds ij = .error .attributeError := by
  unfold nearestAt at h ⊢
  split at h
  · exact absurd h (by simp)
  · simp only at h ⊢
    split at h
    · exact absurd h (by simp)
    · simp

example : nearestVar [.node] [[1, 2, 3], [4, 5, 6], [7, 8, 9]] .node (some .node) true 3 [4, 8, 5]
    = .ok [5, 9, 6] := by decide

/-! ## C66 -/

/-- The slice takes away exactly the padding `p`. -/
def Trims (s : Option Int × Option Int) (p : Pad) : Prop :=
  ∀ core full : List Nat, Padded p core full → pySlice s.1 s.2 full = core

/-- A grid as `load_grid` builds it: two face declarations, and declarations or nothing for edges
and the vertical; all words are the four of the conventions. -/
def FromFile (g : Shapes) : Prop :=
  (∃ d e, g.facePad = .decls [d, e]) ∧
  (∀ x ∈ [g.facePad, g.edge1Pad, g.edge2Pad, g.verticalPad],
    x = .nothing ∨ ∃ ds, x = .decls ds ∧ ds ≠ [] ∧
      ∀ d ∈ ds, d.padding = .none ∨ d.padding = .low ∨ d.padding = .high ∨ d.padding = .both)

/-- C66 in full: every variable of the file gets a slice per dimension, and along a dimension with a
declared face padding the slice takes away exactly that padding. -/
def C66_statement : Prop :=
  ∀ (g : Shapes) (nodeDims varDims : List String), FromFile g →
    ∃ sl, variableSlicing g nodeDims varDims = .ok sl ∧ sl.length = varDims.length ∧
      ∀ (k : Nat) (s : Option Int × Option Int) (ds : List Decl) (d : Decl),
        g.facePad = .decls ds → d ∈ ds → (∀ d' ∈ ds, d'.faceDim = d.faceDim → d' = d) →
        varDims[k]? = some d.faceDim → sl[k]? = some s → Trims s d.padding

/-- C66 is false: the slice for 'high' keeps the first value instead of dropping the last. -/
theorem C66_refuted : ¬ C66_statement := by
  intro h
  obtain ⟨sl, h1, _, h2⟩ := h
    { node := (4, 4), facePad := .decls [⟨"y", "Y", .high⟩, ⟨"x", "X", .none⟩]
      verticalPad := .decls [⟨"z", "Z", .none⟩] } ["Y", "X"] ["y", "x"]
    ⟨⟨_, _, rfl⟩, by
      intro x hx
      simp only [List.mem_cons, List.not_mem_nil, or_false] at hx
      rcases hx with rfl | rfl | rfl | rfl
      · exact Or.inr ⟨_, rfl, by simp, by simp⟩
      · exact Or.inl rfl
      · exact Or.inl rfl
      · exact Or.inr ⟨_, rfl, by simp, by simp⟩⟩
  have e : sl = [(none, some 1), (none, none)] := by
    have : variableSlicing { node := (4, 4), facePad := .decls [⟨"y", "Y", .high⟩, ⟨"x", "X", .none⟩]
                             verticalPad := .decls [⟨"z", "Z", .none⟩] } ["Y", "X"] ["y", "x"]
        = .ok [(none, some 1), (none, none)] := by decide
    rw [this] at h1
    exact (Except.ok.inj h1).symm
  have := h2 0 (none, some 1) _ ⟨"y", "Y", .high⟩ rfl (by simp) (by simp) (by simp) (by simp [e])
    [5, 6, 7] [5, 6, 7, 0] ⟨[], [0], rfl, rfl, rfl⟩
  exact absurd this (by decide)

/-- C66. A grid whose file declares no vertical dimensions raises `TypeError` for every variable
that has no node dimension, so such a file cannot be loaded. -/
theorem C66_no_vertical (g : Shapes) (nodeDims varDims : List String) (d e : Decl)
    (hf : g.facePad = .decls [d, e])
    (e1 e2 : List Decl) (h1 : edgeDecls g.edge1Pad = .ok e1) (h2 : edgeDecls g.edge2Pad = .ok e2)
    (hv : g.verticalPad = .nothing)
    (hd : varDims.any (fun d => nodeDims.contains d) = false) :
    variableSlicing g nodeDims varDims = .error .typeError := by
  have hfp : facePadding g = .ok (d.padding, e.padding) := by simp [facePadding, hf]
  have hvp : verticalPadding g = .ok (some (.absent, e.padding)) := by
    simp [verticalPadding, hv, hfp, Except.map]
  have hap : allPadding g = .error .typeError := by
    unfold allPadding
    simp only [hfp, h1, h2, hvp]
    simp [hf, hv, declsOf]
  unfold variableSlicing
  rw [if_neg (by rw [hd]; simp), hap]

theorem dimSlices_spec (ds : List Decl) (dims : List String)
    (sl : List (Option Int × Option Int)) (h : dimSlices ds dims = .ok sl) :
    sl.length = dims.length ∧ ∀ (k : Nat) (s : Option Int × Option Int) (dim : String),
      dims[k]? = some dim → sl[k]? = some s →
        (match ds.find? (fun x => x.faceDim == dim) with
          | none => Except.ok (none, none)
          | some x => tableSlice x.padding) = Except.ok s := by
  induction dims generalizing sl with
  | nil =>
    simp only [dimSlices, Except.ok.injEq] at h
    subst h
    exact ⟨rfl, by simp⟩
  | cons d t ih =>
    unfold dimSlices at h
    simp only at h
    split at h
    · exact absurd h (by simp)
    · rename_i s0 hs0
      split at h
      · exact absurd h (by simp)
      · rename_i rest hrest
        simp only [Except.ok.injEq] at h
        subst h
        obtain ⟨h1, h2⟩ := ih rest hrest
        refine ⟨by simp [h1], ?_⟩
        intro k s dim hk hs
        cases k with
        | zero =>
          simp only [List.getElem?_cons_zero, Option.some.injEq] at hk hs
          subst hk hs
          exact hs0
        | succ k =>
          exact h2 k s dim (by simpa using hk) (by simpa using hs)

theorem dimSlices_ok (ds : List Decl)
    (hd : ∀ d ∈ ds, d.padding = .none ∨ d.padding = .low ∨ d.padding = .high ∨ d.padding = .both)
    (dims : List String) : ∃ sl, dimSlices ds dims = .ok sl := by
  induction dims with
  | nil => exact ⟨[], rfl⟩
  | cons d t ih =>
    obtain ⟨rest, hrest⟩ := ih
    unfold dimSlices
    cases hf : ds.find? (fun x => x.faceDim == d) with
    | none =>
      simp only [hrest]
      exact ⟨_, rfl⟩
    | some x =>
      have hx := List.mem_of_find?_eq_some hf
      rcases hd x hx with h | h | h | h <;> simp only [h, tableSlice, hrest] <;> exact ⟨_, rfl⟩

/-- C66 for files that declare vertical dimensions and no 'high' padding of faces (missing: the
other files, for which it is false). -/
theorem C66_partial (g : Shapes) (nodeDims varDims : List String) (hg : FromFile g)
    (hv : g.verticalPad ≠ .nothing)
    (hh : ∀ ds, g.facePad = .decls ds → ∀ d ∈ ds, d.padding ≠ .high) :
    ∃ sl, variableSlicing g nodeDims varDims = .ok sl ∧ sl.length = varDims.length ∧
      ∀ (k : Nat) (s : Option Int × Option Int) (ds : List Decl) (d : Decl),
        g.facePad = .decls ds → d ∈ ds → (∀ d' ∈ ds, d'.faceDim = d.faceDim → d' = d) →
        varDims[k]? = some d.faceDim → sl[k]? = some s → Trims s d.padding := by
  obtain ⟨⟨d0, d1, hf⟩, hall⟩ := hg
  have words : ∀ x ∈ [g.facePad, g.edge1Pad, g.edge2Pad, g.verticalPad], ∀ ds, x = .decls ds →
      ∀ d ∈ ds, d.padding = .none ∨ d.padding = .low ∨ d.padding = .high ∨ d.padding = .both := by
    intro x hx ds hds
    rcases hall x hx with h | ⟨ds', h, _, h2⟩
    · rw [h] at hds; exact absurd hds (by simp)
    · rw [h] at hds
      cases hds
      exact h2
  have edge : ∀ x ∈ [g.facePad, g.edge1Pad, g.edge2Pad, g.verticalPad],
      ∃ ds, edgeDecls x = .ok ds ∧ ∀ d ∈ ds, d.padding = .none ∨ d.padding = .low ∨
        d.padding = .high ∨ d.padding = .both := by
    intro x hx
    rcases hall x hx with h | ⟨ds', h, _, h2⟩
    · exact ⟨[], by rw [h]; rfl, by simp⟩
    · exact ⟨ds', by rw [h]; rfl, h2⟩
  -- the list of declarations that is searched starts with those of the faces
  have step : ∃ more, (∀ d ∈ [d0, d1] ++ more, d.padding = .none ∨ d.padding = .low ∨
        d.padding = .high ∨ d.padding = .both) ∧
      variableSlicing g nodeDims varDims = dimSlices ([d0, d1] ++ more) varDims := by
    have hw0 := words g.facePad (by simp) _ hf
    by_cases hd : varDims.any (fun d => nodeDims.contains d) = true
    · exact ⟨[], by simpa using hw0, by
        unfold variableSlicing
        rw [if_pos hd, hf]
        simp only [declsOf, List.append_nil]⟩
    · obtain ⟨e1, he1, hw1⟩ := edge g.edge1Pad (by simp)
      obtain ⟨e2, he2, hw2⟩ := edge g.edge2Pad (by simp)
      rcases hall g.verticalPad (by simp) with h | ⟨vs, h, hne, hw3⟩
      · exact absurd h hv
      · refine ⟨e1 ++ e2 ++ vs, ?_, ?_⟩
        · intro d hd'
          simp only [List.mem_append] at hd'
          rcases hd' with h' | (h' | h') | h'
          · exact hw0 d h'
          · exact hw1 d h'
          · exact hw2 d h'
          · exact hw3 d h'
        · have hvp : ∃ q, verticalPadding g = .ok (some q) := by
            cases vs with
            | nil => exact absurd rfl hne
            | cons v t => exact ⟨(.absent, v.padding), by simp [verticalPadding, h]⟩
          obtain ⟨q, hq⟩ := hvp
          have hfp : facePadding g = .ok (d0.padding, d1.padding) := by simp [facePadding, hf]
          have hap : allPadding g = .ok ([d0, d1] ++ e1 ++ e2 ++ vs) := by
            unfold allPadding
            simp only [hfp, he1, he2, hq]
            simp [hf, h, declsOf]
          simp only [variableSlicing, if_neg hd, hap, List.append_assoc]
  obtain ⟨more, hw, hs⟩ := step
  obtain ⟨sl, hsl⟩ := dimSlices_ok _ hw varDims
  obtain ⟨hlen, hget⟩ := dimSlices_spec _ _ _ hsl
  refine ⟨sl, by rw [hs, hsl], hlen, ?_⟩
  intro k s ds d hds hd huniq hk hsk
  rw [hf] at hds
  cases hds
  have hfind : ([d0, d1] ++ more).find? (fun x => x.faceDim == d.faceDim) = some d := by
    rw [List.find?_append]
    have : [d0, d1].find? (fun x => x.faceDim == d.faceDim) = some d := by
      cases hq : [d0, d1].find? (fun x => x.faceDim == d.faceDim) with
      | none =>
        have := List.find?_eq_none.1 hq d hd
        simp at this
      | some x =>
        have h1 := List.mem_of_find?_eq_some hq
        have h2 := List.find?_some hq
        rw [huniq x h1 (by simpa using h2)]
    rw [this]; rfl
  have := hget k s d.faceDim hk hsk
  rw [hfind] at this
  simp only at this
  intro core full hp
  rcases words g.facePad (by simp) _ hf d hd with h | h | h | h
  · rw [h] at this hp
    simp only [tableSlice, Except.ok.injEq] at this
    subst this
    exact trim_padded .none (by simp) core full hp
  · rw [h] at this hp
    simp only [tableSlice, Except.ok.injEq] at this
    subst this
    exact trim_padded .low (by simp) core full hp
  · exact absurd h (hh _ hf d hd)
  · rw [h] at this hp
    simp only [tableSlice, Except.ok.injEq] at this
    subst this
    exact trim_padded .both (by simp) core full hp

example : variableSlicing
    { node := (4, 4), facePad := .decls [⟨"y", "Y", .low⟩, ⟨"x", "X", .both⟩]
      verticalPad := .decls [⟨"z", "Z", .none⟩] } ["Y", "X"] ["t", "y", "x"]
    = .ok [(none, none), (some 1, none), (some 1, some (-1))] := by decide

/-- The first of the declarations that is for the dimension. -/
def FirstFor (ds : List Decl) (dim : String) (d : Decl) : Prop :=
  ∃ i, ds[i]? = some d ∧ d.faceDim = dim ∧ ∀ (j : Nat) (d' : Decl), j < i → ds[j]? = some d' → d'.faceDim ≠ dim

private theorem find_first {ds : List Decl} {dim : String} {d : Decl} (h : FirstFor ds dim d) :
    ds.find? (fun x => x.faceDim == dim) = some d := by
  obtain ⟨i, h1, h2, h3⟩ := h
  induction ds generalizing i with
  | nil => simp at h1
  | cons x t ih =>
    cases i with
    | zero =>
      simp only [List.getElem?_cons_zero, Option.some.injEq] at h1
      subst h1
      simp [h2]
    | succ i =>
      have hx : (x.faceDim == dim) = false := by
        have := h3 0 x (by omega) rfl
        simp [this]
      rw [List.find?_cons, hx]
      exact ih i (by simpa using h1) (fun j d' hj hd => h3 (j + 1) d' (by omega) (by simpa using hd))

/-- What a file declares for a place: a list, or nothing. -/
def Declares (x : Given) (ds : List Decl) : Prop := x = .nothing ∧ ds = [] ∨ x = .decls ds

/-- C66, variables without a node dimension: of all declarations, those of the faces first, then of
`edge1`, of `edge2` and of the vertical, the first one for a dimension decides what is taken away along
it; nothing is taken away along a dimension that is not declared. Missing: 'high' paddings and files
without vertical dimensions, for which it is false. -/
theorem C66_precedence_partial (g : Shapes) (nodeDims varDims : List String) (fs e1 e2 vs : List Decl)
    (hf : g.facePad = .decls fs) (hf2 : 2 ≤ fs.length) (h1 : Declares g.edge1Pad e1)
    (h2 : Declares g.edge2Pad e2) (hv : g.verticalPad = .decls vs) (hvn : vs ≠ [])
    (hw : ∀ d ∈ fs ++ e1 ++ e2 ++ vs, d.padding = .none ∨ d.padding = .low ∨ d.padding = .both)
    (hd : ∀ d ∈ varDims, d ∉ nodeDims) :
    ∃ sl, variableSlicing g nodeDims varDims = .ok sl ∧ sl.length = varDims.length ∧
      ∀ (k : Nat) (s : Option Int × Option Int) (dim : String), varDims[k]? = some dim →
        sl[k]? = some s →
        (∀ d, FirstFor (fs ++ e1 ++ e2 ++ vs) dim d → Trims s d.padding) ∧
        ((∀ d ∈ fs ++ e1 ++ e2 ++ vs, d.faceDim ≠ dim) → ∀ full : List Nat, pySlice s.1 s.2 full = full) := by
  have hnd : varDims.any (fun d => nodeDims.contains d) = false := by
    rw [List.any_eq_false]
    intro d hm
    simpa using hd d hm
  have edge : ∀ x ds, Declares x ds → edgeDecls x = .ok ds := by
    rintro x ds (⟨rfl, rfl⟩ | rfl)
    · rfl
    · rfl
  have hap : allPadding g = .ok (fs ++ e1 ++ e2 ++ vs) := by
    obtain ⟨a, b, t, rfl⟩ : ∃ a b t, fs = a :: b :: t := by
      rcases fs with _ | ⟨a, _ | ⟨b, t⟩⟩
      · simp at hf2
      · simp at hf2
      · exact ⟨a, b, t, rfl⟩
    obtain ⟨v, vt, rfl⟩ : ∃ v vt, vs = v :: vt := by
      cases vs with
      | nil => exact absurd rfl hvn
      | cons v vt => exact ⟨v, vt, rfl⟩
    unfold allPadding
    simp only [facePadding, verticalPadding, hf, hv, edge _ _ h1, edge _ _ h2, declsOf]
  obtain ⟨sl, hsl⟩ := dimSlices_ok (fs ++ e1 ++ e2 ++ vs) (by
    intro d hd
    rcases hw d hd with h | h | h
    · exact Or.inl h
    · exact Or.inr (Or.inl h)
    · exact Or.inr (Or.inr (Or.inr h))) varDims
  obtain ⟨hlen, hget⟩ := dimSlices_spec _ _ _ hsl
  refine ⟨sl, by unfold variableSlicing; rw [if_neg (by rw [hnd]; simp), hap]; exact hsl, hlen, ?_⟩
  intro k s dim hk hs
  have := hget k s dim hk hs
  constructor
  · intro d hfirst core full hp
    rw [find_first hfirst] at this
    simp only at this
    obtain ⟨i, hi, _⟩ := hfirst
    rcases hw d (List.mem_of_getElem? hi) with h | h | h <;> rw [h] at this hp <;>
      simp only [tableSlice, Except.ok.injEq] at this <;> subst this
    · exact trim_padded .none (by simp) core full hp
    · exact trim_padded .low (by simp) core full hp
    · exact trim_padded .both (by simp) core full hp
  · intro hno full
    have hn : (fs ++ e1 ++ e2 ++ vs).find? (fun x => x.faceDim == dim) = none := by
      rw [List.find?_eq_none]
      intro d hd
      simpa using hno d hd
    rw [hn] at this
    simp only [Except.ok.injEq] at this
    subst this
    simp [pySlice]

/-- A dimension declared for both edges, differently. -/
example : FirstFor ([⟨"y", "Y", .none⟩, ⟨"x", "X", .none⟩] ++ [⟨"r", "R", .low⟩] ++ [⟨"r", "R", .both⟩] ++
    [⟨"z", "Z", .none⟩]) "r" ⟨"r", "R", .low⟩ ∧
    variableSlicing { node := (4, 4), facePad := .decls [⟨"y", "Y", .none⟩, ⟨"x", "X", .none⟩]
                      edge1Pad := .decls [⟨"r", "R", .low⟩], edge2Pad := .decls [⟨"r", "R", .both⟩]
                      verticalPad := .decls [⟨"z", "Z", .none⟩] } ["Y", "X"] ["r", "q"]
      = .ok [(some 1, none), (none, none)] := by
  refine ⟨⟨2, rfl, rfl, ?_⟩, by decide⟩
  intro j d' hj hd
  rcases j with _ | _ | j
  · cases hd; decide
  · cases hd; decide
  · omega

/-- C66. A grid made with a pair (tuple) of paddings has no declarations to slice by: no variable gets
slices. -/
theorem C66_pairs_refused (g : Shapes) (nodeDims varDims : List String) (p q : Pad)
    (hf : g.facePad = .pair p q) : ∃ x, variableSlicing g nodeDims varDims = .error x := by
  refine ⟨.attributeError, ?_⟩
  unfold variableSlicing
  split
  · rw [hf]; rfl
  · have : allPadding g = .error .attributeError := by
      unfold allPadding
      simp only [facePadding, hf, declsOf]
    rw [this]

/-! ## C68 -/

/-- C68 in full: the padding of each axis of the center arrays is the one the file declares for the
dimension of that axis. -/
def C68_statement : Prop :=
  ∀ (g : Shapes) (d e : Decl), g.facePad = .decls [d, e] → d.faceDim ≠ e.faceDim →
    ∀ (a b : Decl), [a, b].Perm [d, e] → ∀ dims : List String, dims = [a.faceDim, b.faceDim] →
      facePadding g = .ok (a.padding, b.padding)

/-- C68 is false: paddings are taken in the order of the declarations. The file of the ROMS tests
(`gridded/tests/test_pysgrid/conftest.py`) declares the second axis of its arrays first. -/
theorem C68_refuted : ¬ C68_statement := by
  intro h
  have := h { node := (4, 4), facePad := .decls [⟨"xi_rho", "xi_psi", .both⟩,
                                                 ⟨"eta_rho", "eta_psi", .none⟩] }
    _ _ rfl (by decide) ⟨"eta_rho", "eta_psi", .none⟩ ⟨"xi_rho", "xi_psi", .both⟩
    (List.Perm.swap _ _ _) ["eta_rho", "xi_rho"] rfl
  exact absurd this (by decide)

/-- C68 when the axes are declared in their order, or the two paddings are the same (missing: axes
declared in the other order with different paddings, where it is false). -/
theorem C68_partial (g : Shapes) (d e a b : Decl) (hg : g.facePad = .decls [d, e])
    (hp : [a, b].Perm [d, e]) (h : a = d ∨ d.padding = e.padding) :
    facePadding g = .ok (a.padding, b.padding) := by
  have : facePadding g = .ok (d.padding, e.padding) := by simp [facePadding, hg]
  rw [this]
  rcases h with rfl | h
  · have := (List.perm_cons a).1 hp
    rw [List.singleton_perm_singleton.1 this]
  · have ha : a = d ∨ a = e := by
      have : a ∈ [d, e] := hp.subset (by simp)
      simpa using this
    have hb : b = d ∨ b = e := by
      have : b ∈ [d, e] := hp.subset (by simp)
      simpa using this
    rcases ha with rfl | rfl <;> rcases hb with rfl | rfl <;> simp [h]

end
end Verif
