import Verif.Lemmas.GridType
import Mathlib.Algebra.Order.Ring.Rat
import Mathlib.Algebra.Field.Rat

/-!
# Properties of kinds of grid and of their parts: C56, C74, C78-C81
-/

set_option autoImplicit false

namespace Verif
open Verif.Spec Verif.GridType
open Verif.Util (Arr)
open Verif.Cache (lookup assign lookup_none lookup_assign_self lookup_assign_ne)

/-! ## C56 -/

section
variable {K : Type} [Field K] [LinearOrder K]

/-- C56. The kind named by the caller, in any case of letters, is taken whatever else is known; an
unknown name is refused. -/
theorem C56_caller (f : File K) (t : String) (topology : Option Topology) :
    (∀ k, t.toLower ∈ kindNames k → gridType f (some t) topology = .ok k) ∧
      ((∀ k, t.toLower ∉ kindNames k) → gridType f (some t) topology = .error .valueError) := by
  simp only [gridType]
  generalize t.toLower = u
  refine ⟨?_, ?_⟩
  · intro k h
    cases k <;> simp only [kindNames, List.mem_cons, List.not_mem_nil, or_false] at h <;>
      rcases h with rfl | rfl | rfl | rfl | rfl <;> decide
  · intro h
    have h1 := h .S
    have h2 := h .U
    have h3 := h .R
    simp only [kindNames] at h1 h2 h3
    rw [if_neg (by exact h1), if_neg (by exact h2), if_neg (by exact h3)]

/-- C56. Next comes a topology given by the caller: unstructured if it names faces or says so,
rectangular if it says so, structured otherwise. -/
theorem C56_topology (f : File K) (gt : Topology) :
    (((∃ v, lookup gt "faces" = some v) ∨
        ∃ t, lookup gt "grid_type" = some t ∧ t.toLower ∈ kindNames .U) →
      gridType f none (some gt) = .ok .U) ∧
    (lookup gt "faces" = none → (∃ t, lookup gt "grid_type" = some t ∧ t.toLower ∈ kindNames .R) →
      gridType f none (some gt) = .ok .R) ∧
    (lookup gt "faces" = none →
      (∀ t, lookup gt "grid_type" = some t →
        t.toLower ∉ kindNames .U ∧ t.toLower ∉ kindNames .R) →
      gridType f none (some gt) = .ok .S) := by
  refine ⟨?_, ?_, ?_⟩
  · intro h
    simp only [gridType]
    rw [if_pos]
    rcases h with ⟨v, h⟩ | ⟨t, h, ht⟩
    · exact Or.inl (by rw [h]; rfl)
    · exact Or.inr (by rw [h]; exact ht)
  · rintro h0 ⟨t, h, ht⟩
    simp only [gridType, h0, h, Option.getD_some]
    rw [if_neg, if_pos (by exact ht)]
    rintro (h | h)
    · cases h
    · revert h ht
      generalize t.toLower = u
      intro ht h
      simp only [kindNames, List.mem_cons, List.not_mem_nil, or_false] at ht
      rcases ht with rfl | rfl | rfl | rfl <;> revert h <;> decide
  · intro h0 h
    simp only [gridType, h0]
    have e : ((lookup gt "grid_type").getD "notype").toLower ∉ uNames ∧
        ((lookup gt "grid_type").getD "notype").toLower ∉ rNames := by
      cases hg : lookup gt "grid_type" with
      | none => decide +kernel
      | some t => exact h t hg
    rw [if_neg, if_neg e.2]
    rintro (h | h)
    · cases h
    · exact e.1 h

/-- C56. Next comes the attribute of the file, if it names a structured or an unstructured grid in
lower case. Names of rectangular grids and capital letters are missing, see `C56_refuted`. -/
theorem C56_attribute_partial (f : File K) (t : String) (k : Kind) (hk : k ≠ .R)
    (ht : f.gridType = some t) (h : t ∈ kindNames k) : gridType f none none = .ok k := by
  simp only [gridType, ht, Option.getD_some]
  cases k with
  | R => exact absurd rfl hk
  | S =>
    simp only [kindNames, List.mem_cons, List.not_mem_nil, or_false] at h
    rcases h with rfl | rfl | rfl | rfl | rfl <;>
      rw [if_pos (by decide), if_neg (by decide +kernel), if_neg (by decide +kernel)]
  | U =>
    simp only [kindNames, List.mem_cons, List.not_mem_nil, or_false] at h
    rcases h with rfl | rfl | rfl | rfl <;> rw [if_pos (by decide), if_pos (by decide +kernel)]

/-- C56. Next comes the first variable of the file that describes a topology: unstructured exactly
if it has node coordinates and no node dimensions. -/
theorem C56_topology_variable (f : File K) (pre post : List (FileVar K)) (v : FileVar K)
    (hf : f.vars = pre ++ v :: post) (hv : IsTopology v) (hpre : ∀ u ∈ pre, ¬ IsTopology u)
    (ht : ∀ t, f.gridType = some t → t ∉ kindNames .S ∧ t ∉ kindNames .U) :
    gridType f none none =
      .ok (if v.nodeCoordinates.isSome ∧ v.nodeDimensions = none then .U else .S) := by
  have hi : ∀ u : FileVar K, (match u.cfRole with
      | some r => SText.contains "topology".toList r.toList
      | none => false) = true ↔ IsTopology u := by
    intro u
    unfold IsTopology
    cases h : u.cfRole with
    | none => simp
    | some r =>
      simp only [Option.some.injEq, exists_eq_left']
      exact SText.contains_iff _ _
  have hfind : topologyVar f = some v := by
    unfold topologyVar
    rw [List.find?_eq_some_iff_append]
    refine ⟨(hi v).2 hv, pre, post, hf, ?_⟩
    intro u hu
    rw [Bool.not_eq_eq_eq_not, Bool.not_true, ← Bool.not_eq_true]
    exact fun h => hpre u hu ((hi u).1 h)
  have hg : ¬ (f.gridType.getD "") ∈ sNames ++ uNames := by
    cases h : f.gridType with
    | none => decide
    | some t =>
      rw [List.mem_append]
      have := ht t h
      rintro (h | h)
      · exact this.1 h
      · exact this.2 h
  simp only [gridType]
  rw [if_neg hg, hfind]
  simp only
  cases v.nodeCoordinates <;> cases v.nodeDimensions <;> simp

end

/-- C56 as stated, for the attribute of the file. -/
def C56_statement : Prop :=
  ∀ (f : File Rat) (t : String) (k : Kind), f.gridType = some t → t.toLower ∈ kindNames k →
    gridType f none none = .ok k

/-- C56 fails for an attribute that names a rectangular grid, and for capital letters: the attribute
is ignored. -/
theorem C56_refuted : ¬ C56_statement := by
  intro h
  have := h ⟨[⟨"lon", ⟨[2, 2], [0, 1, 0, 1]⟩, none, none, none⟩,
    ⟨"lat", ⟨[2, 2], [0, 0, 1, 1]⟩, none, none, none⟩], some "UGRID"⟩ "UGRID" .U rfl
    (by decide +kernel)
  revert this
  decide +kernel

/-- A file with a mesh variable and an attribute that names a rectangular grid: unstructured. -/
example : gridType (⟨[⟨"mesh", ⟨[], []⟩, some "mesh_topology", some "lon lat", none⟩],
    some "rectangular"⟩ : File Rat) none none = .ok .U := by
  decide +kernel

example : gridType (⟨[], none⟩ : File Rat) (some "ROMS") (some [("faces", "nv")]) = .ok .S ∧
    gridType (⟨[], none⟩ : File Rat) none (some [("grid_type", "Regular")]) = .ok .R ∧
    gridType (⟨[], some "triangular"⟩ : File Rat) none none = .ok .U := by
  decide +kernel

/-! ## C74: the names of the nodes -/

section
variable {K : Type}

/-- C74. Without a topology the node coordinates are the variables with the first of the usual pairs
of names, in any case, that the file has both of, and the names are recorded. -/
theorem C74_found_pair (f : File K) (n1 n2 : String) (v1 v2 : FileVar K)
    (h : FirstPair f usualNodes n1 n2) (h1 : Named f n1 v1) (h2 : Named f n2 v2) :
    findBase f none = .ok ([("node_lon", v1.arr), ("node_lat", v2.arr)],
      [("node_lon", n1), ("node_lat", n2)]) := by
  have : firstPair (lowerVars f) nodePairs = some ((n1, n2), v1.arr, v2.arr) :=
    firstPair_spec f usualNodes n1 n2 v1 v2 h h1 h2
  simp only [findBase, this]

/-- The columns of a table of pairs. -/
private theorem pairs_of_interleaved {a lon lat : List K} (hi : Interleaved a lon lat) :
    evens a = lon ∧ odds a = lat := by
  have hm : a.length % 2 = 0 := by rw [hi.1]; omega
  obtain ⟨hI, hl⟩ := evens_odds a hm
  have l1 : (evens a).length = lon.length := by rw [hl, hi.1]; omega
  constructor
  · refine List.ext_getElem? ?_
    intro i
    by_cases h : i < lon.length
    · rw [← (hI.2.2 i (by omega)).1, (hi.2.2 i h).1]
    · rw [List.getElem?_eq_none (by omega), List.getElem?_eq_none (by omega)]
  · refine List.ext_getElem? ?_
    intro i
    by_cases h : i < lon.length
    · rw [← (hI.2.2 i (by omega)).2, (hi.2.2 i h).2]
    · have := hI.2.1
      have := hi.2.1
      rw [List.getElem?_eq_none (by omega), List.getElem?_eq_none (by omega)]

/-- C74. If the file has no such pair, a variable with both coordinates of every node is taken
apart. -/
theorem C74_found_combined (f : File K) (n : String) (v : FileVar K) (lon lat : List K)
    (hno : ∀ p ∈ usualNodes, ¬ (Has f p.1 ∧ Has f p.2)) (h : FirstName f usualCombined n)
    (hv : Named f n v) (hi : Interleaved v.arr.data lon lat) :
    findBase f none = .ok ([("node_lon", ⟨[lon.length], lon⟩), ("node_lat", ⟨[lon.length], lat⟩)],
      [("node_coordinates", n)]) := by
  have e1 : firstPair (lowerVars f) nodePairs = none := (firstPair_none f usualNodes).2 hno
  have e2 : firstIn (lowerVars f) compositeNames = some (n, v) :=
    firstIn_spec f usualCombined n v h hv
  have hm : v.arr.data.length % 2 = 0 := by rw [hi.1]; omega
  have key := pairs_of_interleaved hi
  have hlen : v.arr.data.length / 2 = lon.length := by rw [hi.1]; omega
  simp only [findBase, e1, e2, splitPairs, hm, if_true, key.1, key.2, hlen]
  rfl

/-- C74. A file with none of these names is refused. -/
theorem C74_found_nothing (f : File K) (hno : ∀ p ∈ usualNodes, ¬ (Has f p.1 ∧ Has f p.2))
    (hno' : ∀ n ∈ usualCombined, ¬ Has f n) : findBase f none = .error .valueError := by
  have e1 : firstPair (lowerVars f) nodePairs = none := (firstPair_none f usualNodes).2 hno
  have e2 : firstIn (lowerVars f) compositeNames = none := (firstIn_none f usualCombined).2 hno'
  simp only [findBase, e1, e2]

/-- The only error of a search without a topology. -/
theorem C74_found_errors (f : File K) (e : Err) (h : findBase f none = .error e) : e = .valueError := by
  unfold findBase at h
  simp only at h
  split at h
  · cases h
  · split at h
    · rename_i n v _
      unfold splitPairs at h
      split at h
      · cases h
      · cases h; rfl
    · cases h; rfl

end

/-- A file with `LON`, `lat`, and `latitude` but no `longitude`; and one with combined nodes. -/
example :
    findBase (⟨[⟨"latitude", ⟨[1], [7]⟩, none, none, none⟩, ⟨"LON", ⟨[2], [1, 2]⟩, none, none, none⟩,
      ⟨"lat", ⟨[2], [3, 4]⟩, none, none, none⟩], none⟩ : File Rat) none =
      .ok ([("node_lon", ⟨[2], [1, 2]⟩), ("node_lat", ⟨[2], [3, 4]⟩)],
        [("node_lon", "lon"), ("node_lat", "lat")]) ∧
    findBase (⟨[⟨"Nodes", ⟨[3, 2], [1, 2, 3, 4, 5, 6]⟩, none, none, none⟩], none⟩ : File Rat) none =
      .ok ([("node_lon", ⟨[3], [1, 3, 5]⟩), ("node_lat", ⟨[3], [2, 4, 6]⟩)],
        [("node_coordinates", "nodes")]) := by
  decide +kernel

/-! ## C56, continued: files that say nothing -/

section
variable {K : Type} [Field K] [LinearOrder K]

/-- The file does not say what it is: no known name in its attribute, no topology variable. -/
def Silent (f : File K) : Prop :=
  (∀ t, f.gridType = some t → t ∉ kindNames .S ∧ t ∉ kindNames .U) ∧ ∀ v ∈ f.vars, ¬ IsTopology v

theorem silent_search (f : File K) (h : Silent f) :
    gridType f none none = orElse (findU f none) .U (orElse (findR f none) .R
      (orElse (findS f none) .S (.error .valueError))) := by
  have hi : ∀ u : FileVar K, (match u.cfRole with
      | some r => SText.contains "topology".toList r.toList
      | none => false) = true ↔ IsTopology u := by
    intro u
    unfold IsTopology
    cases h : u.cfRole with
    | none => simp
    | some r =>
      simp only [Option.some.injEq, exists_eq_left']
      exact SText.contains_iff _ _
  have hfind : topologyVar f = none := by
    unfold topologyVar
    rw [List.find?_eq_none]
    intro u hu
    exact fun hc => h.2 u hu ((hi u).1 hc)
  have hg : ¬ (f.gridType.getD "") ∈ sNames ++ uNames := by
    cases h' : f.gridType with
    | none => decide
    | some t =>
      rw [List.mem_append]
      have := h.1 t h'
      rintro (h | h)
      · exact this.1 h
      · exact this.2 h
  simp only [gridType]
  rw [if_neg hg, hfind]

theorem findU_noFaces (f : File K) (hf : ∀ n ∈ usualFaces, ¬ Has f n) :
    findU f none = .error .valueError := by
  have e : firstIn (lowerVars f) faceNames = none := (firstIn_none f usualFaces).2 hf
  unfold findU
  cases h : findBase f none with
  | error x => rw [C74_found_errors f x h]; rfl
  | ok r => simp only [e]; rfl

/-- C56. A file that does not say what it is and has no faces under a usual name holds a rectangular
grid if its node coordinates have one dimension each, and a structured grid otherwise. -/
theorem C56_no_faces (f : File K) (h : Silent f) (hf : ∀ n ∈ usualFaces, ¬ Has f n)
    (n1 n2 : String) (v1 v2 : FileVar K) (hn : FirstPair f usualNodes n1 n2) (h1 : Named f n1 v1)
    (h2 : Named f n2 v2) :
    gridType f none none =
      .ok (if v1.arr.shape.length = 1 ∧ v2.arr.shape.length = 1 then .R else .S) := by
  rw [silent_search f h, findU_noFaces f hf]
  have hb := C74_found_pair f n1 n2 v1 v2 hn h1 h2
  have hR : findR f none = if v1.arr.shape.length = 1 ∧ v2.arr.shape.length = 1 then
      findBase f none else .error .valueError := by
    unfold findR
    rw [hb]
    simp only [bind, Except.bind, lookup, String.reduceEq, if_true, if_false]
    by_cases a : v1.arr.shape.length = 1 <;> by_cases b : v2.arr.shape.length = 1 <;>
      simp [a, b, pure, Except.pure]
  have hS : ∃ r, findS f none = .ok r := by
    unfold findS
    rw [hb]
    simp only [bind, Except.bind]
    split
    · exact ⟨_, rfl⟩
    · exact ⟨_, rfl⟩
  obtain ⟨r, hr⟩ := hS
  rw [hR, hr, hb]
  split <;> rfl

/-- What the search for an unstructured grid makes of the variables found. -/
theorem findU_pair (f : File K) (n1 n2 n : String) (v1 v2 v : FileVar K)
    (hn : FirstPair f usualNodes n1 n2) (h1 : Named f n1 v1) (h2 : Named f n2 v2)
    (hf : FirstName f usualFaces n) (hv : Named f n v) :
    findU f none = (normaliseFaces v.arr v1.arr).map (fun fa =>
      ([("node_lon", v1.arr), ("node_lat", v2.arr), ("faces", fa)],
        [("node_lon", n1), ("node_lat", n2), ("faces", n)])) := by
  have e : firstIn (lowerVars f) faceNames = some (n, v) := firstIn_spec f usualFaces n v hf hv
  unfold findU
  rw [C74_found_pair f n1 n2 v1 v2 hn h1 h2]
  simp only [bind, Except.bind, e, pure, Except.pure, assign, lookup, String.reduceEq, if_true,
    if_false]
  cases normaliseFaces v.arr v1.arr <;> rfl

/-- C56. A file that does not say what it is and has node coordinates and a table of faces holds an
unstructured grid. -/
theorem C56_faces (f : File K) (h : Silent f) (n1 n2 n : String) (v1 v2 v : FileVar K)
    (hn : FirstPair f usualNodes n1 n2) (h1 : Named f n1 v1) (h2 : Named f n2 v2)
    (hf : FirstName f usualFaces n) (hv : Named f n v) (r c : Nat)
    (hs : v.arr.shape = [r, c]) (hl : v.arr.data.length = r * c) (hpos : 0 < r * c)
    (hlon : v1.arr.shape ≠ []) : gridType f none none = .ok .U := by
  rw [silent_search f h, findU_pair f n1 n2 n v1 v2 v hn h1 h2 hf hv]
  have hH : Holds v.arr r c (fun i j => (v.arr.data[i * c + j]?).getD 0) := by
    refine ⟨hs, hl, ?_⟩
    intro i j hi hj
    have : i * c + j < v.arr.data.length := by
      rw [hl]
      calc i * c + j < i * c + c := by omega
        _ = (i + 1) * c := by ring
        _ ≤ r * c := Nat.mul_le_mul_right c hi
    simp only [List.getElem?_eq_getElem this, Option.getD_some]
  have hT := Util.holds_transpose r c v.arr _ hH
  have hmax : ∀ a : Arr K, a.data.length = r * c → ∃ m, arrMax a = .ok m := by
    intro a ha
    unfold arrMax
    cases e : a.data with
    | nil => rw [e, List.length_nil] at ha; omega
    | cons x t => exact ⟨_, rfl⟩
  have hN : ∃ c, normaliseFaces v.arr v1.arr = .ok c := by
    unfold normaliseFaces
    rw [hs]
    cases e : v1.arr.shape with
    | nil => exact absurd e hlon
    | cons k t =>
      obtain ⟨m, hm⟩ : ∃ m, arrMax (if r = 3 then transpose v.arr else v.arr) = .ok m := by
        split
        · unfold transpose
          rw [hs]
          exact hmax _ (by rw [hT.2.1, Nat.mul_comm])
        · exact hmax _ hl
      simp only [bind, Except.bind, hm]
      split <;> exact ⟨_, rfl⟩
  obtain ⟨c', hc⟩ := hN
  rw [hc]
  rfl

/-- C56. A file that does not say what it is and has no node coordinates under usual names is
refused. -/
theorem C56_nothing (f : File K) (h : Silent f)
    (hno : ∀ p ∈ usualNodes, ¬ (Has f p.1 ∧ Has f p.2))
    (hno' : ∀ n ∈ usualCombined, ¬ Has f n) : gridType f none none = .error .valueError := by
  have hb := C74_found_nothing f hno hno'
  rw [silent_search f h]
  unfold findU findR findS
  rw [hb]
  rfl

end

/-- A file with the coordinates and faces of two triangles, and the same without the faces. -/
example :
    gridType (⟨[⟨"lon", ⟨[4], [0, 1, 0, 1]⟩, none, none, none⟩,
      ⟨"lat", ⟨[4], [0, 0, 1, 1]⟩, none, none, none⟩,
      ⟨"nv", ⟨[3, 2], [1, 2, 2, 3, 3, 4]⟩, none, none, none⟩], none⟩ : File Rat) none none = .ok .U ∧
    gridType (⟨[⟨"lon", ⟨[4], [0, 1, 0, 1]⟩, none, none, none⟩,
      ⟨"lat", ⟨[4], [0, 0, 1, 1]⟩, none, none, none⟩], none⟩ : File Rat) none none = .ok .R ∧
    gridType (⟨[], none⟩ : File Rat) none none = .error .valueError := by
  decide +kernel

/-! ## C74: a topology of the caller -/

/-- C74 as stated: the names in a topology given by the caller are those of the variables used. -/
def C74_topology_statement : Prop :=
  ∀ (f : File Rat) (a b : FileVar Rat), a ∈ f.vars → b ∈ f.vars →
    (f.vars.map FileVar.name).Nodup →
    ∃ r, findBase f (some [("node_lon", a.name), ("node_lat", b.name)]) = .ok r ∧
      r.1 = [("node_lon", a.arr), ("node_lat", b.arr)]

/-- C74 fails for names with capital letters: they are not found. -/
theorem C74_topology_refuted : ¬ C74_topology_statement := by
  intro h
  obtain ⟨r, hr, -⟩ := h ⟨[⟨"Lon", ⟨[2], [1, 2]⟩, none, none, none⟩,
    ⟨"lat", ⟨[2], [3, 4]⟩, none, none, none⟩], none⟩ ⟨"Lon", ⟨[2], [1, 2]⟩, none, none, none⟩
    ⟨"lat", ⟨[2], [3, 4]⟩, none, none, none⟩ (by simp) (by simp) (by decide)
  have e : findBase (⟨[⟨"Lon", ⟨[2], [1, 2]⟩, none, none, none⟩,
    ⟨"lat", ⟨[2], [3, 4]⟩, none, none, none⟩], none⟩ : File Rat)
    (some [("node_lon", "Lon"), ("node_lat", "lat")]) = .error .keyError := by decide +kernel
  rw [e] at hr
  cases hr

section
variable {K : Type}

/-- The entries of a topology for nodes by separate variables, all found: the step of the loop. -/
theorem foldl_base (gf : List (String × FileVar K)) (gt : Topology) (d : Args K)
    (hc : ∀ p ∈ gt, p.1 ∉ usualCombined)
    (hv : ∀ p ∈ gt, p.1 = "node_lon" ∨ p.1 = "node_lat" → ∃ v, lookup gf p.2 = some v) :
    ∃ d', gt.foldl (baseStep gf) (.ok d) = .ok d' ∧ ∀ k, lookup d' k =
      match (gt.filter (fun p => p.1 = k ∧ (k = "node_lon" ∨ k = "node_lat"))).getLast? with
      | some p => (lookup gf p.2).map FileVar.arr
      | none => lookup d k := by
  induction gt using List.reverseRecOn with
  | nil => exact ⟨d, rfl, fun k => by simp⟩
  | append_singleton l p ih =>
    obtain ⟨d', h1, h2⟩ := ih (fun q hq => hc q (by simp [hq])) (fun q hq => hv q (by simp [hq]))
    rw [List.foldl_append, h1]
    have hcp : p.1 ∉ compositeNames := hc p (by simp)
    by_cases hp : p.1 = "node_lon" ∨ p.1 = "node_lat"
    · obtain ⟨v, hl⟩ := hv p (by simp) hp
      refine ⟨assign d' p.1 v.arr, ?_, ?_⟩
      · simp [baseStep, bind, Except.bind, hp, getVar, hl, hcp, pure, Except.pure]
      · intro k
        by_cases hk : p.1 = k
        · subst hk
          rw [lookup_assign_self, List.filter_append]
          have : [p].filter (fun q => decide (q.1 = p.1 ∧ (p.1 = "node_lon" ∨ p.1 = "node_lat")))
              = [p] := by simp [hp]
          rw [this, List.getLast?_append]
          simp [hl]
        · rw [lookup_assign_ne _ _ _ _ hk, h2 k, List.filter_append]
          have : [p].filter (fun q => decide (q.1 = k ∧ (k = "node_lon" ∨ k = "node_lat")))
              = [] := by simp [hk]
          rw [this, List.append_nil]
    · refine ⟨d', ?_, ?_⟩
      · simp [baseStep, bind, Except.bind, hp, hcp, pure, Except.pure]
      · intro k
        rw [h2 k, List.filter_append]
        have : [p].filter (fun q => decide (q.1 = k ∧ (k = "node_lon" ∨ k = "node_lat")))
            = [] := by
          rw [List.filter_eq_nil_iff]
          intro q hq
          rw [List.mem_singleton] at hq
          subst hq
          rw [decide_eq_true_eq]
          rintro ⟨rfl, h⟩
          exact hp h
        rw [this, List.append_nil]

/-- C74 for names in lower case, among any other entries of the topology that do not concern nodes.
Names with capital letters are missing, see `C74_topology_refuted`. -/
theorem C74_topology_names_partial (f : File K) (gt : Topology) (a b : FileVar K)
    (hk : (gt.map Prod.fst).Nodup) (hc : ∀ p ∈ gt, p.1 ∉ usualCombined)
    (ha : ("node_lon", a.name) ∈ gt) (hb : ("node_lat", b.name) ∈ gt)
    (hla : Named f a.name a) (hlb : Named f b.name b) :
    ∃ r, findBase f (some gt) = .ok (r, gt) ∧ lookup r "node_lon" = some a.arr ∧
      lookup r "node_lat" = some b.arr ∧
      ∀ k, k ≠ "node_lon" → k ≠ "node_lat" → lookup r k = none := by
  have only : ∀ k x, (k, x) ∈ gt → (k = "node_lon" ∨ k = "node_lat") →
      gt.filter (fun p => p.1 = k ∧ (k = "node_lon" ∨ k = "node_lat")) = [(k, x)] := by
    intro k x hx hkk
    clear ha hb hc
    induction gt with
    | nil => cases hx
    | cons p t ih =>
      simp only [List.map_cons, List.nodup_cons] at hk
      rcases List.mem_cons.1 hx with rfl | hx
      · have : t.filter (fun p => decide (p.1 = k ∧ (k = "node_lon" ∨ k = "node_lat"))) = [] := by
          rw [List.filter_eq_nil_iff]
          intro q hq
          rw [decide_eq_true_eq]
          rintro ⟨rfl, -⟩
          exact hk.1 (List.mem_map.2 ⟨q, hq, rfl⟩)
        rw [List.filter_cons, this]
        simp [hkk]
      · have hne : p.1 ≠ k := by
          rintro rfl
          exact hk.1 (List.mem_map.2 ⟨_, hx, rfl⟩)
        rw [List.filter_cons, ih hk.2 hx]
        simp [hne]
  rw [← lookup_lowerVars] at hla hlb
  obtain ⟨d, h1, h2⟩ := foldl_base (lowerVars f) gt [] hc (by
    intro p hp hpk
    have hu := only p.1 p.2 hp hpk
    rcases hpk with e | e
    · have := only _ _ ha (Or.inl rfl)
      rw [e, this] at hu
      simp only [List.cons.injEq, Prod.mk.injEq, and_true, true_and] at hu
      exact ⟨a, by rw [← hu]; exact hla⟩
    · have := only _ _ hb (Or.inr rfl)
      rw [e, this] at hu
      simp only [List.cons.injEq, Prod.mk.injEq, and_true, true_and] at hu
      exact ⟨b, by rw [← hu]; exact hlb⟩)
  refine ⟨d, ?_, ?_, ?_, ?_⟩
  · simp only [findBase, h1]; rfl
  · rw [h2, only _ _ ha (Or.inl rfl)]
    simp [hla]
  · rw [h2, only _ _ hb (Or.inr rfl)]
    simp [hlb]
  · intro k hk1 hk2
    rw [h2]
    have : gt.filter (fun p => decide (p.1 = k ∧ (k = "node_lon" ∨ k = "node_lat"))) = [] := by
      simp [hk1, hk2]
    rw [this]
    rfl

/-- C74. If the file has a variable called `nodes`, an entry for combined nodes gives its columns:
longitude first. -/
theorem C74_topology_combined_found (f : File K) (x : String) (v : FileVar K) (lon lat : List K)
    (hv : Named f "nodes" v) (hi : Interleaved v.arr.data lon lat) :
    findBase f (some [("nodes", x)]) =
      .ok ([("node_lon", ⟨[lon.length], lon⟩), ("node_lat", ⟨[lon.length], lat⟩)], [("nodes", x)]) := by
  rw [← lookup_lowerVars] at hv
  obtain ⟨he, ho⟩ := pairs_of_interleaved hi
  have hm : v.arr.data.length % 2 = 0 := by rw [hi.1]; omega
  have hlen : v.arr.data.length / 2 = lon.length := by rw [hi.1]; omega
  simp only [findBase, List.foldl_cons, List.foldl_nil, baseStep, bind, Except.bind, getVar, hv]
  simp [compositeNames, pure, Except.pure, splitPairs, hm, he, ho, hlen, assign]

/-- C74. An entry for combined nodes is looked up under the name of the entry, not under the name of
the variable given for it: if the file has no variable called `nodes`, the name given is not found,
even if it is that of a variable. -/
theorem C74_topology_combined (f : File K) (a : FileVar K) (h : ¬ Has f "nodes") :
    findBase f (some [("nodes", a.name)]) = .error .keyError := by
  have := (not_has_iff f "nodes").1 h
  simp only [findBase, List.foldl_cons, List.foldl_nil, baseStep, bind, Except.bind, getVar, this]
  simp [compositeNames, pure, Except.pure]

end

example : findBase (⟨[⟨"x", ⟨[2], [1, 2]⟩, none, none, none⟩, ⟨"y", ⟨[2], [3, 4]⟩, none, none, none⟩,
      ⟨"mesh", ⟨[], []⟩, none, none, none⟩], none⟩ : File Rat)
      (some [("node_lat", "y"), ("grid_type", "ugrid"), ("node_lon", "x")]) =
      .ok ([("node_lat", ⟨[2], [3, 4]⟩), ("node_lon", ⟨[2], [1, 2]⟩)],
        [("node_lat", "y"), ("grid_type", "ugrid"), ("node_lon", "x")]) ∧
    Named (⟨[⟨"x", ⟨[2], [1, 2]⟩, none, none, none⟩, ⟨"y", ⟨[2], [3, 4]⟩, none, none, none⟩],
      none⟩ : File Rat) "x" ⟨"x", ⟨[2], [1, 2]⟩, none, none, none⟩ := by
  refine ⟨by decide +kernel, [], [_], rfl, by decide +kernel, ?_⟩
  intro u hu
  rw [List.mem_singleton] at hu
  subst hu
  decide +kernel

/-- An entry for combined nodes whose variable is called `nodes`. -/
example : findBase (⟨[⟨"Nodes", ⟨[2, 2], [1, 3, 2, 4]⟩, none, none, none⟩], none⟩ : File Rat)
      (some [("nodes", "Nodes")]) =
      .ok ([("node_lon", ⟨[2], [1, 2]⟩), ("node_lat", ⟨[2], [3, 4]⟩)], [("nodes", "Nodes")]) ∧
    Named (⟨[⟨"Nodes", ⟨[2, 2], [1, 3, 2, 4]⟩, none, none, none⟩], none⟩ : File Rat) "nodes"
      ⟨"Nodes", ⟨[2, 2], [1, 3, 2, 4]⟩, none, none, none⟩ ∧
    Interleaved ([1, 3, 2, 4] : List Rat) [1, 2] [3, 4] := by
  refine ⟨by decide +kernel, ⟨[], [], rfl, by decide +kernel, by simp⟩, rfl, rfl, ?_⟩
  intro i hi
  have : i = 0 ∨ i = 1 := by simp at hi; omega
  rcases this with rfl | rfl <;> exact ⟨rfl, rfl⟩

/-! ## C78 -/

/-- C78 as stated: the faces of a file come out one triangle per row, counting from zero, whether
they are stored by rows or by columns and counting from zero or from one. -/
def C78_statement : Prop :=
  ∀ (a lon : Arr Rat) (tris : List (Nat × Nat × Nat)) (n : Nat) (b : Rat), tris ≠ [] →
    (∀ t ∈ tris, t.1 < n ∧ t.2.1 < n ∧ t.2.2 < n) → lon.shape = [n] → (b = 0 ∨ b = 1) →
    (Rows a b tris ∨ Cols a b tris) →
    ∃ c, normaliseFaces a lon = .ok c ∧ Rows c 0 tris

/-- C78 fails for three triangles stored by rows, which are read as if stored by columns. -/
theorem C78_refuted : ¬ C78_statement := by
  intro h
  obtain ⟨c, h1, h2⟩ := h ⟨[3, 3], [0, 1, 2, 0, 2, 3, 0, 3, 4]⟩ ⟨[5], [0, 1, 2, 3, 4]⟩
    [(0, 1, 2), (0, 2, 3), (0, 3, 4)] 5 0 (by simp) (by decide) rfl (Or.inl rfl) (Or.inl ⟨rfl, rfl, by
      intro i j hi hj
      have : ∀ i < 3, ∀ j < 3, ([0, 1, 2, 0, 2, 3, 0, 3, 4] : List Rat)[i * 3 + j]? =
        some ((corner [(0, 1, 2), (0, 2, 3), (0, 3, 4)] i j : Rat) + 0) := by decide +kernel
      exact this i hi j hj⟩)
  have e : normaliseFaces (⟨[3, 3], [0, 1, 2, 0, 2, 3, 0, 3, 4]⟩ : Arr Rat)
      ⟨[5], [0, 1, 2, 3, 4]⟩ = .ok ⟨[3, 3], [0, 0, 0, 1, 2, 3, 2, 3, 4]⟩ := by decide +kernel
  rw [e] at h1
  cases h1
  have := h2.2.2 0 1 (by decide) (by decide)
  revert this
  decide +kernel

/-- Faces that count from one are left as they are if no face uses the last node. -/
example : normaliseFaces (⟨[2, 3], [1, 2, 3, 2, 3, 4]⟩ : Arr Rat) ⟨[5], [0, 1, 2, 3, 4]⟩ =
    .ok ⟨[2, 3], [1, 2, 3, 2, 3, 4]⟩ := by
  decide +kernel

section
variable {K : Type} [Field K] [LinearOrder K] [IsStrictOrderedRing K]

/-- C78 for any triangles stored by columns and any but three stored by rows, if the last node is
used by some triangle or the indices count from zero. The other cases are missing, see
`C78_refuted` and the example after it. -/
theorem C78_faces_partial (a lon : Arr K) (tris : List (Nat × Nat × Nat)) (n : Nat)
    (rest : List Nat) (b : K) (hne : tris ≠ [])
    (hlt : ∀ t ∈ tris, t.1 < n ∧ t.2.1 < n ∧ t.2.2 < n) (hlon : lon.shape = n :: rest)
    (hb : b = 0 ∨ b = 1)
    (hlast : b = 1 → ∃ t ∈ tris, t.1 + 1 = n ∨ t.2.1 + 1 = n ∨ t.2.2 + 1 = n)
    (ha : (Rows a b tris ∧ tris.length ≠ 3) ∨ Cols a b tris) :
    ∃ c, normaliseFaces a lon = .ok c ∧ Rows c 0 tris := by
  obtain ⟨k, a', hs, hr, e⟩ : ∃ k a', (∃ t, a.shape = k :: t) ∧ Rows a' b tris ∧
      (if k = 3 then transpose a else a) = a' := by
    rcases ha with ⟨ha, h3⟩ | ha
    · exact ⟨tris.length, a, ⟨[3], ha.1⟩, ha, by rw [if_neg h3]⟩
    · refine ⟨3, ⟨[tris.length, 3], Util.transposeData 3 tris.length a.data⟩,
        ⟨[tris.length], ha.1⟩, ?_, ?_⟩
      · exact Util.holds_transpose 3 tris.length a _ ha
      · rw [if_pos rfl]
        unfold transpose
        rw [ha.1]
  obtain ⟨t, hs⟩ := hs
  obtain ⟨m, c, h1, h2, h3⟩ := normalise_rows a' b tris hr n hb hne hlt hlast
  refine ⟨c, ?_, h3⟩
  unfold normaliseFaces
  simp only [hs, e, bind, Except.bind, h1, hlon]
  split
  · rename_i hm
    rw [if_pos hm] at h2
    rw [h2]
    rfl
  · rename_i hm
    rw [if_neg hm] at h2
    rw [h2]
    rfl

/-- C78 for a file: the triangles of a file with the usual names. -/
theorem C78_file_partial (f : File K) (n1 n2 nf : String) (v1 v2 v : FileVar K)
    (hn : FirstPair f usualNodes n1 n2) (h1 : Named f n1 v1) (h2 : Named f n2 v2)
    (hf : FirstName f usualFaces nf) (hv : Named f nf v)
    (tris : List (Nat × Nat × Nat)) (n : Nat) (rest : List Nat) (b : K) (hne : tris ≠ [])
    (hlt : ∀ t ∈ tris, t.1 < n ∧ t.2.1 < n ∧ t.2.2 < n) (hlon : v1.arr.shape = n :: rest)
    (hb : b = 0 ∨ b = 1)
    (hlast : b = 1 → ∃ t ∈ tris, t.1 + 1 = n ∨ t.2.1 + 1 = n ∨ t.2.2 + 1 = n)
    (ha : (Rows v.arr b tris ∧ tris.length ≠ 3) ∨ Cols v.arr b tris) :
    ∃ c, findU f none = .ok ([("node_lon", v1.arr), ("node_lat", v2.arr), ("faces", c)],
        [("node_lon", n1), ("node_lat", n2), ("faces", nf)]) ∧ Rows c 0 tris := by
  obtain ⟨c, h, hr⟩ := C78_faces_partial v.arr v1.arr tris n rest b hne hlt hlon hb hlast ha
  refine ⟨c, ?_, hr⟩
  rw [findU_pair f n1 n2 nf v1 v2 v hn h1 h2 hf hv, h]
  rfl

end

/-- Two triangles by columns, counting from one. -/
example :
    normaliseFaces (⟨[3, 2], [1, 2, 2, 3, 3, 4]⟩ : Arr Rat) ⟨[4], [0, 1, 0, 1]⟩ =
      .ok ⟨[2, 3], [0, 1, 2, 1, 2, 3]⟩ ∧
    Cols (⟨[3, 2], [1, 2, 2, 3, 3, 4]⟩ : Arr Rat) 1 [(0, 1, 2), (1, 2, 3)] := by
  refine ⟨by decide +kernel, rfl, rfl, ?_⟩
  intro i j hi hj
  have : ∀ i < 3, ∀ j < 2, ([1, 2, 2, 3, 3, 4] : List Rat)[i * 2 + j]? =
      some ((corner [(0, 1, 2), (1, 2, 3)] j i : Rat) + 1) := by decide +kernel
  exact this i hi j hj

/-! ## C79 -/

/-- C79 as stated: the names recorded for the parts of a grid that is found in a file are names of
variables of the file. -/
def C79_statement : Prop :=
  ∀ (f : File Rat) (k : Kind) (r : Args Rat × Topology),
    (match k with
      | .U => findU f none
      | .S => findS f none
      | .R => findR f none) = .ok r →
    ∀ p ∈ r.2, Has f p.2

/-- C79 fails for structured grids: a mask of the nodes is recorded whether or not there is one. -/
theorem C79_refuted : ¬ C79_statement := by
  intro h
  have := h ⟨[⟨"lon", ⟨[2, 2], [0, 1, 0, 1]⟩, none, none, none⟩,
    ⟨"lat", ⟨[2, 2], [0, 0, 1, 1]⟩, none, none, none⟩], none⟩ .S
    ([("node_lon", ⟨[2, 2], [0, 1, 0, 1]⟩), ("node_lat", ⟨[2, 2], [0, 0, 1, 1]⟩)],
      [("node_lon", "lon"), ("node_lat", "lat"), ("node_mask", "mask_psi")]) (by decide +kernel)
    ("node_mask", "mask_psi") (by decide)
  obtain ⟨v, hv, hn⟩ := this
  revert v
  decide +kernel

section
variable {K : Type} [Field K] [LinearOrder K]

theorem firstPair_has (f : File K) (names : List (String × String)) (r)
    (h : firstPair (lowerVars f) names = some r) : Has f r.1.1 ∧ Has f r.1.2 := by
  obtain ⟨⟨_, _, _, h1, h2, _⟩, _⟩ := firstPair_some f names r h
  exact ⟨h1, h2⟩

theorem findBase_has (f : File K) (r) (h : findBase f none = .ok r) : ∀ p ∈ r.2, Has f p.2 := by
  unfold findBase at h
  simp only at h
  split at h
  · next n lon lat e =>
    cases h
    have := firstPair_has f _ _ e
    intro p hp
    simp only [List.mem_cons, List.not_mem_nil, or_false] at hp
    rcases hp with rfl | rfl
    · exact this.1
    · exact this.2
  · split at h
    · next n v e =>
      obtain ⟨⟨_, _, _, h1, _⟩, _⟩ := firstIn_some f _ _ e
      unfold splitPairs at h
      split at h
      · cases h
        intro p hp
        rw [List.mem_singleton] at hp
        subst hp
        exact h1
      · cases h
    · cases h

theorem assign_all {ν : Type} (P : ν → Prop) (d : List (String × ν)) (k : String) (v : ν)
    (hd : ∀ p ∈ d, P p.2) (hv : P v) : ∀ p ∈ assign d k v, P p.2 := by
  intro p hp
  rcases Cache.mem_assign d k v p hp with h | h
  · exact hd p h
  · rw [h]; exact hv

/-- C79 for unstructured and rectangular grids, and for structured grids but for the mask of the
nodes, see `C79_refuted`. -/
theorem C79_recorded_partial (f : File K) (r : Args K × Topology) :
    (findU f none = .ok r → ∀ p ∈ r.2, Has f p.2) ∧
    (findR f none = .ok r → ∀ p ∈ r.2, Has f p.2) ∧
    (findS f none = .ok r → ∀ p ∈ r.2, Has f p.2 ∨ p = ("node_mask", "mask_psi")) := by
  refine ⟨?_, ?_, ?_⟩
  · intro h
    unfold findU at h
    cases hb : findBase f none with
    | error e => rw [hb] at h; cases h
    | ok q =>
      rw [hb] at h
      have hq := findBase_has f q hb
      simp only [bind, Except.bind] at h
      cases hi : firstIn (lowerVars f) faceNames with
      | none => rw [hi] at h; cases h
      | some x =>
        obtain ⟨n, v⟩ := x
        obtain ⟨⟨_, _, _, h1, _⟩, _⟩ := firstIn_some f _ _ hi
        rw [hi] at h
        simp only [pure, Except.pure] at h
        split at h
        · cases h
        · split at h <;> cases h
        · split at h
          · cases h
          · cases h
            exact assign_all (Has f) _ _ _ hq h1
  · intro h
    unfold findR at h
    cases hb : findBase f none with
    | error e => rw [hb] at h; cases h
    | ok q =>
      rw [hb] at h
      have hq := findBase_has f q hb
      simp only [bind, Except.bind] at h
      split at h
      · split at h
        · cases h
        · split at h
          · cases h
          · cases h; exact hq
      · cases h
  · intro h
    unfold findS at h
    cases hb : findBase f none with
    | error e => rw [hb] at h; cases h
    | ok q =>
      rw [hb] at h
      have hq := findBase_has f q hb
      have hg : ∀ (gs : List ((String × String) × List (String × String) × String × String))
          (acc : Args K × Topology), (∀ p ∈ acc.2, Has f p.2) →
          ∀ p ∈ (gs.foldl (groupStep (lowerVars f)) acc).2, Has f p.2 := by
        intro gs
        induction gs with
        | nil => intro acc h; exact h
        | cons g gs ih =>
          intro acc h
          rw [List.foldl_cons]
          refine ih _ ?_
          unfold groupStep
          split
          · exact h
          · next n a1 a2 e =>
            have hh := firstPair_has f _ _ e
            cases hl : lookup (lowerVars f) g.2.2.2 with
            | none =>
              exact assign_all (Has f) _ _ _ (assign_all (Has f) _ _ _ h hh.1) hh.2
            | some v =>
              exact assign_all (Has f) _ _ _ (assign_all (Has f) _ _ _
                (assign_all (Has f) _ _ _ h ((has_iff f _).2 ⟨v, hl⟩)) hh.1) hh.2
      simp only [bind, Except.bind] at h
      have hgg := hg groups (q.1, q.2) hq
      split at h
      · cases h
        intro p hp
        rcases Cache.mem_assign _ _ _ p hp with h | h
        · exact Or.inl (hgg p h)
        · exact Or.inr h
      · cases h
        intro p hp
        exact Or.inl (hgg p hp)

end

/-! ## C80 -/

/-- C80 as stated: a file that does not say what it is and whose kind is recognised can be loaded. -/
def C80_statement : Prop :=
  ∀ (f : File Rat) (k : Kind), Silent f → gridType f none none = .ok k →
    ∃ r, fromFile f none none = .ok r

/-- C80 fails for a file with combined nodes and no faces: it counts as rectangular, but the names
of longitude and latitude are then asked for. -/
theorem C80_refuted : ¬ C80_statement := by
  intro h
  obtain ⟨r, hr⟩ := h ⟨[⟨"nodes", ⟨[2, 2], [0, 1, 0, 1]⟩, none, none, none⟩], none⟩ .R
    ⟨by simp, by intro v hv; rw [List.mem_singleton] at hv; subst hv; simp [IsTopology]⟩
    (by decide +kernel)
  have e : fromFile (⟨[⟨"nodes", ⟨[2, 2], [0, 1, 0, 1]⟩, none, none, none⟩], none⟩ : File Rat) none
    none = .error .keyError := by decide +kernel
  rw [e] at hr
  cases hr

section
variable {K : Type} [Field K] [LinearOrder K]

theorem silent_not_compliant (f : File K) (h : Silent f) : compliant f none = false := by
  unfold compliant topologyVar
  simp only [Option.isSome_eq_false_iff, Option.isNone_iff_eq_none, List.find?_eq_none]
  intro u hu
  have := h.2 u hu
  unfold IsTopology at this
  cases hc : u.cfRole with
  | none => simp
  | some r =>
    intro hh
    exact this ⟨r, hc, (SText.contains_iff _ _).1 hh⟩

/-- C80 for files with separate longitude and latitude: the grid is built, of the kind recognised,
from the arguments found. Files with combined nodes are missing, see `C80_refuted`. -/
theorem C80_loads_partial (f : File K) (k : Kind) (h : Silent f)
    (hk : gridType f none none = .ok k) (n1 n2 : String) (hn : FirstPair f usualNodes n1 n2) :
    ∃ args gt, fromFile f none none = .ok (.built k args gt) ∧
      (match k with
        | .U => findU f none
        | .S => findS f none
        | .R => findR f none) = .ok (args, gt) := by
  obtain ⟨v1, h1⟩ : ∃ v, Named f n1 v := by
    obtain ⟨_, _, _, hh, _, _⟩ := hn
    obtain ⟨v, hv⟩ := (has_iff f n1).1 hh
    exact ⟨v, (lookup_lowerVars f n1 v).1 hv⟩
  obtain ⟨v2, h2⟩ : ∃ v, Named f n2 v := by
    obtain ⟨_, _, _, _, hh, _⟩ := hn
    obtain ⟨v, hv⟩ := (has_iff f n2).1 hh
    exact ⟨v, (lookup_lowerVars f n2 v).1 hv⟩
  have hb := C74_found_pair f n1 n2 v1 v2 hn h1 h2
  have hs := silent_search f h
  rw [hk] at hs
  have hc := silent_not_compliant f h
  unfold fromFile
  rw [hk]
  simp only [bind, Except.bind, hc, Bool.false_eq_true, if_false]
  unfold orElse at hs
  cases hU : findU f none with
  | ok u =>
    rw [hU] at hs
    cases hs
    exact ⟨_, _, rfl, rfl⟩
  | error e =>
    rw [hU] at hs
    cases e <;> simp only [reduceCtorEq] at hs
    cases hR : findR f none with
    | ok r =>
      rw [hR] at hs
      cases hs
      have hr : r.2 = [("node_lon", n1), ("node_lat", n2)] := by
        unfold findR at hR
        rw [hb] at hR
        simp only [bind, Except.bind] at hR
        split at hR
        · split at hR
          · cases hR
          · split at hR
            · cases hR
            · cases hR; rfl
        · cases hR
      refine ⟨r.1, r.2, ?_, rfl⟩
      simp only [hr, lookup, String.reduceEq, if_true, if_false]
      rfl
    | error e =>
      rw [hR] at hs
      cases e <;> simp only [reduceCtorEq] at hs
      cases hS : findS f none with
      | ok r =>
        rw [hS] at hs
        cases hs
        exact ⟨_, _, rfl, rfl⟩
      | error e =>
        rw [hS] at hs
        cases e <;> simp at hs

/-- C80. A file with a topology variable cannot be loaded as a rectangular grid. -/
theorem C80_conventions (f : File K) (t : String) (ht : t.toLower ∈ kindNames .R)
    (v : FileVar K) (hv : v ∈ f.vars) (hT : IsTopology v) :
    fromFile f (some t) none = .error .attributeError := by
  have hc : compliant f none = true := by
    unfold compliant topologyVar
    simp only [List.find?_isSome]
    obtain ⟨r, hr, hh⟩ := hT
    exact ⟨v, hv, by rw [hr]; exact (SText.contains_iff _ _).2 hh⟩
  unfold fromFile
  rw [(C56_caller f t none).1 .R ht]
  simp only [bind, Except.bind, hc, if_true]

/-- C80 with a topology given by the caller: if its role mentions a topology, the file is read after its
conventions, which fails for rectangular grids; otherwise whatever is loaded is built, of the kind
decided, from the arguments found with that topology. -/
theorem C80_given (f : File K) (caller : Option String) (gt : Topology)
    (hn : (gt.map Prod.fst).Nodup) (k : Kind) (hk : gridType f caller (some gt) = .ok k) :
    (∀ r, ("cf_role", r) ∈ gt → (∃ pre post, r.toList = pre ++ "topology".toList ++ post) →
      fromFile f caller (some gt) = if k = .R then .error .attributeError else .ok (.conventions k)) ∧
    ((∀ r, ("cf_role", r) ∈ gt → ¬ ∃ pre post, r.toList = pre ++ "topology".toList ++ post) →
      ∀ l, fromFile f caller (some gt) = .ok l → ∃ args gt', l = .built k args gt' ∧
        (match k with
          | .U => findU f (some gt)
          | .S => findS f (some gt)
          | .R => findR f (some gt)) = .ok (args, gt')) := by
  have hl : ∀ (gt : Topology) (a : String) (r : String), (gt.map Prod.fst).Nodup →
      (lookup gt a = some r ↔ (a, r) ∈ gt) := by
    intro gt a r hn
    induction gt with
    | nil => simp [lookup]
    | cons p t ih =>
      obtain ⟨x, y⟩ := p
      simp only [List.map_cons, List.nodup_cons] at hn
      simp only [lookup, List.mem_cons, Prod.mk.injEq]
      by_cases h : x = a
      · subst h
        have : (x, r) ∉ t := fun hm => hn.1 (List.mem_map.2 ⟨_, hm, rfl⟩)
        simp [this, eq_comm]
      · rw [if_neg h, ih hn.2]
        simp [Ne.symm h]
  constructor
  · intro r hr hh
    have hc : compliant f (some gt) = true := by
      unfold compliant
      simp only [(hl gt _ _ hn).2 hr]
      exact (SText.contains_iff _ _).2 hh
    unfold fromFile
    rw [hk]
    cases k <;> simp [bind, Except.bind, hc, pure, Except.pure]
  · intro hno l hf
    have hc : compliant f (some gt) = false := by
      unfold compliant
      simp only
      cases h : lookup gt "cf_role" with
      | none => rfl
      | some r =>
        simp only
        rw [← Bool.not_eq_true]
        exact fun hh => hno r ((hl gt _ _ hn).1 h) ((SText.contains_iff _ _).1 hh)
    unfold fromFile at hf
    rw [hk] at hf
    simp only [bind, Except.bind, hc, Bool.false_eq_true, if_false] at hf
    cases k with
    | U =>
      simp only at hf ⊢
      cases hU : findU f (some gt) with
      | error e => rw [hU] at hf; cases hf
      | ok u => rw [hU] at hf; cases hf; exact ⟨_, _, rfl, rfl⟩
    | S =>
      simp only at hf ⊢
      cases hU : findS f (some gt) with
      | error e => rw [hU] at hf; cases hf
      | ok u => rw [hU] at hf; cases hf; exact ⟨_, _, rfl, rfl⟩
    | R =>
      simp only at hf ⊢
      cases hU : findR f (some gt) with
      | error e => rw [hU] at hf; cases hf
      | ok u =>
        rw [hU] at hf
        simp only at hf
        split at hf
        · cases hf; exact ⟨_, _, rfl, rfl⟩
        · cases hf

end

/-- A topology with a role: the file is read after its conventions. Without one the grid is built. -/
example : fromFile (⟨[], none⟩ : File Rat) none (some [("cf_role", "mesh_topology"), ("faces", "nv")]) =
      .ok (.conventions .U) ∧
    fromFile (⟨[⟨"x", ⟨[2], [1, 2]⟩, none, none, none⟩, ⟨"y", ⟨[2], [3, 4]⟩, none, none, none⟩], none⟩ :
      File Rat) (some "rgrid") (some [("node_lon", "x"), ("node_lat", "y")]) =
      .ok (.built .R [("node_lon", ⟨[2], [1, 2]⟩), ("node_lat", ⟨[2], [3, 4]⟩)]
        [("node_lon", "x"), ("node_lat", "y")]) := by
  decide +kernel

/-- A file with longitude and latitude in one dimension each. -/
example : fromFile (⟨[⟨"lon", ⟨[3], [0, 1, 2]⟩, none, none, none⟩,
      ⟨"lat", ⟨[2], [0, 1]⟩, none, none, none⟩], none⟩ : File Rat) none none =
    .ok (.built .R [("node_lon", ⟨[3], [0, 1, 2]⟩), ("node_lat", ⟨[2], [0, 1]⟩)]
      [("node_lon", "lon"), ("node_lat", "lat")]) := by
  decide +kernel

/-! ## C81 -/

section
variable {K : Type} [Field K] [LinearOrder K]

theorem groupStep_other (gf : List (String × FileVar K)) (acc : Args K × Topology)
    (g : (String × String) × List (String × String) × String × String) (k : String)
    (h1 : k ≠ g.1.1) (h2 : k ≠ g.1.2) (h3 : k ≠ g.2.2.1) :
    lookup (groupStep gf acc g).1 k = lookup acc.1 k ∧
      lookup (groupStep gf acc g).2 k = lookup acc.2 k := by
  unfold groupStep
  split
  · exact ⟨rfl, rfl⟩
  · cases lookup gf g.2.2.2 <;>
      simp only [lookup_assign_ne _ _ _ _ h1.symm, lookup_assign_ne _ _ _ _ h2.symm,
        lookup_assign_ne _ _ _ _ h3.symm, and_self]

theorem groupStep_own (f : File K) (acc : Args K × Topology)
    (g : (String × String) × List (String × String) × String × String)
    (h12 : g.1.1 ≠ g.1.2) (h13 : g.1.1 ≠ g.2.2.1) (h23 : g.1.2 ≠ g.2.2.1)
    (ha : ∀ k ∈ [g.1.1, g.1.2, g.2.2.1], lookup acc.1 k = none) :
    (∀ n1 n2 v1 v2, FirstPair f g.2.1 n1 n2 → Named f n1 v1 → Named f n2 v2 →
      lookup (groupStep (lowerVars f) acc g).1 g.1.1 = some v1.arr ∧
      lookup (groupStep (lowerVars f) acc g).1 g.1.2 = some v2.arr ∧
      lookup (groupStep (lowerVars f) acc g).2 g.1.1 = some n1 ∧
      lookup (groupStep (lowerVars f) acc g).2 g.1.2 = some n2 ∧
      (∀ v, Named f g.2.2.2 v →
        lookup (groupStep (lowerVars f) acc g).1 g.2.2.1 = some v.arr) ∧
      (¬ Has f g.2.2.2 → lookup (groupStep (lowerVars f) acc g).1 g.2.2.1 = none)) ∧
    ((∀ p ∈ g.2.1, ¬ (Has f p.1 ∧ Has f p.2)) →
      ∀ k ∈ [g.1.1, g.1.2, g.2.2.1], lookup (groupStep (lowerVars f) acc g).1 k = none) := by
  constructor
  · intro n1 n2 v1 v2 hp hv1 hv2
    have e := firstPair_spec f g.2.1 n1 n2 v1 v2 hp hv1 hv2
    unfold groupStep
    rw [e]
    simp only
    cases hm : lookup (lowerVars f) g.2.2.2 with
    | none =>
      simp only
      refine ⟨?_, ?_, ?_, ?_, ?_, ?_⟩
      · rw [lookup_assign_ne _ _ _ _ h12.symm, Cache.lookup_assign_self]
      · rw [Cache.lookup_assign_self]
      · rw [lookup_assign_ne _ _ _ _ h12.symm, Cache.lookup_assign_self]
      · rw [Cache.lookup_assign_self]
      · intro v hv
        rw [← lookup_lowerVars, hm] at hv
        cases hv
      · intro _
        rw [lookup_assign_ne _ _ _ _ h23, lookup_assign_ne _ _ _ _ h13]
        exact ha _ (by simp)
    | some w =>
      simp only
      refine ⟨?_, ?_, ?_, ?_, ?_, ?_⟩
      · rw [lookup_assign_ne _ _ _ _ h13.symm, lookup_assign_ne _ _ _ _ h12.symm, Cache.lookup_assign_self]
      · rw [lookup_assign_ne _ _ _ _ h23.symm, Cache.lookup_assign_self]
      · rw [lookup_assign_ne _ _ _ _ h12.symm, Cache.lookup_assign_self]
      · rw [Cache.lookup_assign_self]
      · intro v hv
        rw [← lookup_lowerVars, hm] at hv
        cases hv
        rw [Cache.lookup_assign_self]
      · intro hn
        exact absurd ((has_iff f _).2 ⟨w, hm⟩) hn
  · intro hn
    unfold groupStep
    rw [(firstPair_none f g.2.1).2 hn]
    exact ha

/-- The arguments found by the search without a topology are those of the nodes. -/
theorem findBase_keys (f : File K) (r) (h : findBase f none = .ok r) (k : String)
    (h1 : k ≠ "node_lon") (h2 : k ≠ "node_lat") : lookup r.1 k = none := by
  unfold findBase at h
  simp only at h
  split at h
  · cases h
    simp [lookup, h1.symm, h2.symm]
  · split at h
    · unfold splitPairs at h
      split at h
      · cases h
        simp [lookup, h1.symm, h2.symm]
      · cases h
    · cases h

theorem findBase_nodes (f : File K) (r) (h : findBase f none = .ok r) :
    ∃ a b, lookup r.1 "node_lon" = some a ∧ lookup r.1 "node_lat" = some b := by
  unfold findBase at h
  simp only at h
  split at h
  · cases h
    exact ⟨_, _, rfl, rfl⟩
  · split at h
    · unfold splitPairs at h
      split at h
      · cases h
        exact ⟨_, _, rfl, rfl⟩
      · cases h
    · cases h

theorem findS_result (f : File K) (r) (h : findS f none = .ok r) :
    ∃ q, findBase f none = .ok q ∧
      (∀ k, k ≠ "node_mask" →
        lookup r.1 k = lookup (groups.foldl (groupStep (lowerVars f)) q).1 k ∧
        lookup r.2 k = lookup (groups.foldl (groupStep (lowerVars f)) q).2 k) ∧
      lookup r.1 "node_mask" = (lookup (lowerVars f) "mask_psi").map FileVar.arr := by
  unfold findS at h
  cases hb : findBase f none with
  | error e => rw [hb] at h; cases h
  | ok q =>
    rw [hb] at h
    refine ⟨q, rfl, ?_⟩
    simp only [bind, Except.bind] at h
    obtain ⟨a, b, ha, hb'⟩ := findBase_nodes f q hb
    have key : ∀ k, k ∈ ["node_lon", "node_lat", "node_mask"] →
        lookup (groups.foldl (groupStep (lowerVars f)) q).1 k = lookup q.1 k := by
      intro k hk
      simp only [groups, List.foldl_cons, List.foldl_nil]
      have : ∀ c : String, k ≠ c ∨ k = c := fun c => (em _).symm
      simp only [List.mem_cons, List.not_mem_nil, or_false] at hk
      rcases hk with rfl | rfl | rfl <;>
      · rw [(groupStep_other _ _ _ _ (by simp) (by simp) (by simp)).1,
          (groupStep_other _ _ _ _ (by simp) (by simp) (by simp)).1,
          (groupStep_other _ _ _ _ (by simp) (by simp) (by simp)).1]
    have k1 := key "node_lon" (by simp)
    have k2 := key "node_lat" (by simp)
    have k3 := key "node_mask" (by simp)
    rw [ha] at k1
    rw [hb'] at k2
    rw [findBase_keys f q hb "node_mask" (by simp) (by simp)] at k3
    have hq : (q.1, q.2) = q := rfl
    rw [hq, k1, k2] at h
    simp only [pure, Except.pure] at h
    cases h
    cases hm : lookup (lowerVars f) "mask_psi" with
    | none =>
      refine ⟨fun k hk => ⟨rfl, ?_⟩, ?_⟩
      · exact lookup_assign_ne _ _ _ _ hk.symm
      · exact k3
    | some v =>
      refine ⟨fun k hk => ⟨?_, ?_⟩, ?_⟩
      · exact lookup_assign_ne _ _ _ _ hk.symm
      · exact lookup_assign_ne _ _ _ _ hk.symm
      · exact Cache.lookup_assign_self _ _ _

/-- C81. A structured grid found in a file has, for its centers and for either kind of edges, the
coordinates of the first pair of usual names in the file, their recorded names, and the mask if there
is one; parts without a pair in the file are absent. -/
theorem C81_parts (f : File K) (r) (h : findS f none = .ok r) (g : OptionalPart)
    (hg : g ∈ optionalParts) :
    (∀ n1 n2 v1 v2, FirstPair f g.names n1 n2 → Named f n1 v1 → Named f n2 v2 →
      lookup r.1 g.lon = some v1.arr ∧ lookup r.1 g.lat = some v2.arr ∧
      lookup r.2 g.lon = some n1 ∧ lookup r.2 g.lat = some n2 ∧
      (∀ v, Named f g.maskName v → lookup r.1 g.mask = some v.arr) ∧
      (¬ Has f g.maskName → lookup r.1 g.mask = none)) ∧
    ((∀ p ∈ g.names, ¬ (Has f p.1 ∧ Has f p.2)) →
      ∀ k ∈ [g.lon, g.lat, g.mask], lookup r.1 k = none) := by
  obtain ⟨q, hq, hr, -⟩ := findS_result f r h
  have hk := findBase_keys f q hq
  simp only [groups, List.foldl_cons, List.foldl_nil] at hr
  simp only [optionalParts, List.mem_cons, List.not_mem_nil, or_false] at hg
  rcases hg with rfl | rfl | rfl
  · have := groupStep_own f q (("center_lon", "center_lat"),
      [("center_lon", "center_lat"), ("lon_rho", "lat_rho"), ("lonc", "latc")],
      "center_mask", "mask_rho") (by simp) (by simp) (by simp)
      (by
        intro k hk'
        simp only [List.mem_cons, List.not_mem_nil, or_false] at hk'
        rcases hk' with rfl | rfl | rfl <;> exact hk _ (by simp) (by simp))
    simp only [List.mem_cons, List.not_mem_nil, or_false, forall_eq_or_imp, forall_eq] at this ⊢
    have e0 : lookup r.1 "center_lon" =
        lookup (groupStep (lowerVars f) q groups[0]).1 "center_lon" := by
      rw [(hr _ (by simp)).1, (groupStep_other _ _ _ _ (by simp) (by simp) (by simp)).1, (groupStep_other _ _ _ _ (by simp) (by simp) (by simp)).1]
      rfl
    have e1 : lookup r.2 "center_lon" =
        lookup (groupStep (lowerVars f) q groups[0]).2 "center_lon" := by
      rw [(hr _ (by simp)).2, (groupStep_other _ _ _ _ (by simp) (by simp) (by simp)).2, (groupStep_other _ _ _ _ (by simp) (by simp) (by simp)).2]
      rfl
    have e2 : lookup r.1 "center_lat" =
        lookup (groupStep (lowerVars f) q groups[0]).1 "center_lat" := by
      rw [(hr _ (by simp)).1, (groupStep_other _ _ _ _ (by simp) (by simp) (by simp)).1, (groupStep_other _ _ _ _ (by simp) (by simp) (by simp)).1]
      rfl
    have e3 : lookup r.2 "center_lat" =
        lookup (groupStep (lowerVars f) q groups[0]).2 "center_lat" := by
      rw [(hr _ (by simp)).2, (groupStep_other _ _ _ _ (by simp) (by simp) (by simp)).2, (groupStep_other _ _ _ _ (by simp) (by simp) (by simp)).2]
      rfl
    have e4 : lookup r.1 "center_mask" =
        lookup (groupStep (lowerVars f) q groups[0]).1 "center_mask" := by
      rw [(hr _ (by simp)).1, (groupStep_other _ _ _ _ (by simp) (by simp) (by simp)).1, (groupStep_other _ _ _ _ (by simp) (by simp) (by simp)).1]
      rfl
    rw [e0, e1, e2, e3, e4]
    exact this
  · have := groupStep_own f (groupStep (lowerVars f) q groups[0]) (("edge1_lon", "edge1_lat"),
      [("edge1_lon", "edge1_lat"), ("lon_u", "lat_u")],
      "edge1_mask", "mask_u") (by simp) (by simp) (by simp)
      (by
        intro k hk'
        simp only [List.mem_cons, List.not_mem_nil, or_false] at hk'
        rcases hk' with rfl | rfl | rfl <;>
        · rw [(groupStep_other _ _ _ _ (by simp [groups]) (by simp [groups]) (by simp [groups])).1]; exact hk _ (by simp) (by simp))
    simp only [List.mem_cons, List.not_mem_nil, or_false, forall_eq_or_imp, forall_eq] at this ⊢
    have e0 : lookup r.1 "edge1_lon" =
        lookup (groupStep (lowerVars f) (groupStep (lowerVars f) q groups[0]) groups[1]).1 "edge1_lon" := by
      rw [(hr _ (by simp)).1, (groupStep_other _ _ _ _ (by simp) (by simp) (by simp)).1]
      rfl
    have e1 : lookup r.2 "edge1_lon" =
        lookup (groupStep (lowerVars f) (groupStep (lowerVars f) q groups[0]) groups[1]).2 "edge1_lon" := by
      rw [(hr _ (by simp)).2, (groupStep_other _ _ _ _ (by simp) (by simp) (by simp)).2]
      rfl
    have e2 : lookup r.1 "edge1_lat" =
        lookup (groupStep (lowerVars f) (groupStep (lowerVars f) q groups[0]) groups[1]).1 "edge1_lat" := by
      rw [(hr _ (by simp)).1, (groupStep_other _ _ _ _ (by simp) (by simp) (by simp)).1]
      rfl
    have e3 : lookup r.2 "edge1_lat" =
        lookup (groupStep (lowerVars f) (groupStep (lowerVars f) q groups[0]) groups[1]).2 "edge1_lat" := by
      rw [(hr _ (by simp)).2, (groupStep_other _ _ _ _ (by simp) (by simp) (by simp)).2]
      rfl
    have e4 : lookup r.1 "edge1_mask" =
        lookup (groupStep (lowerVars f) (groupStep (lowerVars f) q groups[0]) groups[1]).1 "edge1_mask" := by
      rw [(hr _ (by simp)).1, (groupStep_other _ _ _ _ (by simp) (by simp) (by simp)).1]
      rfl
    rw [e0, e1, e2, e3, e4]
    exact this
  · have := groupStep_own f (groupStep (lowerVars f) (groupStep (lowerVars f) q groups[0]) groups[1]) (("edge2_lon", "edge2_lat"),
      [("edge2_lon", "edge2_lat"), ("lon_v", "lat_v")],
      "edge2_mask", "mask_v") (by simp) (by simp) (by simp)
      (by
        intro k hk'
        simp only [List.mem_cons, List.not_mem_nil, or_false] at hk'
        rcases hk' with rfl | rfl | rfl <;>
        · rw [(groupStep_other _ _ _ _ (by simp [groups]) (by simp [groups]) (by simp [groups])).1]; rw [(groupStep_other _ _ _ _ (by simp [groups]) (by simp [groups]) (by simp [groups])).1]; exact hk _ (by simp) (by simp))
    simp only [List.mem_cons, List.not_mem_nil, or_false, forall_eq_or_imp, forall_eq] at this ⊢
    have e0 : lookup r.1 "edge2_lon" =
        lookup (groupStep (lowerVars f) (groupStep (lowerVars f) (groupStep (lowerVars f) q groups[0]) groups[1]) groups[2]).1 "edge2_lon" := by
      rw [(hr _ (by simp)).1]
      rfl
    have e1 : lookup r.2 "edge2_lon" =
        lookup (groupStep (lowerVars f) (groupStep (lowerVars f) (groupStep (lowerVars f) q groups[0]) groups[1]) groups[2]).2 "edge2_lon" := by
      rw [(hr _ (by simp)).2]
      rfl
    have e2 : lookup r.1 "edge2_lat" =
        lookup (groupStep (lowerVars f) (groupStep (lowerVars f) (groupStep (lowerVars f) q groups[0]) groups[1]) groups[2]).1 "edge2_lat" := by
      rw [(hr _ (by simp)).1]
      rfl
    have e3 : lookup r.2 "edge2_lat" =
        lookup (groupStep (lowerVars f) (groupStep (lowerVars f) (groupStep (lowerVars f) q groups[0]) groups[1]) groups[2]).2 "edge2_lat" := by
      rw [(hr _ (by simp)).2]
      rfl
    have e4 : lookup r.1 "edge2_mask" =
        lookup (groupStep (lowerVars f) (groupStep (lowerVars f) (groupStep (lowerVars f) q groups[0]) groups[1]) groups[2]).1 "edge2_mask" := by
      rw [(hr _ (by simp)).1]
      rfl
    rw [e0, e1, e2, e3, e4]
    exact this

/-- C81. Its nodes are those found for any grid, with the mask of the nodes if there is one. -/
theorem C81_nodes (f : File K) (r) (h : findS f none = .ok r) :
    ∃ q, findBase f none = .ok q ∧ lookup r.1 "node_lon" = lookup q.1 "node_lon" ∧
      lookup r.1 "node_lat" = lookup q.1 "node_lat" ∧
      (∀ v, Named f "mask_psi" v → lookup r.1 "node_mask" = some v.arr) ∧
      (¬ Has f "mask_psi" → lookup r.1 "node_mask" = none) := by
  obtain ⟨q, hq, hr, hm⟩ := findS_result f r h
  have key : ∀ k, k ∈ ["node_lon", "node_lat"] →
      lookup (groups.foldl (groupStep (lowerVars f)) q).1 k = lookup q.1 k := by
    intro k hk
    simp only [groups, List.foldl_cons, List.foldl_nil]
    simp only [List.mem_cons, List.not_mem_nil, or_false] at hk
    rcases hk with rfl | rfl <;>
    · rw [(groupStep_other _ _ _ _ (by simp) (by simp) (by simp)).1,
        (groupStep_other _ _ _ _ (by simp) (by simp) (by simp)).1,
        (groupStep_other _ _ _ _ (by simp) (by simp) (by simp)).1]
  refine ⟨q, hq, ?_, ?_, ?_, ?_⟩
  · rw [(hr _ (by simp)).1, key _ (by simp)]
  · rw [(hr _ (by simp)).1, key _ (by simp)]
  · intro v hv
    rw [hm, (lookup_lowerVars f _ _).2 hv]
    rfl
  · intro hn
    rw [hm, (not_has_iff f _).1 hn]
    rfl

theorem baseStep_other (gf : List (String × FileVar K)) (gt : Topology) (acc : Except Err (Args K))
    (d' : Args K) (k : String) (h1 : k ≠ "node_lon") (h2 : k ≠ "node_lat")
    (h : gt.foldl (baseStep gf) acc = .ok d') :
    ∃ d, acc = .ok d ∧ lookup d' k = lookup d k := by
  induction gt generalizing acc with
  | nil => exact ⟨d', h, rfl⟩
  | cons p t ih =>
    rw [List.foldl_cons] at h
    obtain ⟨d1, e1, e2⟩ := ih _ h
    unfold baseStep at e1
    cases acc with
    | error e => cases e1
    | ok d =>
      refine ⟨d, rfl, ?_⟩
      rw [e2]
      simp only [bind, Except.bind, pure, Except.pure] at e1
      split at e1
      · next hp =>
        have hpk : p.1 ≠ k := by
          intro e
          rw [e] at hp
          exact hp.elim h1 h2
        split at e1
        · cases e1
        · split at e1
          · split at e1
            · cases e1
            · split at e1
              · cases e1
              · cases e1
                rw [lookup_assign_ne _ _ _ _ h2.symm, lookup_assign_ne _ _ _ _ h1.symm,
                  lookup_assign_ne _ _ _ _ hpk]
          · cases e1
            rw [lookup_assign_ne _ _ _ _ hpk]
      · split at e1
        · split at e1
          · cases e1
          · split at e1
            · cases e1
            · cases e1
              rw [lookup_assign_ne _ _ _ _ h2.symm, lookup_assign_ne _ _ _ _ h1.symm]
        · cases e1
          rfl

theorem sStep_other (gf : List (String × FileVar K)) (d : Args K) (gt : Topology) (k : String)
    (h : ∀ p ∈ gt, p.1 ≠ k ∨ lookup gf p.2 = none) :
    lookup (gt.foldl (sStep gf) d) k = lookup d k := by
  induction gt generalizing d with
  | nil => rfl
  | cons p t ih =>
    rw [List.foldl_cons, ih _ (fun q hq => h q (List.mem_cons_of_mem _ hq))]
    unfold sStep
    rcases h p List.mem_cons_self with h | h
    · split
      · rfl
      · split
        · exact lookup_assign_ne _ _ _ _ h
        · rfl
    · rw [h]

/-- The names of the optional parts and masks. -/
def optionalNames : List String :=
  optionalParts.flatMap (fun g => [g.lon, g.lat, g.mask]) ++ ["node_mask"]

/-- C81. With a topology of the caller an optional part is the variable it names, if that name in
lower case is in the file, and is absent otherwise. -/
theorem C81_topology (f : File K) (gt : Topology) (r) (h : findS f (some gt) = .ok r)
    (k : String) (hk : k ∈ optionalNames) :
    (∀ n v pre post, gt = pre ++ (k, n) :: post → (∀ p ∈ post, p.1 ≠ k) → Named f n v →
      lookup r.1 k = some v.arr) ∧
    ((∀ p ∈ gt, p.1 = k → ¬ Has f p.2) → lookup r.1 k = none) := by
  have hk1 : k ≠ "node_lon" ∧ k ≠ "node_lat" := by
    constructor <;> (rintro rfl; revert hk; decide)
  have hk2 : k ∈ ["center_lon", "center_lat", "edge1_lon", "edge1_lat", "edge2_lon", "edge2_lat",
      "node_mask", "center_mask", "edge1_mask", "edge2_mask"] := by
    have : ∀ k ∈ optionalNames, k ∈ ["center_lon", "center_lat", "edge1_lon", "edge1_lat",
      "edge2_lon", "edge2_lat", "node_mask", "center_mask", "edge1_mask", "edge2_mask"] := by decide
    exact this k hk
  unfold findS findBase at h
  cases hb : gt.foldl (baseStep (lowerVars f)) (.ok []) with
  | error e => simp only [hb, bind, Except.bind] at h; cases h
  | ok d =>
    simp only [hb, bind, Except.bind, pure, Except.pure] at h
    cases h
    obtain ⟨d0, e0, e1⟩ := baseStep_other _ gt _ d k hk1.1 hk1.2 hb
    cases e0
    constructor
    · rintro n v pre post rfl hpost hv
      rw [List.foldl_append, List.foldl_cons, sStep_other _ _ _ _ (fun p hp => Or.inl (hpost p hp))]
      unfold sStep
      simp only [(lookup_lowerVars f n v).2 hv]
      rw [if_pos hk2, Cache.lookup_assign_self]
    · intro hn
      rw [sStep_other _ _ _ _ (fun p hp => ?_), e1]
      · rfl
      · by_cases hpk : p.1 = k
        · exact Or.inr ((not_has_iff f _).1 (hn p hp hpk))
        · exact Or.inl hpk

end

/-- A file of an ocean model with nodes, centers, one kind of edges and two masks. -/
example :
    findS (⟨[⟨"lon_psi", ⟨[1, 1], [0]⟩, none, none, none⟩,
        ⟨"lat_psi", ⟨[1, 1], [10]⟩, none, none, none⟩,
        ⟨"lonc", ⟨[1, 1], [1]⟩, none, none, none⟩, ⟨"latc", ⟨[1, 1], [11]⟩, none, none, none⟩,
        ⟨"LON_RHO", ⟨[1, 1], [2]⟩, none, none, none⟩,
        ⟨"lat_rho", ⟨[1, 1], [12]⟩, none, none, none⟩,
        ⟨"lon_v", ⟨[1, 1], [3]⟩, none, none, none⟩, ⟨"lat_v", ⟨[1, 1], [13]⟩, none, none, none⟩,
        ⟨"mask_v", ⟨[1, 1], [1]⟩, none, none, none⟩,
        ⟨"mask_u", ⟨[1, 1], [0]⟩, none, none, none⟩], none⟩ : File Rat) none =
      .ok ([("node_lon", ⟨[1, 1], [0]⟩), ("node_lat", ⟨[1, 1], [10]⟩),
        ("center_lon", ⟨[1, 1], [2]⟩), ("center_lat", ⟨[1, 1], [12]⟩),
        ("edge2_lon", ⟨[1, 1], [3]⟩), ("edge2_lat", ⟨[1, 1], [13]⟩),
        ("edge2_mask", ⟨[1, 1], [1]⟩)],
        [("node_lon", "lon_psi"), ("node_lat", "lat_psi"), ("center_lon", "lon_rho"),
          ("center_lat", "lat_rho"), ("edge2_mask", "mask_v"), ("edge2_lon", "lon_v"),
          ("edge2_lat", "lat_v"), ("node_mask", "mask_psi")]) := by
  decide +kernel

/-- A topology of the caller with a mask and a name that is not in the file. -/
example :
    findS (⟨[⟨"x", ⟨[1, 1], [0]⟩, none, none, none⟩, ⟨"y", ⟨[1, 1], [10]⟩, none, none, none⟩,
        ⟨"M", ⟨[1, 1], [1]⟩, none, none, none⟩], none⟩ : File Rat)
      (some [("node_lon", "x"), ("node_lat", "y"), ("node_mask", "m"), ("center_lon", "z")]) =
      .ok ([("node_lon", ⟨[1, 1], [0]⟩), ("node_lat", ⟨[1, 1], [10]⟩),
        ("node_mask", ⟨[1, 1], [1]⟩)],
        [("node_lon", "x"), ("node_lat", "y"), ("node_mask", "m"), ("center_lon", "z")]) := by
  decide +kernel

end Verif
