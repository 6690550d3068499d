import Verif.Lemmas.SCelltree
import Verif.Props.SIndex

/-!
# Properties of the search tree of structured grids: C43, C69
-/

set_option autoImplicit false

namespace Verif
open Verif.Spec Verif.SIndex Verif.SCelltree

section
variable {P Q : Type}

/-- The arrays of the grid have the sizes they should: one coordinate pair per node and, with a
mask, one trimmed mask value per cell. -/
def Sized (g : Grid P) : Prop :=
  2 ≤ g.cols ∧ g.nodes.length = g.rows * g.cols ∧ g.coordMask.length = g.rows * g.cols ∧
  ∀ m, g.centerMask = some m → g.centerPad.1 ≠ .other ∧ g.centerPad.2 ≠ .other ∧
    (trim2 g.centerPad m).length = g.rows - 1 ∧ Rectangular (g.cols - 1) (trim2 g.centerPad m)

/-- The cell in row `i` and column `j` is in the grid and, if the grid has a mask, not masked. -/
def IsCell (g : Grid P) (useMask : Bool) (i j : Nat) : Prop :=
  i < g.rows - 1 ∧ j < g.cols - 1 ∧
    ∀ m, useMask = true → g.centerMask = some m → entry (trim2 g.centerPad m) i j = some false

/-- The tree describes the cells: its faces are, in order, the cells of the grid (with a mask, the
unmasked ones), each with its own corners, and the answer `k` is translated to the cell of
face `k`. -/
def Describes (g : Grid P) (useMask : Bool) (t : CellTree P) : Prop :=
  (∀ (k : Nat) (face : List Int), t.faces[k]? = some face → ∃ i j : Nat, IsCell g useMask i j ∧
    faceCoords t.nodes face = corners g.nodes g.cols i j ∧
    translate t g.cols (k : Int) = .ok ((i : Int), (j : Int))) ∧
  (∀ i j : Nat, IsCell g useMask i j → ∃ (k : Nat) (face : List Int), t.faces[k]? = some face ∧
    translate t g.cols (k : Int) = .ok ((i : Int), (j : Int))) ∧
  translate t g.cols (-1) = .ok (-1, -1)

/-- C43 in full. -/
def C43_statement : Prop :=
  ∀ (g : Grid Nat) (useMask : Bool), Sized g → ∃ t, build g useMask = .ok t ∧ Describes g useMask t

/-- C43 with a mask that masks something. -/
theorem C43_masked_partial (g : Grid P) (hs : Sized g) (m : List (List Bool))
    (hm : g.centerMask = some m) (hany : m.flatten.any id = true) :
    ∃ t, build g true = .ok t ∧ Describes g true t := by
  obtain ⟨hc, hn, _, hmask⟩ := hs
  obtain ⟨_, _, hl, hr⟩ := hmask m hm
  generalize hcm : trim2 g.centerPad m = cm at hl hr
  have hall : cm.all (fun r => r.length == g.cols - 1) = true := by
    rw [List.all_eq_true]
    intro r hr'
    simp [hr r hr']
  have hflen : cm.flatten.length = (g.rows - 1) * (g.cols - 1) := by
    rw [flatten_length _ cm hr, hl]
  have hget : ∀ q, cm.flatten[q]? = entry cm (q / (g.cols - 1)) (q % (g.cols - 1)) :=
    flat_get _ cm hr (by omega)
  generalize hkeep : takenFlat g.rows g.cols cm = keep
  -- a cell of the list of cells
  have hcell : ∀ q, q < (g.rows - 1) * (g.cols - 1) →
      q / (g.cols - 1) < g.rows - 1 ∧ q % (g.cols - 1) < g.cols - 1 := by
    intro q hq
    exact ⟨Nat.div_lt_of_lt_mul (by rwa [Nat.mul_comm]), Nat.mod_lt _ (by omega)⟩
  have hwater : ∀ q, q < (g.rows - 1) * (g.cols - 1) → (cm.flatten[q]? == some true) = false →
      entry cm (q / (g.cols - 1)) (q % (g.cols - 1)) = some false := by
    intro q hq hb
    rw [← hget q]
    have hlt : q < cm.flatten.length := by rw [hflen]; exact hq
    rw [List.getElem?_eq_getElem hlt] at hb ⊢
    cases hx : cm.flatten[q] with
    | false => rfl
    | true => rw [hx] at hb; simp at hb
  have hkeepat : ∀ i j, i < g.rows - 1 → j < g.cols - 1 → entry cm i j = some false →
      keep[i * g.cols + j]? = some true ∧ keep[i * g.cols + (j + 1)]? = some true ∧
      keep[(i + 1) * g.cols + (j + 1)]? = some true ∧ keep[(i + 1) * g.cols + j]? = some true := by
    intro i j hi hj hw
    obtain ⟨t1, t2, t3, t4⟩ := taken_corners cm i j ((water_iff cm i j).2 hw)
    rw [← hkeep]
    rw [takenFlat_get _ _ _ _ _ (by omega) (by omega), takenFlat_get _ _ _ _ _ (by omega) (by omega),
      takenFlat_get _ _ _ _ _ (by omega) (by omega), takenFlat_get _ _ _ _ _ (by omega) (by omega),
      t1, t2, t3, t4]
    exact ⟨rfl, rfl, rfl, rfl⟩
  let nums := fun (q : Nat) =>
    [number keep (q / (g.cols - 1) * g.cols + q % (g.cols - 1)),
     number keep (q / (g.cols - 1) * g.cols + (q % (g.cols - 1) + 1)),
     number keep ((q / (g.cols - 1) + 1) * g.cols + (q % (g.cols - 1) + 1)),
     number keep ((q / (g.cols - 1) + 1) * g.cols + q % (g.cols - 1))]
  have hnn : ∀ q, q < (g.rows - 1) * (g.cols - 1) → (cm.flatten[q]? == some true) = false →
      ∀ x ∈ nums q, 0 ≤ x := by
    intro q hq hb x hx
    obtain ⟨hi, hj⟩ := hcell q hq
    obtain ⟨k1, k2, k3, k4⟩ := hkeepat _ _ hi hj (hwater q hq hb)
    simp only [nums, List.mem_cons, List.not_mem_nil, or_false] at hx
    rcases hx with rfl | rfl | rfl | rfl
    · rw [number_taken _ _ k1]; omega
    · rw [number_taken _ _ k2]; omega
    · rw [number_taken _ _ k3]; omega
    · rw [number_taken _ _ k4]; omega
  have hrow : ∀ q, faceRow g.cols keep cm.flatten q =
      if (cm.flatten[q]? == some true) = true then [-1, -1, -1, -1] else nums q := by
    intro q; rfl
  have hresh := reshape_rows ((List.range ((g.rows - 1) * (g.cols - 1))).map
      (faceRow g.cols keep cm.flatten)) (by
    intro r hr'
    obtain ⟨q, hq, rfl⟩ := List.mem_map.1 hr'
    rw [hrow q]
    cases hb : (cm.flatten[q]? == some true) with
    | true => exact ⟨rfl, Or.inr (by simp)⟩
    | false => exact ⟨rfl, Or.inl (by simpa using hnn q (List.mem_range.1 hq) hb)⟩)
  have hfilter : ((List.range ((g.rows - 1) * (g.cols - 1))).map
      (faceRow g.cols keep cm.flatten)).filter (fun r => r.all (fun x => decide (0 ≤ x))) =
      ((List.range ((g.rows - 1) * (g.cols - 1))).filter
        (fun q => !(cm.flatten[q]? == some true))).map nums := by
    rw [List.filter_map]
    have hcond : ∀ q ∈ List.range ((g.rows - 1) * (g.cols - 1)),
        ((fun r : List Int => r.all (fun x => decide (0 ≤ x))) ∘ faceRow g.cols keep cm.flatten) q =
        !(cm.flatten[q]? == some true) := by
      intro q hq
      simp only [Function.comp, hrow q]
      cases hb : (cm.flatten[q]? == some true) with
      | true => simp
      | false =>
        have := hnn q (List.mem_range.1 hq) hb
        simp only [Bool.false_eq_true, if_false, Bool.not_false]
        rw [List.all_eq_true]
        intro x hx
        exact decide_eq_true (this x hx)
    rw [List.filter_congr hcond]
    apply List.map_congr_left
    intro q hq
    have := (List.mem_filter.1 hq).2
    rw [hrow q]
    rw [if_neg (by simpa using this)]
  generalize hqs : (List.range ((g.rows - 1) * (g.cols - 1))).filter
    (fun q => !(cm.flatten[q]? == some true)) = qs at hfilter
  have hqmem : ∀ q, q ∈ qs ↔ q < (g.rows - 1) * (g.cols - 1) ∧
      (cm.flatten[q]? == some true) = false := by
    intro q
    rw [← hqs, List.mem_filter, List.mem_range]
    simp
  refine ⟨⟨compress g.nodes keep, qs.map nums, some (qs.map (fun q : Nat => (q : Int)) ++ [-1])⟩,
    ?_, ?_⟩
  · unfold build
    simp only [hm, Option.isSome_some, Bool.or_true, Bool.and_self, if_true, hany, hcm]
    rw [if_pos ⟨hl, hall⟩]
    simp only [hkeep, hresh, hfilter, hflen, hqs]
  · have htr : ∀ (k q : Nat), qs[k]? = some q →
        translate (P := P) ⟨compress g.nodes keep, qs.map nums,
          some (qs.map (fun q : Nat => (q : Int)) ++ [-1])⟩ g.cols (k : Int) =
          .ok (cellOf g.cols (q : Int)) := by
      intro k q hk
      unfold translate
      have : (qs.map (fun q : Nat => (q : Int)) ++ [-1])[k]? = some (q : Int) := by
        rw [List.getElem?_append_left]
        · rw [List.getElem?_map, hk]; rfl
        · rw [List.length_map]
          exact (List.getElem?_eq_some_iff.1 hk).1
      simp only [pyGet_nat _ _ _ this]
    refine ⟨?_, ?_, ?_⟩
    · intro k face hk
      simp only [List.getElem?_map] at hk
      cases hq : qs[k]? with
      | none => simp [hq] at hk
      | some q =>
        simp only [hq, Option.map_some, Option.some.injEq] at hk
        have hq' := (hqmem q).1 (List.mem_of_getElem? hq)
        obtain ⟨hi, hj⟩ := hcell q hq'.1
        have hw := hwater q hq'.1 hq'.2
        obtain ⟨k1, k2, k3, k4⟩ := hkeepat _ _ hi hj hw
        have hnum := C44_number g.rows g.cols hc _ _ hi hj
        have hqeq : q / (g.cols - 1) * (g.cols - 1) + q % (g.cols - 1) = q := by
          rw [Nat.mul_comm]; exact Nat.div_add_mod q _
        rw [hqeq] at hnum
        have hlen : ∀ i j, i < g.rows → j < g.cols → i * g.cols + j < g.nodes.length := by
          intro i j hi hj
          rw [hn]
          calc i * g.cols + j < i * g.cols + g.cols := by omega
            _ = (i + 1) * g.cols := by ring
            _ ≤ g.rows * g.cols := Nat.mul_le_mul_right _ (by omega)
        refine ⟨q / (g.cols - 1), q % (g.cols - 1), ⟨hi, hj, ?_⟩, ?_, ?_⟩
        · intro m' _ hm'
          rw [hm] at hm'
          cases hm'
          rw [hcm]; exact hw
        · rw [← hk]
          simp only [faceCoords, nums, corners, List.map_cons, List.map_nil]
          have i1 := Nat.lt_sub_iff_add_lt.1 hi
          have j1 := Nat.lt_sub_iff_add_lt.1 hj
          have i0 := Nat.lt_of_succ_lt i1
          have j0 := Nat.lt_of_succ_lt j1
          rw [coord_of_number _ _ _ k1 (hlen _ _ i0 j0), coord_of_number _ _ _ k2 (hlen _ _ i0 j1),
            coord_of_number _ _ _ k3 (hlen _ _ i1 j1), coord_of_number _ _ _ k4 (hlen _ _ i1 j0)]
        · rw [htr k q hq, hnum.2]
    · intro i j ⟨hi, hj, hw⟩
      have hw' := hw m rfl hm
      rw [hcm] at hw'
      obtain ⟨hlt, hcq⟩ := C44_number g.rows g.cols hc i j hi hj
      have hin : i * (g.cols - 1) + j ∈ qs := by
        rw [hqmem]
        refine ⟨hlt, ?_⟩
        rw [flatten_get _ cm hr i j hj, hw']
        rfl
      obtain ⟨k, hk⟩ := List.mem_iff_getElem?.1 hin
      exact ⟨k, nums (i * (g.cols - 1) + j), by simp [hk], by rw [htr k _ hk, hcq]⟩
    · unfold translate
      simp [Np.pyGet_neg_one, C44_miss g.cols hc]

theorem flatten_range_map {α : Type*} (n c : Nat) (hc : 0 < c) (f : Nat → Nat → α) (k : Nat)
    (hk : k < n * c) :
    ((List.range n).map (fun y => (List.range c).map (fun x => f y x))).flatten[k]? =
      some (f (k / c) (k % c)) := by
  have hr : Rectangular c ((List.range n).map (fun y => (List.range c).map (fun x => f y x))) := by
    intro r hr
    obtain ⟨y, _, rfl⟩ := List.mem_map.1 hr
    simp
  have e : k / c * c + k % c = k := by rw [Nat.mul_comm]; exact Nat.div_add_mod k c
  have := flatten_get c _ hr (k / c) (k % c) (Nat.mod_lt _ hc)
  rw [e] at this
  rw [this]
  have h1 : k / c < n := Nat.div_lt_of_lt_mul (by rwa [Nat.mul_comm])
  simp [entry, List.getElem?_range h1, List.getElem?_range (Nat.mod_lt k hc)]

theorem compress_all {α : Type*} (xs : List α) (keep : List Bool) (hl : keep.length = xs.length)
    (h : ∀ b ∈ keep, b = true) : compress xs keep = xs := by
  induction xs generalizing keep with
  | nil => cases keep <;> rfl
  | cons x xs ih =>
    cases keep with
    | nil => simp at hl
    | cons b bs =>
      have := h b (by simp)
      subst this
      simp only [compress, if_true]
      rw [ih bs (by simpa using hl) (fun b hb => h b (by simp [hb]))]

/-- C43 without masks, or when they are ignored. The coordinates must not be masked (or masks be
ignored). -/
theorem C43_unmasked_partial (g : Grid P) (hs : Sized g) (useMask : Bool)
    (hm : useMask = false ∨ (g.nodeMask = false ∧ g.centerMask = none ∧
      (g.maskedCoords = true → ∀ b ∈ g.coordMask, b = false))) :
    ∃ t, build g useMask = .ok t ∧ Describes g useMask t := by
  obtain ⟨hc, hn, hcl, _⟩ := hs
  have hcond : (useMask && (g.nodeMask || g.centerMask.isSome)) = false := by
    rcases hm with h | ⟨h1, h2, _⟩
    · simp [h]
    · simp [h1, h2]
  have hnodes : (if g.maskedCoords && useMask then
      compress g.nodes (g.coordMask.map (fun b => !b)) else g.nodes) = g.nodes := by
    rcases hm with h | ⟨_, _, h3⟩
    · simp [h]
    · cases hmc : g.maskedCoords with
      | false => simp
      | true =>
        rw [compress_all]
        · simp
        · rw [List.length_map, hcl, hn]
        · intro b hb
          obtain ⟨b', hb', rfl⟩ := List.mem_map.1 hb
          simp [h3 hmc b' hb']
  generalize hF : ((List.range (g.rows - 1)).map (fun y =>
      (List.range (g.cols - 1)).map (fun x =>
        [((x + y * g.cols : Nat) : Int), ((x + 1 + y * g.cols : Nat) : Int),
          ((x + g.cols + 1 + y * g.cols : Nat) : Int),
          ((x + g.cols + y * g.cols : Nat) : Int)]))).flatten = F
  have hF' := fun k hk => flatten_range_map (g.rows - 1) (g.cols - 1) (by omega)
    (fun y x => [((x + y * g.cols : Nat) : Int), ((x + 1 + y * g.cols : Nat) : Int),
          ((x + g.cols + 1 + y * g.cols : Nat) : Int),
          ((x + g.cols + y * g.cols : Nat) : Int)]) k hk
  rw [hF] at hF'
  have hFlen : F.length = (g.rows - 1) * (g.cols - 1) := by
    rw [← hF, flatten_length (g.cols - 1)]
    · simp
    · intro r hr
      obtain ⟨y, _, rfl⟩ := List.mem_map.1 hr
      simp
  refine ⟨⟨g.nodes, F, none⟩, ?_, ?_, ?_, ?_⟩
  · unfold build
    rw [hcond]
    simp only [Bool.false_eq_true, if_false]
    rw [hnodes, hF]
  · intro k face hk
    have hlt : k < (g.rows - 1) * (g.cols - 1) := by
      rw [← hFlen]; exact (List.getElem?_eq_some_iff.1 hk).1
    have hface := hF' k hlt
    simp only at hk
    rw [hface] at hk
    obtain ⟨y, x, hyx, hy, hx, he⟩ := C44_cell g.rows g.cols hc k hlt
    have h1 : k / (g.cols - 1) = y := by
      rw [← he, Nat.mul_comm, Nat.mul_add_div (by omega), Nat.div_eq_of_lt hx]; rfl
    have h2 : k % (g.cols - 1) = x := by
      rw [← he, Nat.mul_comm, Nat.mul_add_mod]; exact Nat.mod_eq_of_lt hx
    refine ⟨y, x, ⟨hy, hx, ?_⟩, ?_, ?_⟩
    · intro m hu hm'
      rcases hm with h | ⟨_, h, _⟩
      · rw [h] at hu; exact absurd hu (by simp)
      · rw [h] at hm'; exact absurd hm' (by simp)
    · simp only [Option.some.injEq] at hk
      rw [← hk, h1, h2]
      simp only [faceCoords, corners, List.map_cons, List.map_nil, Int.natCast_nonneg, if_true,
        Int.toNat_natCast]
      congr 1
      · congr 1; ring
      · congr 1
        · congr 1; ring
        · congr 1
          · congr 1; ring
          · congr 2; ring
    · simp only [translate, hyx]
  · intro i j ⟨hi, hj, _⟩
    obtain ⟨hlt, hcq⟩ := C44_number g.rows g.cols hc i j hi hj
    exact ⟨_, _, hF' _ hlt, by simp only [translate, hcq]⟩
  · simp only [translate, C44_miss g.cols hc]

/-- C43 is false: with a mask on which nothing is land, building the tree raises
`UnboundLocalError`. -/
theorem C43_refuted : ¬ C43_statement := by
  intro h
  obtain ⟨t, ht, _⟩ := h ⟨2, 2, [1, 2, 3, 4], [false, false, false, false], false, false,
    some [[false]], (.none, .none)⟩ true
    ⟨by decide, by decide, by decide, by
      intro m hm
      cases hm
      refine ⟨by decide, by decide, by decide, ?_⟩
      intro r hr
      have : trim2 (Pad.none, Pad.none) [[false]] = [[false]] := by decide
      rw [this] at hr
      simp only [List.mem_cons, List.not_mem_nil, or_false] at hr
      subst hr; rfl⟩
  exact absurd ht (by simp [build])

/-- C43. The same for every grid: a mask without land, or a node mask without a center mask, always
raises. -/
theorem C43_unbound (g : Grid P)
    (h : (g.centerMask = none ∧ g.nodeMask = true) ∨
      ∃ m, g.centerMask = some m ∧ m.flatten.any id = false) :
    build g true = .error .unboundLocal := by
  rcases h with ⟨h1, h2⟩ | ⟨m, h1, h2⟩
  · simp [build, h1, h2]
  · unfold build
    simp only [h1, Option.isSome_some, Bool.or_true, Bool.and_self, if_true, h2,
      Bool.false_eq_true, if_false]

/-- C43. Masked coordinates without a land mask: the nodes are compressed but the faces keep the
old numbers. Here the first node is masked, and the only face gets the corners of another place and
one that does not exist. -/
theorem C43_masked_coordinates : ∃ (g : Grid Nat) (t : CellTree Nat), Sized g ∧
    build g true = .ok t ∧ corners g.nodes g.cols 0 0 = [some 10, some 20, some 40, some 30] ∧
    t.faces.map (faceCoords t.nodes) = [[some 20, some 30, none, some 40]] := by
  refine ⟨⟨2, 2, [10, 20, 30, 40], [true, false, false, false], true, false, none, (.none, .none)⟩,
    ⟨[20, 30, 40], [[0, 1, 3, 2]], none⟩,
    ⟨by decide, by decide, by decide, by intro m hm; cases hm⟩, rfl, by decide, by decide⟩

/-- C43, end to end. If the search tree finds a face whose polygon contains the point, or −1 when
there is none, then locating a point gives an unmasked cell whose polygon contains it, or a masked
entry when no unmasked cell does. -/
theorem C43_locate_partial (Contains : List (Option P) → Q → Prop)
    (search : List P → List (List Int) → Q → Int)
    (hsearch : ∀ nodes faces p, (search nodes faces p = -1 ∧
        ∀ f ∈ faces, ¬ Contains (faceCoords nodes f) p) ∨
      ∃ (k : Nat) (f : List Int), search nodes faces p = (k : Int) ∧ faces[k]? = some f ∧
        Contains (faceCoords nodes f) p)
    (g : Grid P) (useMask : Bool) (t : CellTree P) (hb : build g useMask = .ok t)
    (hd : Describes g useMask t) (pts : List Q) :
    ∃ out, locateFaces search g useMask pts = .ok out ∧
      List.Forall₂ (fun p o => match o with
        | some (i, j) => ∃ a b : Nat, i = (a : Int) ∧ j = (b : Int) ∧ IsCell g useMask a b ∧
            Contains (corners g.nodes g.cols a b) p
        | none => ∀ a b : Nat, IsCell g useMask a b →
            ¬ Contains (corners g.nodes g.cols a b) p) pts out := by
  unfold locateFaces
  rw [hb]
  simp only
  obtain ⟨hd1, hd2, hd3⟩ := hd
  induction pts with
  | nil => exact ⟨[], rfl, .nil⟩
  | cons p ps ih =>
    obtain ⟨out, ho, hf⟩ := ih
    rcases hsearch t.nodes t.faces p with ⟨hs, hno⟩ | ⟨k, f, hs, hk, hcon⟩
    · refine ⟨none :: out, ?_, .cons ?_ hf⟩
      · rw [List.mapM_cons, hs, hd3, ho]
        rfl
      · intro a b hab hc
        obtain ⟨k, f, hk, htr⟩ := hd2 a b hab
        obtain ⟨i, j, _, hco, htr'⟩ := hd1 k f hk
        rw [htr] at htr'
        have := Except.ok.inj htr'
        simp only [Prod.mk.injEq] at this
        have e1 : a = i := by omega
        have e2 : b = j := by omega
        subst e1 e2
        exact hno f (List.mem_of_getElem? hk) (by rw [hco]; exact hc)
    · obtain ⟨i, j, hcell, hco, htr⟩ := hd1 k f hk
      refine ⟨some ((i : Int), (j : Int)) :: out, ?_, .cons ?_ hf⟩
      · rw [List.mapM_cons, hs, htr, ho]
        have : maskMiss ((i : Int), (j : Int)) = some ((i : Int), (j : Int)) := by
          unfold maskMiss
          rw [if_neg]
          simp only [not_or, not_lt]
          exact ⟨Int.natCast_nonneg _, Int.natCast_nonneg _⟩
        simp only [Except.map, this]
        rfl
      · exact ⟨i, j, rfl, rfl, hcell, by rw [← hco]; exact hcon⟩

/-- A 3 by 3 grid of nodes with one land cell, padded by a row on each side. -/
def exGrid : Grid Nat :=
  ⟨3, 3, [10, 11, 12, 20, 21, 22, 30, 31, 32], List.replicate 9 false, false, false,
    some [[true, true], [true, false], [false, false], [true, true]], (.both, .none)⟩

example : Sized exGrid := by
  refine ⟨by decide, by decide, by decide, ?_⟩
  intro m hm
  have hm' : m = [[true, true], [true, false], [false, false], [true, true]] :=
    (Option.some.inj hm).symm
  subst hm'
  refine ⟨by decide, by decide, by decide, ?_⟩
  have : trim2 exGrid.centerPad [[true, true], [true, false], [false, false], [true, true]]
      = [[true, false], [false, false]] := by decide
  rw [this]
  intro r hr
  simp only [List.mem_cons, List.not_mem_nil, or_false] at hr
  rcases hr with rfl | rfl <;> rfl

example : (build exGrid true).map (fun t => (t.nodes, t.faces, t.reversal)) =
    .ok ([11, 12, 20, 21, 22, 30, 31, 32],
      [[0, 1, 4, 3], [2, 3, 6, 5], [3, 4, 7, 6]], some [1, 2, 3, -1]) := by decide

/-! ## C69 -/

/-- C69 in full: every location query uses the mask exactly if it asks for it, whatever was asked
before. -/
def C69_statement : Prop :=
  ∀ (search : List Nat → List (List Int) → Nat → Int) (g : Grid Nat)
    (qs : List (Bool × List Nat)),
    queries search g none qs = qs.map (fun q => locateFaces search g q.1 q.2)

/-- C69 is false: the first query decides for all. -/
theorem C69_refuted : ¬ C69_statement := by
  intro h
  have := h (fun _ faces _ => if faces.length = 4 then 0 else -1) exGrid
    [(true, [0]), (false, [0])]
  exact absurd this (by decide)

/-- C69 for queries that all make the same choice (missing: mixed choices). -/
theorem C69_partial (search : List P → List (List Int) → Q → Int) (g : Grid P) (useMask : Bool)
    (qs : List (List Q)) :
    queries search g none (qs.map (fun q => (useMask, q))) =
      qs.map (fun q => locateFaces search g useMask q) := by
  have gen : ∀ state : Option (CellTree P), (∀ t, state = some t → build g useMask = .ok t) →
      queries search g state (qs.map (fun q => (useMask, q))) =
        qs.map (fun q => locateFaces search g useMask q) := by
    induction qs with
    | nil => intro _ _; rfl
    | cons q t ih =>
      intro state hst
      have hb : treeFor g state useMask = build g useMask := by
        cases state with
        | none => rfl
        | some s => rw [hst s rfl]; rfl
      simp only [List.map_cons, queries, hb]
      cases hbu : build g useMask with
      | error e =>
        simp only
        rw [ih state hst]
        simp [locateFaces, hbu]
      | ok tr =>
        simp only
        rw [ih (some tr) (fun t ht => by cases ht; exact hbu)]
        simp [locateFaces, hbu]
  exact gen none (by simp)

end
end Verif
