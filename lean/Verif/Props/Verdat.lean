import Verif.Lemmas.Verdat
import Mathlib.Data.List.Nodup
import Mathlib.Data.List.Range
import Mathlib.Algebra.Field.Rat
import Mathlib.Algebra.Order.Ring.Rat

/-!
# C37-C39: boundary chains and verdat files
-/

set_option autoImplicit false

namespace Verif
open Verdat Spec

/-! ## C37 -/

/-- C37. Whatever `order_boundary_segments` returns, the consecutive pairs of its chains are the
given segments, each exactly as often as given, up to direction; closed chains are loops, so their
last point is joined to the first by a given segment. -/
theorem C37_conserves (segs : List (Int × Int)) (closed opened : List (List Int))
    (h : orderSegs segs = some (.ok (closed, opened))) :
    ((closed.flatMap loopPairs ++ opened.flatMap pairs).map undirected).Perm
      (segs.map undirected) :=
  (chains_perm h).trans ((sortSegs_perm segs).map undirected)

/-- C37. Every closed chain has at least two points. -/
theorem C37_loops_proper (segs : List (Int × Int)) (closed opened : List (List Int))
    (h : orderSegs segs = some (.ok (closed, opened))) : ∀ b ∈ closed, 2 ≤ b.length :=
  chains_closed_length h

/-- C37. The loops end: the function returns a value or raises, on every input. -/
theorem C37_terminates (segs : List (Int × Int)) : orderSegs segs ≠ none :=
  chains_some (by rw [(sortSegs_perm segs).length_eq])

/-- A loop, an open chain of mixed directions. -/
example : orderSegs [(2, 0), (5, 4), (0, 1), (6, 5), (1, 2)] =
    some (.ok ([[0, 1, 2]], [[6, 5, 4]])) := by decide +kernel

/-! ## C38 -/

/-- C38. On an oriented boundary the function returns, no chain is open, and the loops follow the
segments in their direction. -/
theorem C38_oriented (segs : List (Int × Int)) (h : Oriented segs) :
    ∃ closed, orderSegs segs = some (.ok (closed, [])) ∧
      (closed.flatMap loopPairs).Perm segs ∧ closed.flatten.Nodup := by
  obtain ⟨cl, h1, h2⟩ := chains_oriented (fuel := segs.length) (rest := sortSegs segs)
    (by rw [(sortSegs_perm segs).length_eq]) (oriented_perm h (sortSegs_perm segs).symm)
  have h3 := h2.trans (sortSegs_perm segs)
  refine ⟨cl, h1, h3, ?_⟩
  rw [← flatMap_loopPairs_fst]
  exact (h3.map Prod.fst).nodup_iff.2 h.starts

/-- C38, the need for orientation: one segment of a triangle turned round is enough to raise, the
missing argument of `bound.insert(p1)`. -/
theorem C38_unoriented_raises : orderSegs [(0, 1), (1, 2), (0, 2)] = some (.error .typeError) := by
  decide +kernel

/-- C38, the need for segments with two ends: a segment from a node to itself stays open. -/
theorem C38_self_segment_open (a : Int) : orderSegs [(a, a)] = some (.ok ([], [[a, a]])) := by
  simp [orderSegs, sortSegs, insertSeg, chains, grow, findSeg, Chain.toList]

/-- Two loops given in a mixed order. -/
def exSegs : List (Int × Int) := [(2, 0), (5, 3), (0, 1), (3, 4), (1, 2), (4, 5)]

theorem exSegs_oriented : Oriented exSegs :=
  ⟨by decide, by decide, by decide⟩

example : orderSegs exSegs = some (.ok ([[0, 1, 2], [3, 4, 5]], [])) := by decide +kernel

/-! ## C39 -/

section C39
variable {K : Type*} [DecidableEq K] [Zero K]

/-- A data row for node `p` at place `i` (from 0) of the file. -/
def DataRow (fc fd : K → K) (d : Data K) (ln : Line K) (pi : Int × Nat) : Prop :=
  ∃ q z, Np.pyGet d.nodes pi.1 = .ok q ∧ Np.pyGet d.depths pi.1 = .ok z ∧
    ln = .row (pi.2 + 1) (fc q.1) (fc q.2) (fd z)

/-- A row the reader takes for the end of the points. -/
def EndMarker (ln : Line K) : Prop := ln = .row 0 0 0 0

/-- The units word of the file stands for the units of the data. -/
def SameUnits (u u' : String) : Prop :=
  (u ∈ ["foot", "ft", "feet"] ∧ u' = "feet") ∨ (u ∈ ["meter", "m", "meters", "metre"] ∧ u' = "meters")

/-- `order` lists the old number of each new node: segment `s'` of the new numbering is segment `s`
of the old one. -/
def Renumbers (order : List Int) (s' s : Int × Int) : Prop :=
  Np.pyGet order s'.1 = .ok s.1 ∧ Np.pyGet order s'.2 = .ok s.2

theorem readRows_append (rows : List (Line K)) (data : List (K × K × K)) (t : List (Line K))
    (h : List.Forall₂ (fun ln r => ∃ i : Int, i ≠ 0 ∧ ln = .row i r.1 r.2.1 r.2.2) rows data) :
    readRows (rows ++ .row 0 0 0 0 :: t) = .ok (data, t) := by
  induction h with
  | nil => simp [readRows]
  | cons h _ ih =>
    obtain ⟨i, hi, rfl⟩ := h
    simp [readRows, hi, ih]

theorem pyGet_nat {α : Type*} (l : List α) (k : Nat) (x : α) (h : l[k]? = some x) :
    Np.pyGet l (k : Int) = .ok x := by
  simp [Np.pyGet, h]

/-- One loop read back. -/
theorem loopSegs_spec (order : List Int) (start : Nat) (b : List Int) (hb : 2 ≤ b.length)
    (ho : ∀ k, k < b.length → order[start + k]? = b[k]?) :
    ∃ ss, loopSegs start (start + b.length) = .ok ss ∧
      List.Forall₂ (Renumbers order) ss (loopPairs b) := by
  refine ⟨_, by unfold loopSegs; rw [if_pos (by omega)], ?_⟩
  have key : ∀ (l : List Int) (a : Int) (st : Nat), l ≠ [] →
      (∀ k, k < l.length → order[st + k]? = l[k]?) →
      List.Forall₂ (Renumbers order)
        ((List.range (l.length - 1)).map (fun k : Nat => ((st : Int) + k, (st : Int) + k + 1)))
        (pairs l) ∧ pairs (l ++ [a]) = pairs l ++ [(l.getLastD 0, a)] := by
    intro l
    induction l with
    | nil => intro a st h; exact absurd rfl h
    | cons x l ih =>
      intro a st _ h
      cases l with
      | nil => simp [pairs]
      | cons y l =>
        obtain ⟨i1, i2⟩ := ih a (st + 1) (by simp) (by
          intro k hk
          have := h (k + 1) (by simp at hk ⊢; omega)
          rw [show st + 1 + k = st + (k + 1) by omega, this]
          simp)
        constructor
        · have hr : (List.range ((x :: y :: l).length - 1)) =
              0 :: (List.range ((y :: l).length - 1)).map Nat.succ := by
            simp [List.range_succ_eq_map]
          rw [hr]
          simp only [List.map_cons, List.map_map, pairs]
          refine List.Forall₂.cons ⟨?_, ?_⟩ ?_
          · have := h 0 (by simp)
            simpa using pyGet_nat order st x (by simpa using this)
          · have := h 1 (by simp)
            have := pyGet_nat order (st + 1) y (by simpa using this)
            simpa using this
          · have hfun : ((fun k : Nat => ((st : Int) + k, (st : Int) + k + 1)) ∘ Nat.succ) =
                (fun k : Nat => (((st + 1 : Nat) : Int) + k, ((st + 1 : Nat) : Int) + k + 1)) := by
              funext k
              simp only [Function.comp, Nat.cast_succ, Nat.cast_add, Nat.cast_one, Prod.mk.injEq]
              constructor <;> omega
            rw [hfun]
            exact i1
        · simp only [List.cons_append, pairs] at i2 ⊢
          rw [i2]
          simp
  cases b with
  | nil => simp at hb
  | cons x l =>
    obtain ⟨k1, k2⟩ := key (x :: l) x start (by simp) ho
    simp only [loopPairs]
    rw [k2]
    refine List.rel_append ?_ ?_
    · rw [show start + (x :: l).length - 1 - start = (x :: l).length - 1 by omega]
      exact k1
    · refine List.Forall₂.cons ⟨?_, ?_⟩ List.Forall₂.nil
      · have h1 := ho ((x :: l).length - 1) (by simp)
        have h2 : (x :: l)[(x :: l).length - 1]? = some ((x :: l).getLastD 0) := by
          rw [← List.getLast?_eq_getElem?]
          simp [List.getLast?_cons]
        have h3 := pyGet_nat order (start + ((x :: l).length - 1)) _ (h1.trans h2)
        have h4 : ((start + (x :: l).length : Nat) : Int) - 1 =
            ((start + ((x :: l).length - 1) : Nat) : Int) := by simp; omega
        simp only [h4]
        exact h3
      · have := ho 0 (by simp)
        simpa using pyGet_nat order start x (by simpa using this)

theorem readBounds_spec (order : List Int) (bounds : List (List Int)) (start : Nat)
    (hb : ∀ b ∈ bounds, 2 ≤ b.length)
    (ho : ∀ k, k < bounds.flatten.length → order[start + k]? = bounds.flatten[k]?) :
    ∃ ss, readBounds bounds.length start
        ((ends start bounds).map (fun n : Nat => (Line.num (n : Int) : Line K))) = .ok ss ∧
      List.Forall₂ (Renumbers order) ss (bounds.flatMap loopPairs) := by
  induction bounds generalizing start with
  | nil => exact ⟨[], by simp [readBounds], by simp⟩
  | cons b bs ih =>
    simp only [List.flatten_cons] at ho
    obtain ⟨s1, h1, h2⟩ := loopSegs_spec order start b (hb b (by simp)) (by
      intro k hk
      rw [ho k (by simp; omega), List.getElem?_append_left hk])
    obtain ⟨s2, h3, h4⟩ := ih (start + b.length) (fun b' h' => hb b' (by simp [h'])) (by
      intro k hk
      rw [show start + b.length + k = start + (b.length + k) by omega,
        ho (b.length + k) (by simp at hk ⊢; omega), List.getElem?_append_right (by omega)]
      simp)
    refine ⟨s1 ++ s2, ?_, ?_⟩
    · simp only [List.length_cons, ends, List.map_cons, readBounds, Int.toNat_natCast, h1, h3]
    · simp only [List.flatMap_cons]
      exact List.rel_append h2 h4

theorem fileOrder_perm (n : Nat) (bounds : List (List Int)) (hdis : bounds.flatten.Nodup)
    (hin : ∀ p ∈ bounds.flatten, 0 ≤ p ∧ p < n) :
    (fileOrder n bounds).Perm ((List.range n).map (fun j : Nat => (j : Int))) := by
  have hr : ((List.range n).map (fun j : Nat => (j : Int))).Nodup :=
    List.Nodup.map (fun a b h => by exact_mod_cast h) List.nodup_range
  rw [List.perm_ext_iff_of_nodup _ hr]
  · intro p
    simp only [fileOrder, List.mem_append, List.mem_filter, decide_eq_true_eq, List.mem_map,
      List.mem_range]
    constructor
    · rintro (h | h)
      · obtain ⟨h0, h1⟩ := hin p h
        exact ⟨p.toNat, by omega, by omega⟩
      · exact h.1
    · intro h
      by_cases hp : p ∈ bounds.flatten
      · exact Or.inl hp
      · exact Or.inr ⟨h, hp⟩
  · unfold fileOrder
    refine List.Nodup.append hdis (hr.filter _) ?_
    intro p hp hq
    simp only [List.mem_filter, decide_eq_true_eq] at hq
    exact hq.2 hp

/-- C39 for any boundary that chains into node-disjoint loops. -/
theorem C39_roundtrip (fc fd : K → K) (hfc : fc 0 = 0) (hfd : fd 0 = 0) (d : Data K)
    (hlen : d.depths.length = d.nodes.length)
    (hu : d.units ∈ ["foot", "ft", "feet", "meter", "m", "meters", "metre"])
    (bounds : List (List Int)) (hord : orderSegs d.segs = some (.ok (bounds, [])))
    (hdis : bounds.flatten.Nodup) (hin : ∀ p ∈ bounds.flatten, 0 ≤ p ∧ p < d.nodes.length) :
    ∃ f d' order rows tl old,
      save fc fd d = some (.ok f) ∧ load f = .ok d' ∧
      -- every node is written once, with numbers from 1 on, and no row reads as the end marker
      order.Perm ((List.range d.nodes.length).map (fun j : Nat => (j : Int))) ∧
      f.lines = rows ++ .row 0 0 0 0 :: tl ∧
      List.Forall₂ (DataRow fc fd d) rows order.zipIdx ∧ (∀ r ∈ rows, ¬ EndMarker r) ∧
      -- the points and depths come back in file order, as printed
      List.Forall₂ (fun xy p => ∃ q, Np.pyGet d.nodes p = .ok q ∧ xy = (fc q.1, fc q.2))
        d'.nodes order ∧
      List.Forall₂ (fun z' p => ∃ z, Np.pyGet d.depths p = .ok z ∧ z' = fd z) d'.depths order ∧
      -- the same units and the same boundary
      SameUnits d.units d'.units ∧
      List.Forall₂ (Renumbers order) d'.segs old ∧
      old = bounds.flatMap loopPairs ∧ (old.map undirected).Perm (d.segs.map undirected) := by
  set order := fileOrder d.nodes.length bounds with horder
  have hperm := fileOrder_perm d.nodes.length bounds hdis hin
  have hmem : ∀ p ∈ order, 0 ≤ p ∧ p.toNat < d.nodes.length := by
    intro p hp
    have := hperm.mem_iff.1 hp
    simp only [List.mem_map, List.mem_range] at this
    obtain ⟨j, hj, rfl⟩ := this
    simp [hj]
  -- coordinates and depth of each node
  have hget : ∀ p ∈ order, ∃ q z, Np.pyGet d.nodes p = .ok q ∧ Np.pyGet d.depths p = .ok z := by
    intro p hp
    obtain ⟨h0, h1⟩ := hmem p hp
    refine ⟨d.nodes[p.toNat], d.depths[p.toNat]'(by omega), ?_, ?_⟩
    · simp [Np.pyGet, h0, List.getElem?_eq_getElem h1]
    · simp [Np.pyGet, h0, List.getElem?_eq_getElem (show p.toNat < d.depths.length by omega)]
  have hrows : ∃ rows, DepthM.mapE (fun pi : Int × Nat => rowOf fc fd d (pi.2 + 1) pi.1)
      order.zipIdx = .ok rows ∧
      List.Forall₂ (fun pi ln => DataRow fc fd d ln pi) order.zipIdx rows := by
    refine DepthM.mapE_rel ?_
    rintro ⟨p, i⟩ hpi
    have hp : p ∈ order := by
      have := List.mem_zipIdx hpi
      rw [this.2.2]; exact List.getElem_mem _
    obtain ⟨q, z, h1, h2⟩ := hget p hp
    refine ⟨.row (i + 1) (fc q.1) (fc q.2) (fd z), ?_, q, z, h1, h2, rfl⟩
    simp [rowOf, h1, h2]
  obtain ⟨rows, hr1, hr2⟩ := hrows
  have hr2' : List.Forall₂ (DataRow fc fd d) rows order.zipIdx := by
    exact hr2.flip
  -- the data read back
  have hdata : ∀ (rows : List (Line K)) (l : List (Int × Nat)),
      List.Forall₂ (DataRow fc fd d) rows l →
      ∃ data : List (K × K × K),
        List.Forall₂ (fun ln r => ∃ i : Int, i ≠ 0 ∧ ln = .row i r.1 r.2.1 r.2.2) rows data ∧
        List.Forall₂ (fun xy (p : Int × Nat) => ∃ q, Np.pyGet d.nodes p.1 = .ok q ∧ xy = (fc q.1, fc q.2))
          (data.map (fun r => (r.1, r.2.1))) l ∧
        List.Forall₂ (fun z' (p : Int × Nat) => ∃ z, Np.pyGet d.depths p.1 = .ok z ∧ z' = fd z)
          (data.map (fun r => r.2.2)) l := by
    intro rows l h
    induction h with
    | nil => exact ⟨[], by simp⟩
    | @cons ln pi _ _ h _ ih =>
      obtain ⟨data, i1, i2, i3⟩ := ih
      obtain ⟨q, z, h1, h2, h3⟩ := h
      refine ⟨(fc q.1, fc q.2, fd z) :: data, ?_, ?_, ?_⟩
      · exact List.Forall₂.cons ⟨(pi.2 : Int) + 1, by omega, h3⟩ i1
      · exact List.Forall₂.cons ⟨q, h1, rfl⟩ i2
      · exact List.Forall₂.cons ⟨z, h2, rfl⟩ i3
  obtain ⟨data, hd1, hd2, hd3⟩ := hdata rows _ hr2'
  have hz : order = order.zipIdx.map Prod.fst := by simp
  -- the boundaries read back
  obtain ⟨ss, hb1, hb2⟩ := readBounds_spec (K := K) order bounds 0
    (chains_closed_length hord) (by
      intro k hk
      rw [horder, fileOrder, Nat.zero_add, List.getElem?_append_left hk])
  have hcons := C37_conserves _ _ _ hord
  have hlines : rows ++ [.row 0 (fc 0) (fc 0) (fd 0)] ++ [.num bounds.length] ++
      (ends 0 bounds).map (fun n : Nat => (Line.num (n : Int) : Line K)) =
      rows ++ .row 0 0 0 0 :: (.num bounds.length ::
        (ends 0 bounds).map (fun n : Nat => (Line.num (n : Int) : Line K))) := by
    simp [hfc, hfd]
  have hunits : ∃ u, unitsMap d.units = .ok u ∧ SameUnits d.units u.toLower := by
    by_cases h1 : d.units ∈ ["foot", "ft", "feet"]
    · exact ⟨"FEET", by simp only [unitsMap, if_pos h1], Or.inl ⟨h1, by decide +kernel⟩⟩
    · have h2 : d.units ∈ ["meter", "m", "meters", "metre"] := by
        simp only [List.mem_cons, List.not_mem_nil, or_false, not_or] at hu h1 ⊢
        tauto
      exact ⟨"METERS", by simp only [unitsMap, if_neg h1, if_pos h2],
        Or.inr ⟨h2, by decide +kernel⟩⟩
  obtain ⟨u, hu1, hu2⟩ := hunits
  refine ⟨⟨some u, rows ++ .row 0 0 0 0 :: (.num bounds.length ::
      (ends 0 bounds).map (fun n : Nat => (Line.num (n : Int) : Line K)))⟩,
    ⟨data.map (fun r => (r.1, r.2.1)), data.map (fun r => r.2.2), u.toLower, ss⟩,
    order, rows, _, bounds.flatMap loopPairs, ?_, ?_, hperm, rfl, hr2', ?_, ?_, ?_, hu2, hb2, rfl, ?_⟩
  · simp only [save, hu1, hord, ← horder, hr1, hlines]
  · simp only [load, readRows_append rows data _ hd1, Int.toNat_natCast, hb1]
  · intro r hr hend
    have h := List.forall₂_iff_get.1 hr2'
    obtain ⟨k, hk, rfl⟩ := List.mem_iff_getElem.1 hr
    obtain ⟨q, z, _, _, hx⟩ := h.2 k hk (by rw [← h.1]; exact hk)
    have hx' : (.row 0 0 0 0 : Line K) = _ := hend.symm.trans hx
    simp only [Line.row.injEq] at hx'
    omega
  · rw [hz]
    exact List.forall₂_map_right_iff.2 hd2
  · rw [hz]
    exact List.forall₂_map_right_iff.2 hd3
  · simpa using hcons

/-- C39 for oriented boundaries: the boundary also keeps its direction. -/
theorem C39_roundtrip_oriented (fc fd : K → K) (hfc : fc 0 = 0) (hfd : fd 0 = 0) (d : Data K)
    (hlen : d.depths.length = d.nodes.length)
    (hu : d.units ∈ ["foot", "ft", "feet", "meter", "m", "meters", "metre"])
    (hor : Oriented d.segs) (hin : ∀ s ∈ d.segs, 0 ≤ s.1 ∧ s.1 < d.nodes.length) :
    ∃ f d' order old,
      save fc fd d = some (.ok f) ∧ load f = .ok d' ∧
      order.Perm ((List.range d.nodes.length).map (fun j : Nat => (j : Int))) ∧
      List.Forall₂ (fun xy p => ∃ q, Np.pyGet d.nodes p = .ok q ∧ xy = (fc q.1, fc q.2))
        d'.nodes order ∧
      List.Forall₂ (fun z' p => ∃ z, Np.pyGet d.depths p = .ok z ∧ z' = fd z) d'.depths order ∧
      SameUnits d.units d'.units ∧
      List.Forall₂ (Renumbers order) d'.segs old ∧ old.Perm d.segs := by
  obtain ⟨bounds, h1, h2, h3⟩ := C38_oriented d.segs hor
  have hin' : ∀ p ∈ bounds.flatten, 0 ≤ p ∧ p < d.nodes.length := by
    intro p hp
    rw [← flatMap_loopPairs_fst] at hp
    obtain ⟨s, hs, rfl⟩ := List.mem_map.1 hp
    exact hin s (h2.mem_iff.1 hs)
  obtain ⟨f, d', order, rows, tl, old, a1, a2, a3, -, -, -, a4, a5, a6, a7, a8, -⟩ :=
    C39_roundtrip fc fd hfc hfd d hlen hu bounds h1 h3 hin'
  exact ⟨f, d', order, old, a1, a2, a3, a4, a5, a6, a7, a8 ▸ h2⟩

end C39

/-- A triangle around a free node, saved and loaded. -/
def exData : Data ℚ :=
  { nodes := [(1, 2), (0, 0), (3, 1), (2, 5)], depths := [4, 7, 9, 2], units := "ft",
    segs := [(3, 1), (1, 2), (2, 3)] }

example : Oriented exData.segs := ⟨by decide, by decide, by decide⟩

example : (save id id exData).map (fun r => match r with
    | .ok f => some (load f)
    | .error _ => none) =
    some (some (.ok { nodes := [(0, 0), (3, 1), (2, 5), (1, 2)], depths := [7, 9, 2, 4],
                      units := "feet", segs := [(0, 1), (1, 2), (2, 0)] })) := by
  decide +kernel

end Verif
