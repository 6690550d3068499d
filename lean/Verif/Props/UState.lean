import Verif.Model.UState
import Verif.Spec.UState
import Verif.Props.UTopo
import Verif.Props.UIO
import Mathlib.Algebra.Order.Field.Basic
import Mathlib.Algebra.Order.BigOperators.Group.List
import Mathlib.Algebra.Order.Ring.Rat
import Mathlib.Algebra.Field.Rat
import Mathlib.Data.List.Forall2
import Mathlib.Tactic.Ring
import Mathlib.Tactic.FieldSimp
import Mathlib.Tactic.NormNum

/-!
# Properties of a `UGrid` over time: C93 to C98
-/

set_option autoImplicit false

namespace Verif
open Verif.Spec Verif.UState

section C93
variable {K : Type} [Field K] (query : List (Int × Int) → Int × Int → Nat)

/-- An object as the constructor makes it, before anything is assigned. -/
def newGrid (K : Type) : Obj K := { grid := { nodes := [] } }

/-- Face tables assigned are rectangular, as arrays are. -/
def OpRect (op : Op K) : Prop := ∀ t, op = .setFaces (some t) → ∃ w, Rect w t

/-- C93 as claimed. -/
def C93_statement : Prop :=
  ∀ (q : List (Int × Int) → Int × Int → Nat) (ops : List (Op ℚ)), (∀ op ∈ ops, OpRect op) →
    TablesFit (run q (newGrid ℚ) ops).grid

/-- C93 is false: assigning faces keeps the tables of the old faces, deleting the nodes keeps them
without any faces. -/
theorem C93_refuted : ¬ C93_statement := by
  intro h
  have := (h (fun _ _ => 0) [.setNodes (some [(0, 0), (1, 0), (1, 1), (0, 1)]),
    .setFaces (some [[0, 1, 2]]), .buildFaceFace, .setFaces (some [[0, 1, 2], [0, 2, 3]])] (by
      intro op hop t ht
      simp only [List.mem_cons, List.not_mem_nil, or_false] at hop
      rcases hop with rfl | rfl | rfl | rfl <;> cases ht <;> exact ⟨3, by simp [Rect]⟩)).1
  have hs : (run (fun _ _ => 0) (newGrid ℚ) [.setNodes (some [(0, 0), (1, 0), (1, 1), (0, 1)]),
    .setFaces (some [[0, 1, 2]]), .buildFaceFace, .setFaces (some [[0, 1, 2], [0, 2, 3]])]).grid =
      { nodes := [(0, 0), (1, 0), (1, 1), (0, 1)], faces := some [[0, 1, 2], [0, 2, 3]],
        faceFace := some [[-1, -1, -1]] } := by decide +kernel
  rw [hs] at this
  obtain ⟨f, hf, hl⟩ := this _ rfl
  cases hf
  exact absurd hl (by decide)

theorem C93_refuted_nodes : ∃ ops : List (Op ℚ), (∀ op ∈ ops, ∀ t, op ≠ .setFaceFace t) ∧
    let g := (run (fun _ _ => 0) (newGrid ℚ) ops).grid
    g.faces = none ∧ g.faceFace = some [[-1, -1, -1]] :=
  ⟨[.setNodes (some [(0, 0), (1, 0), (1, 1)]), .setFaces (some [[0, 1, 2]]), .buildFaceFace,
    .delNodes], by simp, by decide +kernel⟩

/-- Faces are not assigned, nor nodes deleted, while the grid holds tables. -/
def Careful (s : Obj K) (op : Op K) : Prop :=
  ((∃ t, op = .setFaces (some t)) ∨ op = .delNodes) → s.grid.faceFace = none ∧ s.grid.faceEdge = none

/-- A whole history of that kind. -/
def CarefulRun : Obj K → List (Op K) → Prop
  | _, [] => True
  | s, op :: ops => Careful s op ∧ CarefulRun (next query s op) ops

theorem setFaces_lengths {n : Nat} {t t' : List (List Int)} (h : UTopo.setFaces n t = .ok t') :
    t'.map List.length = t.map List.length := by
  unfold UTopo.setFaces at h
  split at h
  · split at h
    · cases h
    · split at h
      · split at h
        · simp only at h
          split at h
          · split at h
            · cases h
            · cases h
              simp [Function.comp_def]
          · cases h
        · cases h
      · split at h
        · cases h
        · cases h
          rfl
  · cases h

theorem cols_of_rect {w : Nat} {t : List (List Int)} (h : Rect w t) (hn : t ≠ []) :
    UIO.cols t = w := by
  cases t with
  | nil => exact absurd rfl hn
  | cons r t => exact h r (by simp)

theorem rect_of_lengths {w : Nat} {t t' : List (List Int)} (h : t'.map List.length = t.map List.length)
    (hr : Rect w t) : Rect w t' := by
  intro r hr'
  have : r.length ∈ t'.map List.length := List.mem_map_of_mem hr'
  rw [h, List.mem_map] at this
  obtain ⟨f, hf, he⟩ := this
  exact he ▸ hr f hf

theorem rect_cols {w : Nat} {t : List (List Int)} (h : Rect w t) : Rect (UIO.cols t) t := by
  by_cases hn : t = []
  · subst hn
    intro r hr
    cases hr
  · rw [cols_of_rect h hn]
    exact h

theorem lengths_const {w : Nat} {t : List (List Int)} (h : Rect w t) :
    t.map (fun _ => w) = t.map List.length :=
  List.map_congr_left (fun r hr => (h r hr).symm)

theorem buildFaceFace_lengths {w : Nat} {f : List (List Int)} (h : Rect w f) :
    (UTopo.buildFaceFace w f).map List.length = f.map List.length := by
  rw [← lengths_const h]
  simp [UTopo.buildFaceFace, Function.comp_def]

theorem buildFaceEdge_lengths {w : Nat} {f : List (List Int)} (h : Rect w f) (e : List (Int × Int)) :
    ((UTopo.buildFaceEdge query w f e).map (fun r => r.map (fun i : Nat => (i : Int)))).map List.length =
      f.map List.length := by
  rw [← lengths_const h]
  simp [UTopo.buildFaceEdge, Function.comp_def]

/-- What every history keeps: the faces are rectangular. -/
def FacesRect (g : UIO.UGrid K) : Prop := ∀ f, g.faces = some f → Rect (UIO.cols f) f

theorem shapeCheck_ok {faces : Option (List (List Int))} {t : List (List Int)}
    (h : shapeCheck faces t = .ok ()) : ∃ f, faces = some f ∧
      t.map List.length = f.map (fun _ => UIO.cols f) := by
  unfold shapeCheck at h
  cases faces with
  | none => cases h
  | some f =>
    simp only at h
    split at h
    · next he => exact ⟨f, rfl, he⟩
    · cases h

theorem neighbours_ok {faces : Option (List (List Int))} {t : List (List Int)}
    (h : neighbours faces = .ok t) : ∃ f, faces = some f ∧ t = UTopo.buildFaceFace (UIO.cols f) f := by
  cases faces with
  | none => cases h
  | some f =>
    cases h
    exact ⟨f, rfl, rfl⟩

theorem step_rect {s s' : Obj K} {op : Op K} (hr : OpRect op) (h : step query s op = .ok s')
    (hi : FacesRect s.grid) : FacesRect s'.grid := by
  cases op with
  | setNodes ns => cases ns <;> cases h <;> exact hi
  | setFaces t =>
    cases t with
    | none =>
      cases h
      intro f hf
      cases hf
    | some t =>
      simp only [step] at h
      split at h
      · cases h
      · next t' ht =>
        cases h
        rintro f ⟨⟩
        obtain ⟨w, hw⟩ := hr t rfl
        exact rect_cols (rect_of_lengths (setFaces_lengths ht) hw)
  | delNodes =>
    cases h
    intro f hf
    cases hf
  | delFaces =>
    cases h
    intro f hf
    cases hf
  | setEdges t => cases t <;> cases h <;> exact hi
  | setFaceFace t =>
    cases t with
    | none => cases h; exact hi
    | some t =>
      simp only [step] at h
      split at h <;> cases h
      exact hi
  | setFaceEdge t =>
    cases t with
    | none => cases h; exact hi
    | some t =>
      simp only [step] at h
      split at h <;> cases h
      exact hi
  | buildFaceFace =>
    simp only [step] at h
    split at h <;> cases h
    exact hi
  | buildBoundaries =>
    simp only [step] at h
    split at h
    · cases h
    · split at h <;> cases h
      exact hi
  | buildFaceEdge =>
    simp only [step] at h
    split at h <;> cases h
    exact hi
  | buildFaceCoords =>
    simp only [step] at h
    split at h <;> cases h
    exact hi
  | buildEdgeCoords =>
    simp only [step] at h
    split at h <;> cases h
    exact hi
  | buildBoundaryCoords =>
    simp only [step] at h
    split at h <;> cases h
    exact hi
  | locateNodes =>
    cases h
    cases s.kdtree <;> exact hi
  | getLines =>
    cases h
    cases s.grid.edges <;> exact hi
  | _ => cases h; exact hi

theorem step_fit {s s' : Obj K} {op : Op K} (hc : Careful s op) (h : step query s op = .ok s')
    (hi : FacesRect s.grid) (ht : TablesFit s.grid) : TablesFit s'.grid := by
  obtain ⟨h1, h2⟩ := ht
  cases op with
  | setNodes ns => cases ns <;> cases h <;> exact ⟨h1, h2⟩
  | setFaces t =>
    cases t with
    | none =>
      cases h
      exact ⟨by rintro t ⟨⟩, by rintro t ⟨⟩⟩
    | some t =>
      obtain ⟨c1, c2⟩ := hc (Or.inl ⟨t, rfl⟩)
      simp only [step] at h
      split at h <;> cases h
      refine ⟨fun u hu => ?_, fun u hu => ?_⟩
      · simp only [c1] at hu
        cases hu
      · simp only [c2] at hu
        cases hu
  | delNodes =>
    obtain ⟨c1, c2⟩ := hc (Or.inr rfl)
    cases h
    refine ⟨fun u hu => ?_, fun u hu => ?_⟩
    · simp only [c1] at hu
      cases hu
    · simp only [c2] at hu
      cases hu
  | delFaces =>
    cases h
    exact ⟨by rintro t ⟨⟩, by rintro t ⟨⟩⟩
  | setEdges t =>
    cases t with
    | none => cases h; exact ⟨h1, by rintro t ⟨⟩⟩
    | some t => cases h; exact ⟨h1, h2⟩
  | delEdges => cases h; exact ⟨h1, by rintro t ⟨⟩⟩
  | setFaceFace t =>
    cases t with
    | none => cases h; exact ⟨by rintro t ⟨⟩, h2⟩
    | some t =>
      simp only [step] at h
      split at h
      · cases h
      · next hs =>
        cases h
        obtain ⟨f, hf, hl⟩ := shapeCheck_ok hs
        refine ⟨?_, h2⟩
        rintro u ⟨⟩
        exact ⟨f, hf, hl.trans (lengths_const (hi f hf))⟩
  | setFaceEdge t =>
    cases t with
    | none => cases h; exact ⟨h1, by rintro t ⟨⟩⟩
    | some t =>
      simp only [step] at h
      split at h
      · cases h
      · next hs =>
        cases h
        obtain ⟨f, hf, hl⟩ := shapeCheck_ok hs
        refine ⟨h1, ?_⟩
        rintro u ⟨⟩
        exact ⟨f, hf, hl.trans (lengths_const (hi f hf))⟩
  | delFaceFace => cases h; exact ⟨by rintro t ⟨⟩, h2⟩
  | delFaceEdge => cases h; exact ⟨h1, by rintro t ⟨⟩⟩
  | buildFaceFace =>
    simp only [step] at h
    split at h
    · cases h
    · next t ht =>
      cases h
      obtain ⟨f, hf, rfl⟩ := neighbours_ok ht
      refine ⟨?_, h2⟩
      rintro u ⟨⟩
      exact ⟨f, hf, buildFaceFace_lengths (hi f hf)⟩
  | buildBoundaries =>
    simp only [step] at h
    split at h
    · cases h
    · next t ht =>
      split at h <;> cases h
      refine ⟨?_, h2⟩
      rintro u ⟨⟩
      unfold tableOf at ht
      split at ht
      · next u hu =>
        cases ht
        exact h1 _ hu
      · obtain ⟨f, hf, rfl⟩ := neighbours_ok ht
        exact ⟨f, hf, buildFaceFace_lengths (hi f hf)⟩
  | buildFaceEdge =>
    simp only [step] at h
    split at h
    · cases h
    · cases h
    · next e f he hf =>
      cases h
      refine ⟨h1, ?_⟩
      rintro u ⟨⟩
      exact ⟨f, hf, buildFaceEdge_lengths query (hi f hf) _⟩
  | buildFaceCoords =>
    simp only [step] at h
    split at h <;> cases h
    exact ⟨h1, h2⟩
  | buildEdgeCoords =>
    simp only [step] at h
    split at h <;> cases h
    exact ⟨h1, h2⟩
  | buildBoundaryCoords =>
    simp only [step] at h
    split at h <;> cases h
    exact ⟨h1, h2⟩
  | locateNodes =>
    cases h
    cases s.kdtree <;> exact ⟨h1, h2⟩
  | getLines =>
    cases h
    cases s.grid.edges <;> exact ⟨h1, h2⟩
  | _ => cases h; exact ⟨h1, h2⟩

/-- An invariant of the operations that succeed is one of histories. -/
theorem run_inv (P : Obj K → Prop) (s : Obj K) (ops : List (Op K)) (hs : P s)
    (hstep : ∀ s s' op, op ∈ ops → P s → step query s op = .ok s' → P s') : P (run query s ops) := by
  induction ops generalizing s with
  | nil => exact hs
  | cons op ops ih =>
    refine ih _ ?_ (fun s s' o ho => hstep s s' o (List.mem_cons_of_mem _ ho))
    unfold next
    cases h : step query s op with
    | error e => exact hs
    | ok s' => exact hstep s s' op (by simp) hs h

theorem run_careful (P : Obj K → Prop) (s : Obj K) (ops : List (Op K)) (hs : P s)
    (hc : CarefulRun query s ops)
    (hstep : ∀ s s' op, op ∈ ops → Careful s op → P s → step query s op = .ok s' → P s') :
    P (run query s ops) := by
  induction ops generalizing s with
  | nil => exact hs
  | cons op ops ih =>
    refine ih _ ?_ hc.2 (fun s s' o ho => hstep s s' o (List.mem_cons_of_mem _ ho))
    unfold next
    cases h : step query s op with
    | error e => exact hs
    | ok s' => exact hstep s s' op (by simp) hc.1 hs h

theorem new_rect : FacesRect (newGrid K).grid := by
  intro f hf
  cases hf

theorem run_rect (ops : List (Op K)) (hr : ∀ op ∈ ops, OpRect op) :
    FacesRect (run query (newGrid K) ops).grid :=
  run_inv query (fun s => FacesRect s.grid) _ _ new_rect
    (fun _ _ op ho hi h => step_rect query (hr op ho) h hi)

/-- C93 where it holds: after any history, with failures caught, in which faces are not assigned
and nodes not deleted while the grid holds tables. Missing: the other histories, for which the
claim is false. -/
theorem C93_partial (ops : List (Op K)) (hr : ∀ op ∈ ops, OpRect op)
    (hc : CarefulRun query (newGrid K) ops) : TablesFit (run query (newGrid K) ops).grid := by
  have := run_careful query (fun s => FacesRect s.grid ∧ TablesFit s.grid) (newGrid K) ops
    ⟨new_rect, by rintro t ⟨⟩, by rintro t ⟨⟩⟩ hc
    (fun s s' op ho hc hi h => ⟨step_rect query (hr op ho) h hi.1, step_fit query hc h hi.1 hi.2⟩)
  exact this.2

/-- Taking the faces away, by assigning `None` or deleting them, always takes the tables away; so
does deleting the edges for the face-edge table. -/
theorem C93_taken_away (s : Obj K) (op : Op K) (h : op = .setFaces none ∨ op = .delFaces) :
    ∃ s', step query s op = .ok s' ∧ s'.grid.faces = none ∧ s'.grid.faceFace = none ∧
      s'.grid.faceEdge = none := by
  rcases h with rfl | rfl <;> exact ⟨_, rfl, rfl, rfl, rfl⟩

theorem C93_edges_taken_away (s : Obj K) (op : Op K) (h : op = .setEdges none ∨ op = .delEdges) :
    ∃ s', step query s op = .ok s' ∧ s'.grid.edges = none ∧ s'.grid.faceEdge = none ∧
      s'.grid.faceFace = s.grid.faceFace := by
  rcases h with rfl | rfl <;> exact ⟨_, rfl, rfl, rfl, rfl⟩

/-- A table of another shape is refused, and one assigned to a grid without faces too. -/
theorem C93_wrong_shape (s : Obj K) (hi : FacesRect s.grid) (t : List (List Int)) :
    (ForFaces s.grid.faces t → (step query s (.setFaceFace (some t))).isOk = true ∧
      (step query s (.setFaceEdge (some t))).isOk = true) ∧
    (¬ ForFaces s.grid.faces t → ∃ e, (e = .valueError ∨ e = .typeError) ∧
      step query s (.setFaceFace (some t)) = .error e ∧
      step query s (.setFaceEdge (some t)) = .error e) := by
  simp only [step, shapeCheck]
  cases hf : s.grid.faces with
  | none =>
    refine ⟨?_, fun _ => ⟨_, Or.inr rfl, rfl, rfl⟩⟩
    rintro ⟨f, hf', _⟩
    cases hf'
  | some f =>
    have hl := lengths_const (hi f hf)
    refine ⟨?_, fun hn => ?_⟩
    · rintro ⟨f', hf', he⟩
      cases hf'
      simp [hl, he, Except.isOk, Except.toBool]
    · have : ¬ t.map List.length = f.map (fun _ => UIO.cols f) := fun he =>
        hn ⟨f, rfl, he.trans hl⟩
      exact ⟨.valueError, Or.inl rfl, by simp only [if_neg this], by simp only [if_neg this]⟩

/-- The neighbour table is the one of the current faces. -/
def FFCurrent (g : UIO.UGrid K) : Prop :=
  ∀ t, g.faceFace = some t → ∃ f, g.faces = some f ∧ t = UTopo.buildFaceFace (UIO.cols f) f

theorem step_current {s s' : Obj K} {op : Op K} (hn : ∀ t, op ≠ .setFaceFace (some t))
    (hc : Careful s op) (h : step query s op = .ok s') (hi : FFCurrent s.grid) :
    FFCurrent s'.grid := by
  cases op with
  | setNodes ns => cases ns <;> cases h <;> exact hi
  | setFaces t =>
    cases t with
    | none => cases h; rintro t ⟨⟩
    | some t =>
      obtain ⟨c1, c2⟩ := hc (Or.inl ⟨t, rfl⟩)
      simp only [step] at h
      split at h <;> cases h
      intro u hu
      simp only [c1] at hu
      cases hu
  | delNodes =>
    obtain ⟨c1, c2⟩ := hc (Or.inr rfl)
    cases h
    intro u hu
    simp only [c1] at hu
    cases hu
  | delFaces => cases h; rintro t ⟨⟩
  | setEdges t => cases t <;> cases h <;> exact hi
  | setFaceFace t =>
    cases t with
    | none => cases h; rintro t ⟨⟩
    | some t => exact absurd rfl (hn t)
  | setFaceEdge t =>
    cases t with
    | none => cases h; exact hi
    | some t =>
      simp only [step] at h
      split at h <;> cases h
      exact hi
  | delFaceFace => cases h; rintro t ⟨⟩
  | buildFaceFace =>
    simp only [step] at h
    split at h
    · cases h
    · next t ht =>
      cases h
      rintro u ⟨⟩
      exact neighbours_ok ht
  | buildBoundaries =>
    simp only [step] at h
    split at h
    · cases h
    · next t ht =>
      split at h <;> cases h
      rintro u ⟨⟩
      unfold tableOf at ht
      split at ht
      · next u hu =>
        cases ht
        exact hi _ hu
      · exact neighbours_ok ht
  | buildFaceEdge =>
    simp only [step] at h
    split at h <;> cases h
    exact hi
  | buildFaceCoords =>
    simp only [step] at h
    split at h <;> cases h
    exact hi
  | buildEdgeCoords =>
    simp only [step] at h
    split at h <;> cases h
    exact hi
  | buildBoundaryCoords =>
    simp only [step] at h
    split at h <;> cases h
    exact hi
  | locateNodes =>
    cases h
    cases s.kdtree <;> exact hi
  | getLines =>
    cases h
    cases s.grid.edges <;> exact hi
  | _ => cases h; exact hi

theorem run_current (ops : List (Op K)) (hn : ∀ t, .setFaceFace (some t) ∉ ops)
    (hc : CarefulRun query (newGrid K) ops) : FFCurrent (run query (newGrid K) ops).grid :=
  run_careful query (fun s => FFCurrent s.grid) (newGrid K) ops (by rintro t ⟨⟩) hc
    (fun _ _ _ ho hc hi h => step_current query (fun t ht => hn t (ht ▸ ho)) hc h hi)

/-- In such a history without tables assigned by the caller, a neighbour table held describes the
current faces: every entry is -1 or a face with the same edge. -/
theorem C93_current_partial (ops : List (Op K)) (hr : ∀ op ∈ ops, OpRect op)
    (hn : ∀ t, .setFaceFace (some t) ∉ ops) (hc : CarefulRun query (newGrid K) ops)
    (t : List (List Int)) (ht : (run query (newGrid K) ops).grid.faceFace = some t) :
    ∃ f, (run query (newGrid K) ops).grid.faces = some f ∧
      t.map List.length = f.map List.length ∧
      ∀ i j v, Entry t i j v → v = -1 ∨ ∃ k l : Nat, v = k ∧ (k, l) ≠ (i, j) ∧ Shares f i j k l ∧
        Entry t k l i := by
  obtain ⟨f, hf, rfl⟩ := run_current query ops hn hc t ht
  have hw := run_rect query ops hr f hf
  exact ⟨f, hf, buildFaceFace_lengths hw, fun i j v h => C26_neighbours hw i j v h⟩

theorem any_false_of {α : Type*} (l : List α) (p : α → Bool) (h : ∀ x ∈ l, p x = false) :
    l.any p = false := by
  rw [List.any_eq_false]
  intro x hx
  rw [h x hx]
  simp

/-- And then building the boundaries succeeds whenever there are faces: they are the sides of the
current faces without neighbour, each once, in the direction of the face. -/
theorem C93_boundaries_partial (ops : List (Op K)) (hr : ∀ op ∈ ops, OpRect op)
    (hn : ∀ t, .setFaceFace (some t) ∉ ops) (hc : CarefulRun query (newGrid K) ops)
    (f : List (List Int)) (hf : (run query (newGrid K) ops).grid.faces = some f) :
    ∃ s' t b ps, step query (run query (newGrid K) ops) .buildBoundaries = .ok s' ∧
      s'.grid.faces = some f ∧ s'.grid.faceFace = some t ∧
      s'.grid.boundaries = some (b.map (fun p => [p.1, p.2])) ∧ List.Nodup ps ∧
      (∀ i j, (i, j) ∈ ps ↔ Entry t i j (-1)) ∧
      List.Forall₂ (fun p (s : Int × Int) => Side f p.1 p.2 s.1 s.2) ps b := by
  have hw := run_rect query ops hr f hf
  have hcur := run_current query ops hn hc
  generalize hs : run query (newGrid K) ops = s at hf hcur
  obtain ⟨ps, h1, h2, h3⟩ := C28_boundaries hw
  have hff : tableOf s.grid = .ok (UTopo.buildFaceFace (UIO.cols f) f) := by
    unfold tableOf
    cases hff : s.grid.faceFace with
    | none => simp [neighbours, hf]
    | some t =>
      obtain ⟨f', hf', rfl⟩ := hcur t hff
      rw [hf] at hf'
      cases hf'
      rfl
  have hl := buildFaceFace_lengths hw
  have hlen : (UTopo.buildFaceFace (UIO.cols f) f).length = f.length := by
    simpa using congrArg List.length hl
  have hb : boundariesOf s.grid.faces (UTopo.buildFaceFace (UIO.cols f) f) =
      .ok (UTopo.buildBoundaries (UIO.cols f) f none) := by
    rw [hf]
    unfold boundariesOf
    have a1 : ((UTopo.buildFaceFace (UIO.cols f) f).zipIdx).any
        (fun ri => ri.1.contains (-1) && decide (f.length ≤ ri.2)) = false := by
      apply any_false_of
      rintro ⟨r, i⟩ hri
      have := (List.mem_zipIdx hri).2.1
      simp only [Nat.zero_add] at this
      simp
      omega
    have a2 : (UTopo.buildFaceFace (UIO.cols f) f).any (fun r => (r.zipIdx).any
        (fun vj => vj.1 == -1 && decide (UIO.cols f ≤ vj.2))) = false := by
      apply any_false_of
      intro r hr'
      apply any_false_of
      rintro ⟨v, j⟩ hvj
      have hj := (List.mem_zipIdx hvj).2.1
      have := rect_of_lengths hl hw r hr'
      simp only [Nat.zero_add] at hj
      simp
      omega
    simp only [a1, a2]
    rfl
  refine ⟨{ s with grid := { s.grid with
    faceFace := some (UTopo.buildFaceFace (UIO.cols f) f),
    boundaries := some (rowsOf (UTopo.buildBoundaries (UIO.cols f) f none)) } },
    _, _, ps, ?_, hf, rfl, rfl, h1, h2, h3⟩
  simp only [step]
  rw [hff]
  simp only
  rw [hb]

/-- Non-vacuity: two triangles; faces are exchanged after the tables have been dropped. -/
example : let ops : List (Op ℚ) := [.setNodes (some [(0, 0), (1, 0), (1, 1), (0, 1)]),
      .setFaces (some [[0, 1, 2]]), .buildBoundaries, .delFaceFace,
      .setFaces (some [[0, 1, 2], [0, 2, 3]]), .buildFaceFace]
    CarefulRun (fun _ _ => 0) (newGrid ℚ) ops ∧
    (run (fun _ _ => 0) (newGrid ℚ) ops).grid.faceFace = some [[-1, -1, 1], [0, -1, -1]] := by
  refine ⟨?_, by decide +kernel⟩
  simp only [CarefulRun, Careful, and_true]
  refine ⟨by simp, fun _ => by decide +kernel, by simp, by simp, fun _ => by decide +kernel, by simp⟩

/-- Without faces there is nothing to find boundaries of: building them fails and changes nothing,
unless a held neighbour table without any free side is all that is looked at. -/
theorem C93_boundaries_without_faces_partial (s : Obj K) (hf : s.grid.faces = none)
    (hfree : ∀ t, s.grid.faceFace = some t → ∃ r ∈ t, (-1 : Int) ∈ r) :
    (∃ e, step query s .buildBoundaries = .error e) ∧ next query s .buildBoundaries = s := by
  have key : ∃ e, step query s .buildBoundaries = .error e := by
    cases ht : s.grid.faceFace with
    | none =>
      exact ⟨.attributeError, by simp only [step, tableOf, ht, neighbours, hf]⟩
    | some t =>
      obtain ⟨r, hr, hm⟩ := hfree t ht
      have : t.any (fun r => r.contains (-1)) = true := by
        rw [List.any_eq_true]; exact ⟨r, hr, by simpa using hm⟩
      exact ⟨.typeError, by simp only [step, tableOf, ht, boundariesOf, hf, this, if_true]⟩
  obtain ⟨e, he⟩ := key
  exact ⟨⟨e, he⟩, by simp only [next, he]⟩

example : (run (fun _ _ => 0) (newGrid ℚ) [.setNodes (some [(0, 0), (1, 0), (1, 1)]),
    .setFaces (some [[0, 1, 2]]), .buildFaceFace, .delNodes]).grid.faces = none ∧
  (run (fun _ _ => 0) (newGrid ℚ) [.setNodes (some [(0, 0), (1, 0), (1, 1)]),
    .setFaces (some [[0, 1, 2]]), .buildFaceFace, .delNodes]).grid.faceFace =
      some [[-1, -1, -1]] := by decide +kernel

end C93

/-! ## C94: representative points -/

section C94
variable {K : Type} [Field K] (query : List (Int × Int) → Int × Int → Nat)

/-- C94 as claimed. -/
def C94_statement : Prop :=
  ∀ (q : List (Int × Int) → Int × Int → Nat) (ops : List (Op ℚ)), (∀ op ∈ ops, OpRect op) →
    CoordsFit (run q (newGrid ℚ) ops).grid

/-- C94 is false: deleting the faces drops the points of the edges and keeps those of the faces. -/
theorem C94_refuted : ¬ C94_statement := by
  intro h
  have := (h (fun _ _ => 0) [.setNodes (some [(0, 0), (1, 0), (1, 1), (0, 1)]),
    .setFaces (some [[0, 1, 2]]), .buildFaceCoords, .delFaces] (by
      intro op hop t ht
      simp only [List.mem_cons, List.not_mem_nil, or_false] at hop
      rcases hop with rfl | rfl | rfl | rfl <;> cases ht <;> exact ⟨3, by simp [Rect]⟩)).1
  have hs : (run (fun _ _ => 0) (newGrid ℚ) [.setNodes (some [(0, 0), (1, 0), (1, 1), (0, 1)]),
    .setFaces (some [[0, 1, 2]]), .buildFaceCoords, .delFaces]).grid =
      { nodes := [(0, 0), (1, 0), (1, 1), (0, 1)], faceCoords := some [(2/3, 1/3)] } := by
    decide +kernel
  rw [hs] at this
  obtain ⟨f, hf, hl⟩ := this _ rfl
  cases hf

/-- Built without faces, the points are the single mean of all nodes. -/
theorem C94_refuted_none : (run (fun _ _ => 0) (newGrid ℚ)
      [.setNodes (some [(0, 0), (1, 0), (1, 1), (0, 1)]), .buildFaceCoords]).grid =
    { nodes := [(0, 0), (1, 0), (1, 1), (0, 1)], faceCoords := some [(1/2, 1/2)] } := by
  decide +kernel

/-- A grid can be saved exactly if its representative points belong to its parts; so the grids
above can not be saved. -/
theorem C94_saved_iff {K : Type} (g : UIO.UGrid K) : (∃ nc, UIO.save g = .ok nc) ↔ CoordsFit g := by
  have key : ∀ (l : UIO.Loc) (t : Option (List (List Int))) (c : Option (List (K × K))),
      (∃ v, UIO.optCoords l (t.map List.length) c = .ok v) ↔ OnePer t c := by
    intro l t c
    cases c with
    | none => exact ⟨fun _ => by rintro ps ⟨⟩, fun _ => ⟨_, rfl⟩⟩
    | some ps =>
      cases t with
      | none =>
        refine ⟨(by rintro ⟨v, hv⟩; cases hv), fun h => ?_⟩
        obtain ⟨t, ht, _⟩ := h ps rfl
        cases ht
      | some t =>
        simp only [UIO.optCoords, Option.map_some]
        by_cases hl : ps.length = t.length
        · refine ⟨fun _ => ?_, fun _ => by rw [if_pos hl]; exact ⟨_, rfl⟩⟩
          rintro qs ⟨⟩
          exact ⟨t, rfl, hl⟩
        · refine ⟨(by rintro ⟨v, hv⟩; rw [if_neg hl] at hv; cases hv), fun h => ?_⟩
          obtain ⟨t', ht, hl'⟩ := h ps rfl
          cases ht
          exact absurd hl' hl
  unfold CoordsFit
  rw [← key .face, ← key .edge, ← key .boundary]
  unfold UIO.save
  cases UIO.optCoords .face (g.faces.map List.length) g.faceCoords with
  | error e => simp
  | ok a =>
    cases UIO.optCoords .edge (g.edges.map List.length) g.edgeCoords with
    | error e => simp
    | ok b =>
      cases UIO.optCoords .boundary (g.boundaries.map List.length) g.boundaryCoords with
      | error e => simp
      | ok c => simp

theorem mapM_ok_length {α β : Type} (f : α → Except Err β) :
    ∀ (l : List α) (r : List β), l.mapM f = .ok r → List.Forall₂ (fun x y => f x = .ok y) l r
  | [], r, h => by
    cases h
    exact .nil
  | x :: l, r, h => by
    rw [List.mapM_cons] at h
    cases hx : f x with
    | error e => rw [hx] at h; cases h
    | ok y =>
      rw [hx] at h
      cases hl : l.mapM f with
      | error e =>
        simp only [bind, Except.bind, hl] at h
        cases h
      | ok r' =>
        simp only [bind, Except.bind, hl] at h
        cases h
        exact .cons hx (mapM_ok_length f l r' hl)

theorem mapM_of_forall₂ {α β : Type} (f : α → Except Err β) {l : List α} {r : List β}
    (h : List.Forall₂ (fun x y => f x = .ok y) l r) : l.mapM f = .ok r := by
  induction h with
  | nil => rfl
  | cons hx _ ih =>
    rw [List.mapM_cons, hx]
    simp only [bind, Except.bind, ih]
    rfl

theorem meanCoords_length {nodes : List (K × K)} {t : List (List Int)} {c : List (K × K)}
    (h : meanCoords nodes (some t) = .ok c) : c.length = t.length := by
  simp only [meanCoords] at h
  split at h
  · cases h
  · next rows hr =>
    cases h
    rw [List.length_map]
    exact (mapM_ok_length _ _ _ hr).length_eq.symm

/-- An operation that neither replaces a part while its points are held nor builds points for a
part that is not there. -/
def KeepsCoords (s : Obj K) (op : Op K) : Prop :=
  (op = .buildFaceCoords → s.grid.faces ≠ none) ∧ (op = .buildEdgeCoords → s.grid.edges ≠ none) ∧
  (op = .buildBoundaryCoords → s.grid.boundaries ≠ none) ∧
  ((∃ t, op = .setFaces t) ∨ op = .delFaces ∨ op = .delNodes → s.grid.faceCoords = none) ∧
  ((∃ t, op = .setEdges t) ∨ op = .buildEdges ∨ op = .delNodes → s.grid.edgeCoords = none) ∧
  ((∃ t, op = .setBoundaries t) ∨ op = .buildBoundaries ∨ op = .delNodes →
    s.grid.boundaryCoords = none)

def KeepsRun : Obj K → List (Op K) → Prop
  | _, [] => True
  | s, op :: ops => KeepsCoords s op ∧ KeepsRun (next query s op) ops

theorem onePer_none {K : Type} (t : Option (List (List Int))) {c : Option (List (K × K))}
    (h : c = none) : OnePer t c := by
  subst h
  rintro ps ⟨⟩

theorem onePer_mean {nodes : List (K × K)} {t : Option (List (List Int))} {c : List (K × K)}
    (ht : t ≠ none) (h : meanCoords nodes t = .ok c) : OnePer t (some c) := by
  rintro ps ⟨⟩
  cases t with
  | none => exact absurd rfl ht
  | some t => exact ⟨t, rfl, meanCoords_length h⟩

theorem step_coords {s s' : Obj K} {op : Op K} (hk : KeepsCoords s op)
    (h : step query s op = .ok s') (hi : CoordsFit s.grid) : CoordsFit s'.grid := by
  obtain ⟨h1, h2, h3⟩ := hi
  obtain ⟨k1, k2, k3, k4, k5, k6⟩ := hk
  cases op with
  | setNodes ns => cases ns <;> cases h <;> exact ⟨h1, h2, h3⟩
  | delNodes =>
    cases h
    exact ⟨onePer_none _ (k4 (by simp)), onePer_none _ (k5 (by simp)), onePer_none _ (k6 (by simp))⟩
  | setFaces t =>
    cases t with
    | none => cases h; exact ⟨onePer_none _ (k4 (by simp)), h2, h3⟩
    | some t =>
      simp only [step] at h
      split at h <;> cases h
      exact ⟨onePer_none _ (k4 (by simp)), h2, h3⟩
  | delFaces => cases h; exact ⟨onePer_none _ (k4 (by simp)), onePer_none _ rfl, h3⟩
  | setEdges t => cases t <;> cases h <;> exact ⟨h1, onePer_none _ (k5 (by simp)), h3⟩
  | delEdges => cases h; exact ⟨h1, onePer_none _ rfl, h3⟩
  | setBoundaries t => cases h; exact ⟨h1, h2, onePer_none _ (k6 (by simp))⟩
  | delBoundaries => cases h; exact ⟨h1, h2, onePer_none _ rfl⟩
  | setFaceFace t =>
    cases t with
    | none => cases h; exact ⟨h1, h2, h3⟩
    | some t =>
      simp only [step] at h
      split at h <;> cases h
      exact ⟨h1, h2, h3⟩
  | setFaceEdge t =>
    cases t with
    | none => cases h; exact ⟨h1, h2, h3⟩
    | some t =>
      simp only [step] at h
      split at h <;> cases h
      exact ⟨h1, h2, h3⟩
  | buildFaceFace =>
    simp only [step] at h
    split at h <;> cases h
    exact ⟨h1, h2, h3⟩
  | buildEdges => cases h; exact ⟨h1, onePer_none _ (k5 (by simp)), h3⟩
  | buildBoundaries =>
    simp only [step] at h
    split at h
    · cases h
    · split at h <;> cases h
      exact ⟨h1, h2, onePer_none _ (k6 (by simp))⟩
  | buildFaceEdge =>
    simp only [step] at h
    split at h <;> cases h
    exact ⟨h1, h2, h3⟩
  | buildFaceCoords =>
    simp only [step] at h
    split at h <;> cases h
    exact ⟨onePer_mean (k1 rfl) ‹_›, h2, h3⟩
  | buildEdgeCoords =>
    simp only [step] at h
    split at h <;> cases h
    exact ⟨h1, onePer_mean (k2 rfl) ‹_›, h3⟩
  | buildBoundaryCoords =>
    simp only [step] at h
    split at h <;> cases h
    exact ⟨h1, h2, onePer_mean (k3 rfl) ‹_›⟩
  | locateNodes =>
    cases h
    cases s.kdtree <;> exact ⟨h1, h2, h3⟩
  | getLines =>
    cases h
    cases he : s.grid.edges with
    | some t => exact ⟨h1, h2, h3⟩
    | none =>
      refine ⟨h1, onePer_none _ ?_, h3⟩
      cases hc : s.grid.edgeCoords with
      | none => rfl
      | some c =>
        obtain ⟨t, ht, _⟩ := h2 c hc
        rw [he] at ht
        cases ht
  | _ => cases h; exact ⟨h1, h2, h3⟩

/-- C94 where it holds: histories that do not replace a part while its points are held. Missing:
the other histories, for which the claim is false. -/
theorem C94_partial (ops : List (Op K)) (hk : KeepsRun query (newGrid K) ops) :
    CoordsFit (run query (newGrid K) ops).grid := by
  have : ∀ s : Obj K, CoordsFit s.grid → KeepsRun query s ops →
      CoordsFit (run query s ops).grid := by
    clear hk
    induction ops with
    | nil => exact fun s hs _ => hs
    | cons op ops ih =>
      intro s hs hk
      refine ih _ ?_ hk.2
      unfold next
      cases h : step query s op with
      | error e => exact hs
      | ok s' => exact step_coords query hk.1 h hs
  exact this _ ⟨by rintro ps ⟨⟩, by rintro ps ⟨⟩, by rintro ps ⟨⟩⟩ hk

/-- Deleting edges or boundaries takes their points away, whatever happened before. -/
theorem C94_taken_away (s : Obj K) :
    (∃ s', step query s .delEdges = .ok s' ∧ s'.grid.edges = none ∧ s'.grid.edgeCoords = none) ∧
    ∃ s', step query s .delBoundaries = .ok s' ∧ s'.grid.boundaries = none ∧
      s'.grid.boundaryCoords = none :=
  ⟨⟨_, rfl, rfl, rfl⟩, ⟨_, rfl, rfl, rfl⟩⟩

/-- Non-vacuity: points of faces and edges are built; the edges are deleted and built again. -/
example : let ops : List (Op ℚ) := [.setNodes (some [(0, 0), (3, 0), (3, 3), (0, 3)]),
      .setFaces (some [[0, 1, 2], [0, 2, 3]]), .buildFaceCoords, .buildEdges, .buildEdgeCoords,
      .delEdges, .getLines]
    KeepsRun (fun _ _ => 0) (newGrid ℚ) ops ∧
    (run (fun _ _ => 0) (newGrid ℚ) ops).grid.faceCoords = some [(2, 1), (1, 2)] ∧
    (run (fun _ _ => 0) (newGrid ℚ) ops).grid.edgeCoords = none := by
  refine ⟨?_, by decide +kernel⟩
  simp only [KeepsRun, KeepsCoords, and_true]
  simp
  decide +kernel

end C94

/-! ## C95: where representative points are -/

section C95
variable {K : Type} [Field K] [LinearOrder K] [IsStrictOrderedRing K]

/-- Every entry of a row is a node or padding, and there is a node. -/
def GoodRow {K : Type} (nodes : List (K × K)) (row : List Int) : Prop :=
  (∀ i ∈ row, i = -1 ∨ (0 ≤ i ∧ i < nodes.length)) ∧ ∃ i ∈ row, i ≠ -1

/-- C95 as claimed. -/
def C95_statement : Prop :=
  ∀ (nodes : List (ℚ × ℚ)) (t : List (List Int)) (w : Nat), Rect w t →
    (∀ r ∈ t, GoodRow nodes r) →
    ∃ c, meanCoords nodes (some t) = .ok c ∧
      List.Forall₂ (fun row p => ∃ ps, NodesOf nodes row ps ∧ AverageOf ps p) t c

/-- C95 is false for meshes of triangles and quadrilaterals: the padding -1 of a triangle counts as
the last node. -/
theorem C95_refuted : ¬ C95_statement := by
  intro h
  obtain ⟨c, hc, hf⟩ := h [(0, 0), (3, 0), (0, 3), (9, 9)] [[0, 1, 2, -1]] 4 (by simp [Rect])
    (by simp [GoodRow])
  have hm : meanCoords [((0 : ℚ), (0 : ℚ)), (3, 0), (0, 3), (9, 9)] (some [[0, 1, 2, -1]]) =
      .ok [(3, 3)] := by decide +kernel
  rw [hm] at hc
  cases hc
  cases hf with
  | cons h1 _ =>
    obtain ⟨ps, hp, ha, _⟩ := h1
    have hrow : ([0, 1, 2, -1] : List Int).filter (fun i => i ≠ -1) = [0, 1, 2] := by decide
    unfold NodesOf at hp
    rw [hrow] at hp
    cases hp with
    | cons a hp =>
      cases hp with
      | cons b hp =>
        cases hp with
        | cons c hp =>
          cases hp
          obtain ⟨n1, e1, g1⟩ := a
          obtain ⟨n2, e2, g2⟩ := b
          obtain ⟨n3, e3, g3⟩ := c
          have : n1 = 0 := by omega
          have : n2 = 1 := by omega
          have : n3 = 2 := by omega
          subst n1 n2 n3
          simp only [List.getElem?_cons_zero, List.getElem?_cons_succ, Option.some.injEq] at g1 g2 g3
          subst g1 g2 g3
          norm_num at ha

theorem pick_ok {nodes : List (K × K)} {i : Int} (h0 : 0 ≤ i) (h1 : i < nodes.length) :
    ∃ p, pick nodes i = .ok p ∧ NodeAt nodes i p := by
  obtain ⟨n, rfl⟩ := Int.eq_ofNat_of_zero_le h0
  have hn : n < nodes.length := by exact_mod_cast h1
  refine ⟨nodes[n], ?_, n, rfl, by simp [hn]⟩
  have h0' : ¬ ((n : Int) < 0) := by omega
  simp [pick, h0', hn]

theorem pickRow_ok {nodes : List (K × K)} :
    ∀ (row : List Int), (∀ i ∈ row, 0 ≤ i ∧ i < nodes.length) →
    ∃ ps, pickRow nodes row = .ok ps ∧ List.Forall₂ (NodeAt nodes) row ps
  | [], _ => ⟨[], rfl, .nil⟩
  | i :: row, h => by
    obtain ⟨p, hp, hn⟩ := pick_ok (h i (by simp)).1 (h i (by simp)).2
    obtain ⟨ps, hps, hns⟩ := pickRow_ok row (fun j hj => h j (List.mem_cons_of_mem _ hj))
    refine ⟨p :: ps, ?_, .cons hn hns⟩
    unfold pickRow at hps ⊢
    rw [List.mapM_cons, hp]
    simp only [bind, Except.bind, hps]
    rfl

theorem pickAll_ok {nodes : List (K × K)} :
    ∀ (t : List (List Int)), (∀ r ∈ t, ∀ i ∈ r, 0 ≤ i ∧ i < nodes.length) →
    ∃ rows, pickAll nodes t = .ok rows ∧ List.Forall₂ (fun r ps => List.Forall₂ (NodeAt nodes) r ps) t rows
  | [], _ => ⟨[], rfl, .nil⟩
  | r :: t, h => by
    obtain ⟨ps, hp, hn⟩ := pickRow_ok r (h r (by simp))
    obtain ⟨rows, hps, hns⟩ := pickAll_ok t (fun j hj => h j (List.mem_cons_of_mem _ hj))
    refine ⟨ps :: rows, ?_, .cons hn hns⟩
    unfold pickAll at hps ⊢
    rw [List.mapM_cons, hp]
    simp only [bind, Except.bind, hps]
    rfl

theorem meanPt_average {ps : List (K × K)} (h : ps ≠ []) : AverageOf ps (meanPt ps) := by
  have hl : (ps.length : K) ≠ 0 := by
    have : 0 < ps.length := List.length_pos_iff.2 h
    exact_mod_cast this.ne'
  unfold AverageOf meanPt
  constructor <;> field_simp

/-- C95 where it holds: tables without padding, of any number of vertices; edges and boundary
segments as well as faces. Missing: padded tables, for which the claim is false. -/
theorem C95_average_partial (nodes : List (K × K)) (t : List (List Int))
    (h : ∀ r ∈ t, r ≠ [] ∧ ∀ i ∈ r, 0 ≤ i ∧ i < nodes.length) :
    ∃ c, meanCoords nodes (some t) = .ok c ∧
      List.Forall₂ (fun row p => ∃ ps, NodesOf nodes row ps ∧ AverageOf ps p) t c := by
  obtain ⟨rows, hr, hf⟩ := pickAll_ok t (fun r hr => (h r hr).2)
  refine ⟨rows.map meanPt, by simp only [meanCoords, hr], ?_⟩
  rw [List.forall₂_map_right_iff]
  clear hr
  induction hf with
  | nil => exact .nil
  | @cons r ps t rows hp _ ih =>
    refine .cons ⟨ps, ?_, meanPt_average ?_⟩ (ih (fun r hr => h r (List.mem_cons_of_mem _ hr)))
    · have hr := (h r (by simp)).2
      unfold NodesOf
      rw [List.filter_eq_self.2]
      · exact hp
      · intro i hi
        have := (hr i hi).1
        simp
        omega
    · intro hn
      subst hn
      cases hp
      exact (h [] (by simp)).1 rfl

/-- A number of a node that does not exist, which only faces are checked for, raises `IndexError`. -/
theorem C95_bad_index (nodes : List (K × K)) (r : List Int) (t : List (List Int)) (i : Int)
    (hr : r ∈ t) (hi : i ∈ r) (hb : (nodes.length : Int) ≤ i ∨ i < -(nodes.length : Int)) :
    meanCoords nodes (some t) = .error .indexError := by
  have hany : ∀ {α β : Type} (f : α → Except Err β) (l : List α)
      (_ : ∀ x ∈ l, ∀ e, f x = .error e → e = .indexError) (_ : ∃ x ∈ l, ∃ e, f x = .error e),
      l.mapM f = .error .indexError := by
    intro α β f l hall hex
    induction l with
    | nil => obtain ⟨x, hx, _⟩ := hex; cases hx
    | cons x l ih =>
      rw [List.mapM_cons]
      cases hx : f x with
      | error e =>
        rw [hall x (by simp) e hx]
        rfl
      | ok y =>
        have : ∃ x ∈ l, ∃ e, f x = .error e := by
          obtain ⟨z, hz, e, he⟩ := hex
          rcases List.mem_cons.1 hz with rfl | hz
          · rw [hx] at he; cases he
          · exact ⟨z, hz, e, he⟩
        have := ih (fun z hz => hall z (List.mem_cons_of_mem _ hz)) this
        simp only [bind, Except.bind, this]
  have hp : ∀ i e, pick nodes i = .error e → e = .indexError := by
    intro i e h
    unfold pick at h
    generalize (if i < 0 then i + (nodes.length : Int) else i) = j at h
    simp only at h
    split at h
    · cases h; rfl
    · split at h <;> cases h
      rfl
  have hrow : ∀ r e, pickRow nodes r = .error e → e = .indexError := by
    intro r e h
    by_cases hx : ∃ x ∈ r, ∃ e, pick nodes x = .error e
    · have := hany (pick nodes) r (fun x _ e h => hp x e h) hx
      unfold pickRow at h
      rw [this] at h
      cases h
      rfl
    · exfalso
      have hall : ∀ x ∈ r, ∃ y, pick nodes x = .ok y := by
        intro x hx'
        cases hy : pick nodes x with
        | ok y => exact ⟨y, rfl⟩
        | error e => exact absurd ⟨x, hx', e, hy⟩ hx
      have : ∃ ps, r.mapM (pick nodes) = .ok ps := by
        clear h hx
        induction r with
        | nil => exact ⟨[], rfl⟩
        | cons x r ih =>
          obtain ⟨y, hy⟩ := hall x (by simp)
          obtain ⟨ps, hps⟩ := ih (fun z hz => hall z (List.mem_cons_of_mem _ hz))
          refine ⟨y :: ps, ?_⟩
          rw [List.mapM_cons, hy]
          simp only [bind, Except.bind, hps]
          rfl
      obtain ⟨ps, hps⟩ := this
      unfold pickRow at h
      rw [hps] at h
      cases h
  have h1 : pick nodes i = .error .indexError := by
    rcases hb with hb | hb
    · have h0 : ¬ i < 0 := by omega
      have : nodes[i.toNat]? = none := by
        rw [List.getElem?_eq_none_iff]
        omega
      simp [pick, h0, this]
    · have h0 : i < 0 := by omega
      have : i + (nodes.length : Int) < 0 := by omega
      simp [pick, h0, this]
  have h2 := hany (pick nodes) r (fun x _ e h => hp x e h) ⟨i, hi, _, h1⟩
  have h3 : pickAll nodes t = .error .indexError :=
    hany (pickRow nodes) t (fun x _ e h => hrow x e h) ⟨r, hr, _, h2⟩
  simp only [meanCoords, h3]

/-- The average lies within every rectangle that contains the points. -/
theorem C95_inside (ps : List (K × K)) (c : K × K) (hn : ps ≠ []) (h : AverageOf ps c)
    (lo hi : K × K) (hb : ∀ p ∈ ps, lo.1 ≤ p.1 ∧ p.1 ≤ hi.1 ∧ lo.2 ≤ p.2 ∧ p.2 ≤ hi.2) :
    lo.1 ≤ c.1 ∧ c.1 ≤ hi.1 ∧ lo.2 ≤ c.2 ∧ c.2 ≤ hi.2 := by
  have hpos : (0 : K) < ps.length := by
    have : 0 < ps.length := List.length_pos_iff.2 hn
    exact_mod_cast this
  have key : ∀ (f : K × K → K) (a b : K), (∀ p ∈ ps, a ≤ f p ∧ f p ≤ b) →
      (ps.length : K) * a ≤ (ps.map f).sum ∧ (ps.map f).sum ≤ (ps.length : K) * b := by
    intro f a b
    clear hn h hb hpos
    induction ps with
    | nil => simp
    | cons p ps ih =>
      intro hb
      obtain ⟨i1, i2⟩ := ih (fun q hq => hb q (List.mem_cons_of_mem _ hq))
      obtain ⟨p1, p2⟩ := hb p (by simp)
      simp only [List.length_cons, List.map_cons, List.sum_cons, Nat.cast_add, Nat.cast_one, add_mul,
        one_mul]
      constructor
      · rw [add_comm (f p)]
        exact add_le_add i1 p1
      · rw [add_comm (f p)]
        exact add_le_add i2 p2
  obtain ⟨h1, h2⟩ := h
  obtain ⟨a1, a2⟩ := key Prod.fst lo.1 hi.1 (fun p hp => ⟨(hb p hp).1, (hb p hp).2.1⟩)
  obtain ⟨b1, b2⟩ := key Prod.snd lo.2 hi.2 (fun p hp => ⟨(hb p hp).2.2.1, (hb p hp).2.2.2⟩)
  rw [← h1] at a1 a2
  rw [← h2] at b1 b2
  exact ⟨le_of_mul_le_mul_left a1 hpos, le_of_mul_le_mul_left a2 hpos,
    le_of_mul_le_mul_left b1 hpos, le_of_mul_le_mul_left b2 hpos⟩

/-- Non-vacuity: a quadrilateral. -/
example : (∀ r ∈ ([[0, 1, 2, 3]] : List (List Int)), r ≠ [] ∧
      ∀ i ∈ r, 0 ≤ i ∧ i < ([(0, 0), (4, 0), (4, 2), (0, 2)] : List (ℚ × ℚ)).length) ∧
    meanCoords [((0 : ℚ), (0 : ℚ)), (4, 0), (4, 2), (0, 2)] (some [[0, 1, 2, 3]]) =
      .ok [(2, 1)] := by
  constructor
  · decide
  · decide +kernel

end C95

/-! ## C96: nearest nodes -/

section C96
variable {K : Type} [Field K] (query : List (Int × Int) → Int × Int → Nat)

/-- C96 as claimed: after any history, the nodes searched are the current ones. -/
def C96_statement : Prop :=
  ∀ (q : List (Int × Int) → Int × Int → Nat) (ops : List (Op ℚ)),
    searched (run q (newGrid ℚ) ops) = (run q (newGrid ℚ) ops).grid.nodes

/-- C96 is false: the search tree is never built again. -/
theorem C96_refuted : ¬ C96_statement := by
  intro h
  exact absurd (h (fun _ _ => 0) [.setNodes (some [(0, 0), (1, 0)]), .locateNodes,
    .setNodes (some [(5, 5)])]) (by decide +kernel)

/-- Nodes are not changed once they have been searched. -/
def NodesKept : Obj K → List (Op K) → Prop
  | _, [] => True
  | s, op :: ops =>
    ((∃ ns, op = .setNodes ns) ∨ op = .delNodes → s.kdtree = none) ∧ NodesKept (next query s op) ops

theorem step_nodes {s s' : Obj K} {op : Op K} (h : step query s op = .ok s')
    (hk : (∃ ns, op = .setNodes ns) ∨ op = .delNodes → s.kdtree = none)
    (hi : searched s = s.grid.nodes) : searched s' = s'.grid.nodes := by
  cases op with
  | setNodes ns =>
    have hk := hk (Or.inl ⟨ns, rfl⟩)
    cases ns <;> cases h <;> simp [searched, hk]
  | delNodes =>
    have hk := hk (Or.inr rfl)
    cases h
    simp [searched, hk]
  | setFaces t =>
    cases t with
    | none => cases h; exact hi
    | some t =>
      simp only [step] at h
      split at h <;> cases h
      exact hi
  | setEdges t => cases t <;> cases h <;> exact hi
  | setFaceFace t =>
    cases t with
    | none => cases h; exact hi
    | some t =>
      simp only [step] at h
      split at h <;> cases h
      exact hi
  | setFaceEdge t =>
    cases t with
    | none => cases h; exact hi
    | some t =>
      simp only [step] at h
      split at h <;> cases h
      exact hi
  | buildFaceFace =>
    simp only [step] at h
    split at h <;> cases h
    exact hi
  | buildBoundaries =>
    simp only [step] at h
    split at h
    · cases h
    · split at h <;> cases h
      exact hi
  | buildFaceEdge =>
    simp only [step] at h
    split at h <;> cases h
    exact hi
  | buildFaceCoords =>
    simp only [step] at h
    split at h <;> cases h
    exact hi
  | buildEdgeCoords =>
    simp only [step] at h
    split at h <;> cases h
    exact hi
  | buildBoundaryCoords =>
    simp only [step] at h
    split at h <;> cases h
    exact hi
  | locateNodes =>
    cases h
    cases hk : s.kdtree with
    | none => simp [searched]
    | some t => exact hi
  | getLines =>
    cases h
    cases s.grid.edges <;> exact hi
  | _ => cases h; exact hi

/-- C96 where it holds: any history that does not change the nodes once they have been searched.
Missing: the other histories, for which the claim is false. -/
theorem C96_partial (ops : List (Op K)) (hk : NodesKept query (newGrid K) ops) :
    searched (run query (newGrid K) ops) = (run query (newGrid K) ops).grid.nodes := by
  have : ∀ s : Obj K, searched s = s.grid.nodes → NodesKept query s ops →
      searched (run query s ops) = (run query s ops).grid.nodes := by
    clear hk
    induction ops with
    | nil => exact fun s hs _ => hs
    | cons op ops ih =>
      intro s hs hk
      refine ih _ ?_ hk.2
      unfold next
      cases h : step query s op with
      | error e => exact hs
      | ok s' => exact step_nodes query h hk.1 hs
  exact this _ rfl hk

/-- Non-vacuity: nodes assigned twice, then searched while the faces change. -/
example : let ops : List (Op ℚ) := [.setNodes (some [(0, 0)]), .setNodes (some [(0, 0), (1, 0), (0, 1)]),
      .locateNodes, .setFaces (some [[0, 1, 2]]), .locateNodes]
    NodesKept (fun _ _ => 0) (newGrid ℚ) ops ∧
    searched (run (fun _ _ => 0) (newGrid ℚ) ops) = [(0, 0), (1, 0), (0, 1)] := by
  refine ⟨?_, by decide +kernel⟩
  simp [NodesKept, newGrid]
  decide +kernel

end C96

/-! ## C97: lines -/

section C97
variable {K : Type} [Field K] [LinearOrder K] [IsStrictOrderedRing K]

/-- The lines of a mesh: each edge of the faces once, as its two end points. -/
def LinesOf {K : Type} (nodes : List (K × K)) (f : List (List Int)) (ls : List (List (K × K))) : Prop :=
  ∃ es : List (Int × Int), es.Nodup ∧
    (∀ a b, (a, b) ∈ es ↔ a ≤ b ∧ ∃ i j, Side f i j a b ∨ Side f i j b a) ∧
    List.Forall₂ (fun e l => ∃ p q, l = [p, q] ∧ NodeAt nodes e.1 p ∧ NodeAt nodes e.2 q) es ls

/-- C97 as claimed. -/
def C97_statement : Prop :=
  ∀ (q : List (Int × Int) → Int × Int → Nat) (ops : List (Op ℚ)), (∀ op ∈ ops, OpRect op) →
    (∀ op ∈ ops, ∀ t, op ≠ .setEdges t) → ∀ f, (run q (newGrid ℚ) ops).grid.faces = some f →
    (∀ r ∈ f, ∀ i ∈ r, 0 ≤ i ∧ i < (run q (newGrid ℚ) ops).grid.nodes.length) →
    ∃ ls, lines (run q (newGrid ℚ) ops) = .ok ls ∧
      LinesOf (run q (newGrid ℚ) ops).grid.nodes f ls

/-- C97 is false: the edges found for the first faces are kept when other faces are assigned. -/
theorem C97_refuted : ¬ C97_statement := by
  intro h
  have hs : (run (fun _ _ => 0) (newGrid ℚ) [.setNodes (some [(0, 0), (1, 0), (1, 1), (0, 1)]),
      .setFaces (some [[0, 1, 2]]), .getLines, .setFaces (some [[0, 1, 2], [0, 2, 3]])]).grid =
      { nodes := [(0, 0), (1, 0), (1, 1), (0, 1)], faces := some [[0, 1, 2], [0, 2, 3]],
        edges := some [[0, 2], [0, 1], [1, 2]] } := by decide +kernel
  obtain ⟨ls, h1, es, hn, he, hf⟩ := h (fun _ _ => 0)
    [.setNodes (some [(0, 0), (1, 0), (1, 1), (0, 1)]),
      .setFaces (some [[0, 1, 2]]), .getLines, .setFaces (some [[0, 1, 2], [0, 2, 3]])] (by
      intro op hop t ht
      simp only [List.mem_cons, List.not_mem_nil, or_false] at hop
      rcases hop with rfl | rfl | rfl | rfl <;> cases ht <;> exact ⟨3, by simp [Rect]⟩) (by simp)
    _ (by rw [hs]) (by rw [hs]; decide)
  rw [hs] at hf
  -- three lines, but more than three edges
  have hlen : es.length = 3 := by
    have : lines (run (fun _ _ => 0) (newGrid ℚ) [.setNodes (some [(0, 0), (1, 0), (1, 1), (0, 1)]),
      .setFaces (some [[0, 1, 2]]), .getLines, .setFaces (some [[0, 1, 2], [0, 2, 3]])]) =
        .ok [[(0, 0), (1, 1)], [(0, 0), (1, 0)], [(1, 0), (1, 1)]] := by decide +kernel
    rw [this] at h1
    cases h1
    exact hf.length_eq
  have hsub : [((0 : Int), (1 : Int)), (1, 2), (0, 2), (2, 3)].Subperm es := by
    apply List.subperm_of_subset (by decide)
    intro e hmem
    simp only [List.mem_cons, List.not_mem_nil, or_false] at hmem
    rcases hmem with rfl | rfl | rfl | rfl
    · exact (he _ _).2 ⟨by decide, 0, 0, Or.inl ⟨_, rfl, rfl, rfl⟩⟩
    · exact (he _ _).2 ⟨by decide, 0, 1, Or.inl ⟨_, rfl, rfl, rfl⟩⟩
    · exact (he _ _).2 ⟨by decide, 0, 2, Or.inr ⟨_, rfl, rfl, rfl⟩⟩
    · exact (he _ _).2 ⟨by decide, 1, 1, Or.inl ⟨_, rfl, rfl, rfl⟩⟩
  have := hsub.length_le
  simp [hlen] at this

/-- Without faces there are no edges, yet all nodes are returned as one line. -/
theorem C97_no_faces {K : Type} (s : Obj K) (hf : s.grid.faces = none) (he : s.grid.edges = none) :
    lines s = .ok [s.grid.nodes] := by
  simp [lines, hf, he, edgesOf]

/-- C97 where it holds: no edges have been found before. Missing: the claim for edges found before,
which is false. -/
theorem C97_partial (s : Obj K) (f : List (List Int)) (w : Nat) (hf : s.grid.faces = some f)
    (he : s.grid.edges = none) (hr : Rect w f)
    (hi : ∀ r ∈ f, ∀ i ∈ r, 0 ≤ i ∧ i < s.grid.nodes.length) :
    ∃ ls, lines s = .ok ls ∧ LinesOf s.grid.nodes f ls := by
  have hw := rect_cols hr
  obtain ⟨hn, hm⟩ := C27_edges hw
  have hin : ∀ i j a b, Side f i j a b → (0 ≤ a ∧ a < s.grid.nodes.length) ∧
      (0 ≤ b ∧ b < s.grid.nodes.length) := by
    rintro i j a b ⟨r, h1, h2, h3⟩
    have hr := List.mem_of_getElem? h1
    exact ⟨hi r hr a (List.mem_of_getElem? h2), hi r hr b (List.mem_of_getElem? h3)⟩
  have hrows : ∀ r ∈ rowsOf (UTopo.buildEdges (UIO.cols f) f), ∀ i ∈ r,
      0 ≤ i ∧ i < s.grid.nodes.length := by
    intro r hr i hri
    unfold rowsOf at hr
    rw [List.mem_map] at hr
    obtain ⟨⟨a, b⟩, hab, rfl⟩ := hr
    obtain ⟨_, k, l, hs⟩ := (hm a b).1 hab
    simp only [List.mem_cons, List.not_mem_nil, or_false] at hri
    rcases hs with hs | hs
    · rcases hri with rfl | rfl
      · exact (hin _ _ _ _ hs).1
      · exact (hin _ _ _ _ hs).2
    · rcases hri with rfl | rfl
      · exact (hin _ _ _ _ hs).2
      · exact (hin _ _ _ _ hs).1
  obtain ⟨ls, hls, hfor⟩ := pickAll_ok _ hrows
  refine ⟨ls, ?_, UTopo.buildEdges (UIO.cols f) f, hn, hm, ?_⟩
  · simp only [lines, he, hf, edgesOf, Option.map_some]
    exact hls
  · unfold rowsOf at hfor
    rw [List.forall₂_map_left_iff] at hfor
    refine hfor.imp ?_
    rintro ⟨a, b⟩ l hl
    cases hl with
    | cons ha hl =>
      cases hl with
      | cons hb hl =>
        cases hl
        exact ⟨_, _, rfl, ha, hb⟩

/-- Lines of edges that are held are the end points of those edges. -/
theorem C97_held (s : Obj K) (t : List (List Int)) (he : s.grid.edges = some t)
    (hi : ∀ r ∈ t, ∀ i ∈ r, 0 ≤ i ∧ i < s.grid.nodes.length) :
    ∃ ls, lines s = .ok ls ∧ List.Forall₂ (List.Forall₂ (NodeAt s.grid.nodes)) t ls := by
  obtain ⟨ls, hls, hfor⟩ := pickAll_ok _ hi
  exact ⟨ls, by simp only [lines, he]; exact hls, hfor⟩

/-- Non-vacuity: a triangle. -/
example : let s : Obj ℚ := { grid := { nodes := [(0, 0), (1, 0), (1, 1)], faces := some [[0, 1, 2]] } }
    s.grid.edges = none ∧ Rect 3 [[0, 1, 2]] ∧
    lines s = .ok [[(0, 0), (1, 1)], [(0, 0), (1, 0)], [(1, 0), (1, 1)]] := by
  refine ⟨rfl, by simp [Rect], by decide +kernel⟩

end C97

/-! ## C98: equality -/

section C98
variable {K : Type} [DecidableEq K]

/-- Two objects compare equal exactly if they are the same object or grids of the same class with
the same nodes, faces and boundaries. -/
theorem C98_equal_iff (same : Bool) (c c' : Cls) (g g' : UIO.UGrid K) :
    eqGrid same c c' g g' = true ↔ same = true ∨ (c = c' ∧ g.nodes = g'.nodes ∧ g.faces = g'.faces ∧
      g.boundaries = g'.boundaries) := by
  unfold eqGrid
  cases same <;> by_cases h : c = c' <;> simp [h, and_assoc]

/-- So equality is an equivalence: an object equals itself, and copies, symmetrically and
transitively. -/
theorem C98_equivalence (c c' c'' : Cls) (g g' g'' : UIO.UGrid K) :
    eqGrid false c c g g = true ∧ eqGrid false c c' g g' = eqGrid false c' c g' g ∧
    (eqGrid false c c' g g' = true → eqGrid false c' c'' g' g'' = true →
      eqGrid false c c'' g g'' = true) := by
  refine ⟨by simp [C98_equal_iff], ?_, ?_⟩
  · rw [Bool.eq_iff_iff, C98_equal_iff, C98_equal_iff]
    constructor <;> rintro (h | ⟨h1, h2, h3, h4⟩) <;>
      first
        | exact Or.inl h
        | exact Or.inr ⟨h1.symm, h2.symm, h3.symm, h4.symm⟩
  · simp only [C98_equal_iff, Bool.false_eq_true, false_or]
    rintro ⟨h1, h2, h3, h4⟩ ⟨k1, k2, k3, k4⟩
    exact ⟨h1.trans k1, h2.trans k2, h3.trans k3, h4.trans k4⟩

/-- Equality looks at nothing that can be built again. -/
theorem C98_derived (c : Cls) (g : UIO.UGrid K) (e ff fe : Option (List (List Int)))
    (fc ec bc : Option (List (K × K))) :
    eqGrid false c c g { g with edges := e, faceFace := ff, faceEdge := fe, faceCoords := fc,
                                edgeCoords := ec, boundaryCoords := bc } = true := by
  simp [C98_equal_iff]

/-- A grid read back from its file equals the grid saved, if it comes back at all (C36: not with
three faces or two boundary segments). -/
theorem C98_saved_partial (g : UIO.UGrid K) (h : Valid g)
    (h3 : ∀ t, g.faces = some t → t.length ≠ 3) (h2 : ∀ t, g.edges = some t → t.length ≠ 2)
    (hb : ∀ t, g.boundaries = some t → t.length ≠ 2) (c : Cls) :
    ∃ nc g', UIO.save g = .ok nc ∧ (∀ mem, UIO.load mem nc = .ok g') ∧ eqGrid false c c g g' = true := by
  obtain ⟨nc, a, b⟩ := C36_roundtrip_partial g h h3 h2 hb
  exact ⟨nc, _, a, b, by simp [C98_equal_iff]⟩

/-- C98 between any grid and what is read back from its file. -/
def C98_statement : Prop :=
  ∀ (g : UIO.UGrid ℚ), Valid g → ∀ c : Cls, ∃ nc g', UIO.save g = .ok nc ∧
    (∀ mem, UIO.load mem nc = .ok g') ∧ eqGrid false c c g g' = true

/-- C98 is false as listed: three triangles come back as other triangles. -/
theorem C98_refuted : ¬ C98_statement := by
  intro h
  obtain ⟨nc, g', h1, h2, h3⟩ := h exThree exThree_valid .ugrid
  obtain ⟨nc', g'', k1, k2, k3⟩ := C36_three_faces exThree exThree_valid [0, 1, 2] [0, 2, 3] [0, 3, 1] 3
    (by decide) rfl rfl rfl rfl
  have e := h1.symm.trans k1
  cases e
  have e := (h2 (fun _ _ => (0, 0))).symm.trans (k2 _)
  cases e
  rw [C98_equal_iff] at h3
  rcases h3 with h3 | ⟨-, -, h3, -⟩
  · cases h3
  · rw [k3] at h3
    revert h3
    decide

/-- Non-vacuity: equal and different grids. -/
example : let g : UIO.UGrid ℚ := { nodes := [(0, 0), (1, 0), (1, 1)], faces := some [[0, 1, 2]] }
    eqGrid false .ugrid .ugrid g { g with edges := some [[0, 1]] } = true ∧
    eqGrid false .ugrid (.sub 0) g g = false ∧
    eqGrid false .ugrid .ugrid g { g with faces := some [[1, 2, 0]] } = false ∧
    eqGrid false .ugrid .ugrid g { g with boundaries := some [[0, 1]] } = false := by
  decide +kernel

end C98

/-! ## C30 of a grid object -/

section C30
variable {K : Type} [Field K]

/-- The entry of a table for side `j` of face `i` is the number of an edge between its ends. -/
def EntryIs (t e : List (List Int)) (i j : Nat) (a b : Int) : Prop :=
  ∃ (row : List Int) (k : Nat) (c d : Int), t[i]? = some row ∧ row[j]? = some (k : Int) ∧ e[k]? = some [c, d] ∧
    SameEdge a b c d

/-- C30 for the grid: the table that is kept has, for each side of a face, the number of the edge of the
grid between its ends, if there is one. -/
theorem C30_in_grid (query : List (Int × Int) → Int × Int → Nat) (hq : Nearest query) (s : Obj K)
    (f e : List (List Int)) (w : Nat) (hf : s.grid.faces = some f) (hr : Rect w f)
    (he : s.grid.edges = some e) (h2 : Rect 2 e) :
    ∃ s' t, step query s .buildFaceEdge = .ok s' ∧ s'.grid = { s.grid with faceEdge := some t } ∧
      ∀ i j a b, Side f i j a b → ([a, b] ∈ e ∨ [b, a] ∈ e) → EntryIs t e i j a b := by
  refine ⟨{ s with grid := { s.grid with faceEdge := some ((UTopo.buildFaceEdge query (UIO.cols f) f
    (pairsOf e)).map (fun r => r.map (fun i : Nat => (i : Int)))) } }, _, by simp only [step, he, hf], rfl, ?_⟩
  intro i j a b hs hm
  have hpair : ∀ r ∈ e, r = [r.getD 0 0, r.getD 1 0] := by
    intro r hr'
    obtain ⟨x, y, rfl⟩ := List.length_eq_two.1 (h2 r hr')
    rfl
  have hmem : ∀ x y : Int, [x, y] ∈ e → (x, y) ∈ pairsOf e := fun x y h =>
    List.mem_map.2 ⟨[x, y], h, rfl⟩
  obtain ⟨row, k, c, d, r1, r2, r3, r4⟩ := C30_face_edges query hq (rect_cols hr) (pairsOf e) i j a b hs
    (hm.imp (hmem _ _) (hmem _ _))
  refine ⟨row.map (fun i : Nat => (i : Int)), k, c, d, by simp [r1], by simp [r2], ?_, r4⟩
  unfold pairsOf at r3
  rw [List.getElem?_map, Option.map_eq_some_iff] at r3
  obtain ⟨r, hk, hrc⟩ := r3
  rw [hk, hpair r (List.mem_of_getElem? hk)]
  cases hrc
  rfl

/-- C30 for a grid whose edges were found from its faces just before: every side of every face has its
edge. -/
theorem C30_all_sides (query : List (Int × Int) → Int × Int → Nat) (hq : Nearest query) (s : Obj K)
    (f : List (List Int)) (w : Nat) (hf : s.grid.faces = some f) (hr : Rect w f) :
    ∃ s' e t, run query s [.buildEdges, .buildFaceEdge] = s' ∧ s'.grid.faces = some f ∧
      s'.grid.edges = some e ∧ s'.grid.faceEdge = some t ∧
      ∀ i j a b, Side f i j a b → EntryIs t e i j a b := by
  obtain ⟨hn, hm⟩ := C27_edges (rect_cols hr)
  have h1 : step query s .buildEdges =
      .ok { s with grid := { s.grid with edges := some (rowsOf (UTopo.buildEdges (UIO.cols f) f)) } } := by
    simp only [step, hf, edgesOf, Option.map_some]
  obtain ⟨s', t, h2, h3, h4⟩ := C30_in_grid query hq
    { s with grid := { s.grid with edges := some (rowsOf (UTopo.buildEdges (UIO.cols f) f)) } } f
    (rowsOf (UTopo.buildEdges (UIO.cols f) f)) w hf hr rfl (by
      intro r hr'
      obtain ⟨p, _, rfl⟩ := List.mem_map.1 hr'
      rfl)
  refine ⟨s', rowsOf (UTopo.buildEdges (UIO.cols f) f), t, ?_, ?_, ?_, ?_, ?_⟩
  · simp only [run, List.foldl_cons, List.foldl_nil, next, h1, h2]
  · rw [h3]; exact hf
  · rw [h3]
  · rw [h3]
  · intro i j a b hs
    refine h4 i j a b hs ?_
    have hin : ∀ x y : Int, (x, y) ∈ UTopo.buildEdges (UIO.cols f) f →
        [x, y] ∈ rowsOf (UTopo.buildEdges (UIO.cols f) f) := fun x y h => List.mem_map.2 ⟨(x, y), h, rfl⟩
    rcases le_total a b with h | h
    · exact .inl (hin a b ((hm a b).2 ⟨h, i, j, .inl hs⟩))
    · exact .inr (hin b a ((hm b a).2 ⟨h, i, j, .inr hs⟩))

/-- Two triangles with their edges in another order, and one of the sides. -/
example : ∃ s' t, step firstNearest
      ({ grid := { nodes := [(0, 0), (1, 0), (0, 1), (1, 1)], faces := some [[0, 1, 2], [1, 3, 2]],
                   edges := some [[2, 0], [1, 0], [2, 3], [1, 2], [3, 1]] } } : Obj ℚ) .buildFaceEdge = .ok s' ∧
    s'.grid.faceEdge = some t ∧ t = [[1, 3, 0], [4, 2, 3]] := ⟨_, _, rfl, rfl, by decide⟩

example : Rect 3 [[0, 1, 2], [1, 3, 2]] ∧ Rect 2 [[2, 0], [1, 0], [2, 3], [1, 2], [3, 1]] ∧
    Side [[0, 1, 2], [1, 3, 2]] 1 2 2 1 := ⟨by unfold Rect; decide, by unfold Rect; decide, [1, 3, 2], rfl, rfl, rfl⟩

end C30

end Verif
