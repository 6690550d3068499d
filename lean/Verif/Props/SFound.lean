import Verif.Props.SLoad
import Verif.Props.SText

/-!
# Node coordinates of a loaded grid: named, or found by the dimensions (C77, C112)
-/

set_option autoImplicit false

namespace Verif
open Verif.Spec Verif.SFile

section
variable {α : Type} {ang : α → α → Except Err α}

private theorem top_eq {f : File α} (hd : DistinctNames f) {g : SObj α} (L : Loaded ang f g) {t : NVar α}
    (ht : t ∈ f.vars) (hg : t.name = g.topVar) : L.t = t := by
  obtain ⟨m, -, -, -⟩ := (C103_found f hd L.t).1 L.top
  exact eq_of_name hd m ht (by rw [← L.gtop, hg])

/-- C112. Node coordinates that the description names are those of the grid, in the order named. -/
theorem C112_named (f : File α) (hd : DistinctNames f) (g : SObj α) (h : load ang f = .ok g) (t : NVar α)
    (ht : t ∈ f.vars) (hg : t.name = g.topVar) (vx vy : NVar α)
    (hn : NamesTwo f t "node_coordinates" vx vy) (hx : ∀ v ∈ f.vars, v.name ∉ arrayNames) :
    g.nodeCoords = some [vx.name, vy.name] ∧ g.nodeLon = some vx.data ∧ g.nodeLat = some vy.data := by
  obtain ⟨L⟩ := load_inv h
  obtain rfl := top_eq hd L ht hg
  obtain ⟨q1, q2, q3, q4, q5⟩ := hn
  have e : L.nc.2 = some [vx.name, vy.name] := by
    have := L.ncs
    unfold nodeCoordinates at this
    rw [attr_eq, attr_eq, q1] at this
    split at this
    · cases this
    · rw [← Except.ok.inj this]
      simp only
      rw [show vx.name ++ ' ' :: vy.name = joinSpace [vx.name, vy.name] from rfl,
        split_join _ (by simp) (by
          intro n hn
          simp only [List.mem_cons, List.not_mem_nil, or_false] at hn
          rcases hn with rfl | rfl
          · exact q4
          · exact q5)]
  have r : L.node = some (vx, vy) := by
    have := L.hnode
    rw [e, readPair_of (find_mem hd q2) (find_mem hd q3)] at this
    exact (Except.ok.inj this).symm
  have hid : ∀ k : String, k.toList ∈ arrayNames → ∀ x : Option α, held f k x = x := fun k hk x =>
    held_id (fun v hv e => hx v hv (e ▸ hk)) x
  refine ⟨by rw [L.gnc, e], ?_, ?_⟩
  · rw [L.gnlon, r, hid _ (by decide)]; rfl
  · rw [L.gnlat, r, hid _ (by decide)]; rfl

/-- C77 for a whole file: a description that names no node coordinates, in a file where one name on the
node dimensions counts as x and one as y (missing: several candidates, `C77_refuted`). The grid holds the
arrays of these two, longitude first. -/
theorem C77_loaded_partial (f : File α) (hd : DistinctNames f) (g : SObj α) (h : load ang f = .ok g)
    (t : NVar α) (ht : t ∈ f.vars) (hg : t.name = g.topVar)
    (hn : t.attrs.lookup "node_coordinates".toList = none) (d1 d2 : Txt) (h1 : ' ' ∉ d1) (h2 : ' ' ∉ d2)
    (hdim : t.attrs.lookup "node_dimensions".toList = some (d1 ++ ' ' :: d2)) (vx vy : NVar α)
    (hx : vx ∈ f.vars) (hy : vy ∈ f.vars)
    (cx : CountsAsX [d1, d2] ⟨vx.name, vx.dims, vx.attrs.lookup "standard_name".toList⟩)
    (cy : CountsAsY [d1, d2] ⟨vy.name, vy.dims, vy.attrs.lookup "standard_name".toList⟩)
    (ux : ∀ v ∈ f.vars, CountsAsX [d1, d2] ⟨v.name, v.dims, v.attrs.lookup "standard_name".toList⟩ → v = vx)
    (uy : ∀ v ∈ f.vars, CountsAsY [d1, d2] ⟨v.name, v.dims, v.attrs.lookup "standard_name".toList⟩ → v = vy)
    (hxn : ∀ v ∈ f.vars, v.name ∉ arrayNames) :
    g.nodeCoords = some [vx.name, vy.name] ∧ g.nodeLon = some vx.data ∧ g.nodeLat = some vy.data := by
  obtain ⟨L⟩ := load_inv h
  obtain rfl := top_eq hd L ht hg
  have fnd : SText.findNodeCoordinates [d1, d2] (f.vars.map NVar.seen) = some (vx.name, vy.name) :=
    C77_partial [d1, d2] (f.vars.map NVar.seen) vx.seen vy.seen (List.mem_map_of_mem hx)
      (List.mem_map_of_mem hy) cx cy
      (by
        intro v hv c
        obtain ⟨w, hw, rfl⟩ := List.mem_map.1 hv
        rw [ux w hw c])
      (by
        intro v hv c
        obtain ⟨w, hw, rfl⟩ := List.mem_map.1 hv
        rw [uy w hw c])
  have e : L.nc.2 = some [vx.name, vy.name] := by
    have := L.ncs
    unfold nodeCoordinates at this
    rw [attr_eq, attr_eq, hdim, hn] at this
    simp only at this
    rw [← Except.ok.inj this]
    simp only
    rw [show d1 ++ ' ' :: d2 = joinSpace [d1, d2] from rfl, split_join _ (by simp) (by
      intro n hn
      simp only [List.mem_cons, List.not_mem_nil, or_false] at hn
      rcases hn with rfl | rfl
      · exact h1
      · exact h2), fnd]
    rfl
  have r : L.node = some (vx, vy) := by
    have := L.hnode
    rw [e, readPair_of (find_mem hd hx) (find_mem hd hy)] at this
    exact (Except.ok.inj this).symm
  have hid : ∀ k : String, k.toList ∈ arrayNames → ∀ x : Option α, held f k x = x := fun k hk x =>
    held_id (fun v hv e => hxn v hv (e ▸ hk)) x
  refine ⟨by rw [L.gnc, e], ?_, ?_⟩
  · rw [L.gnlon, r, hid _ (by decide)]; rfl
  · rw [L.gnlat, r, hid _ (by decide)]; rfl

end

/-- A file without names of node coordinates, latitudes first. -/
def unnamedFile : File Nat :=
  { dims := [("j".toList, 2), ("i".toList, 2), ("y".toList, 1), ("x".toList, 1), ("s".toList, 3)],
    vars := [
      { name := "phi".toList, dims := ["i".toList, "j".toList], data := 2,
        attrs := [("standard_name".toList, "latitude".toList)] },
      { name := "lon".toList, dims := ["j".toList, "i".toList], data := 1 },
      { name := "clon".toList, dims := ["y".toList, "x".toList], data := 3 },
      { name := "clat".toList, dims := ["y".toList, "x".toList], data := 4 },
      { name := "grid".toList, topDim := some (.ok 2), data := 0,
        attrs := [("cf_role".toList, "grid_topology".toList),
          ("node_dimensions".toList, "j i".toList),
          ("face_dimensions".toList, "y: j (padding: none) x: i (padding: none)".toList),
          ("vertical_dimensions".toList, "s: w (padding: none)".toList),
          ("face_coordinates".toList, "clon clat".toList)] }] }

example : ((load (fun a _ => .ok a) unnamedFile).map (fun g => (g.topVar, g.nodeCoords, g.nodeLon, g.nodeLat))) =
    .ok ("grid".toList, some ["lon".toList, "phi".toList], some 1, some 2) := by decide +kernel

-- The hypotheses about candidates hold in this file.
example : (∀ v ∈ unnamedFile.vars, HitX ["j".toList, "i".toList] v.seen → v.name = "lon".toList) ∧
    (∀ v ∈ unnamedFile.vars, HitY ["j".toList, "i".toList] v.seen → v.name = "phi".toList) ∧
    (∃ v ∈ unnamedFile.vars, HitX ["j".toList, "i".toList] v.seen) ∧
    (∃ v ∈ unnamedFile.vars, HitY ["j".toList, "i".toList] v.seen) ∧ DistinctNames unnamedFile := by
  refine ⟨?_, ?_, ⟨_, List.mem_cons_of_mem _ List.mem_cons_self, ?_⟩, ⟨_, List.mem_cons_self, ?_⟩,
    by simp [DistinctNames, unnamedFile]⟩
  · unfold HitX; decide +kernel
  · unfold HitY; decide +kernel
  · unfold HitX; decide +kernel
  · unfold HitY; decide +kernel

end Verif
