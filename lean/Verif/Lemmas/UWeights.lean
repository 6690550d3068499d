import Verif.Model.UWeights
import Verif.Lemmas.Cache
import Mathlib.Tactic.Common

set_option autoImplicit false

namespace Verif.UWeights
open Verif.UGeom
open Verif.DepthM (mapE)

variable {K : Type} [Field K] [LinearOrder K] (ct : Mesh K → List (K × K) → List Int) (eps : K)

/-- The locating part knows nothing but the mesh `m`. -/
structure LFaithful (m : Mesh K) (g : Locate.Grid K) : Prop where
  mesh : g.mesh = m
  tree : g.tree.getD g.mesh = m
  memo : ∀ p ∈ g.memo, p.2 = ct m p.1

/-- So does the whole grid. -/
structure Faithful (m : Mesh K) (g : Grid K) : Prop where
  loc : LFaithful ct m g.loc
  weights : ∀ p ∈ g.weights, weighAll m (ct m p.1) p.1 = .ok p.2

theorem faithful_new (m : Mesh K) : Faithful ct m (new m) :=
  ⟨⟨rfl, rfl, by simp [new]⟩, by simp [new]⟩

theorem locate_faithful {m : Mesh K} {g : Locate.Grid K} (h : LFaithful ct m g) (pts : List (K × K))
    (memo : Bool) :
    (Locate.locate ct eps g pts .celltree memo).2 = .ok (ct m pts) ∧
      LFaithful ct m (Locate.locate ct eps g pts .celltree memo).1 := by
  obtain ⟨h1, h2, h3⟩ := h
  unfold Locate.locate
  cases hL : (if memo then Cache.lookup g.memo pts else none) with
  | some r =>
    cases memo with
    | false => simp at hL
    | true =>
      simp only [if_true] at hL
      have := h3 _ (Cache.lookup_mem hL)
      exact ⟨by simp [← this], h1, h2, h3⟩
  | none =>
    simp only [Locate.fresh, if_true, h2]
    refine ⟨trivial, ?_⟩
    cases memo with
    | false => exact ⟨h1, rfl, h3⟩
    | true =>
      refine ⟨h1, rfl, fun p hp => ?_⟩
      rcases Cache.mem_store .ugrid g.memo pts (ct m pts) p hp with hp | rfl
      · exact h3 p hp
      · rfl

theorem alphas_faithful {m : Mesh K} {g : Grid K} (h : Faithful ct m g) (pts : List (K × K))
    (inds : Option (List Int)) (hi : inds = none ∨ inds = some (ct m pts)) (copy memo : Bool) :
    (interpolationAlphas ct eps g pts inds copy memo).2 = weighAll m (ct m pts) pts ∧
      Faithful ct m (interpolationAlphas ct eps g pts inds copy memo).1 := by
  unfold interpolationAlphas
  cases hL : (if memo then Cache.lookup g.weights pts else none) with
  | some r =>
    cases memo with
    | false => simp at hL
    | true =>
      simp only [if_true] at hL
      exact ⟨(h.weights _ (Cache.lookup_mem hL)).symm, h⟩
  | none =>
    have close : ∀ found : Locate.Grid K × Except Err (List Int), found.2 = .ok (ct m pts) →
        LFaithful ct m found.1 →
        (match found.2 with
          | .error e => (({ g with loc := found.1 } : Grid K), Except.error e)
          | .ok is => match weighAll found.1.mesh is pts with
            | .error e => ({ g with loc := found.1 }, .error e)
            | .ok w =>
              (if memo then { loc := found.1, weights := Cache.store .ugrid g.weights pts w }
                else { g with loc := found.1 }, .ok w)).2 = weighAll m (ct m pts) pts ∧
        Faithful ct m (match found.2 with
          | .error e => (({ g with loc := found.1 } : Grid K), Except.error e)
          | .ok is => match weighAll found.1.mesh is pts with
            | .error e => ({ g with loc := found.1 }, .error e)
            | .ok w =>
              (if memo then { loc := found.1, weights := Cache.store .ugrid g.weights pts w }
                else { g with loc := found.1 }, .ok w)).1 := by
      rintro ⟨l, r⟩ f1 f2
      dsimp only at f1 f2
      subst f1
      dsimp only
      rw [f2.mesh]
      cases hw : weighAll m (ct m pts) pts with
      | error e => exact ⟨rfl, f2, h.weights⟩
      | ok w =>
        refine ⟨rfl, ?_⟩
        cases memo with
        | false => exact ⟨f2, h.weights⟩
        | true =>
          refine ⟨f2, fun p hp => ?_⟩
          rcases Cache.mem_store .ugrid g.weights pts w p hp with hp | rfl
          · exact h.weights p hp
          · exact hw
    rcases hi with rfl | rfl
    · obtain ⟨f1, f2⟩ := locate_faithful ct eps h.loc pts copy
      exact close _ f1 f2
    · exact close (g.loc, .ok (ct m pts)) rfl h.loc

/-- What interpolation gives on a mesh, without memory. -/
def plainValues (m : Mesh K) (loc : Loc) (data : List (Option K)) (is : List Int)
    (pts : List (K × K)) : Except Err (Option (List (Option K))) :=
  match loc with
  | .face => match mapE (interpFace data) is with
    | .error e => .error e
    | .ok vs => .ok (some vs)
  | .node => match weighAll m is pts with
    | .error e => .error e
    | .ok ws => match mapE (corners m data) is with
      | .error e => .error e
      | .ok vs => match rows vs ws with
        | .error e => .error e
        | .ok l => .ok (some (l.map fun q => dot q.1 q.2))
  | .boundary => .ok none

theorem values_faithful {m : Mesh K} {g : Grid K} (h : Faithful ct m g) (loc : Loc)
    (data : List (Option K)) (pts : List (K × K)) (copy memo : Bool) :
    (interpolateVar ct eps g loc data pts copy memo).2 = plainValues m loc data (ct m pts) pts ∧
      Faithful ct m (interpolateVar ct eps g loc data pts copy memo).1 := by
  obtain ⟨f1, f2⟩ := locate_faithful ct eps h.loc pts copy
  unfold interpolateVar
  simp only [f1]
  have hg : Faithful ct m { g with loc := (Locate.locate ct eps g.loc pts .celltree copy).1 } :=
    ⟨f2, h.weights⟩
  cases loc with
  | face => exact ⟨rfl, hg⟩
  | boundary => exact ⟨rfl, hg⟩
  | node =>
    obtain ⟨a1, a2⟩ := alphas_faithful ct eps hg pts (some (ct m pts)) (Or.inr rfl) copy memo
    refine ⟨?_, a2⟩
    simp only [plainValues, a1, a2.loc.mesh]
    rfl

/-! ## Two grids that differ in nothing but a tree not built yet -/

/-- The same mesh, the same tree once built, the same memories. -/
structure Alike (g g' : Grid K) : Prop where
  mesh : g'.loc.mesh = g.loc.mesh
  tree : g'.loc.tree.getD g'.loc.mesh = g.loc.tree.getD g.loc.mesh
  memo : g'.loc.memo = g.loc.memo
  weights : g'.weights = g.weights

theorem locate_alike {g g' : Locate.Grid K} (h1 : g'.mesh = g.mesh)
    (h2 : g'.tree.getD g'.mesh = g.tree.getD g.mesh) (h3 : g'.memo = g.memo) (pts : List (K × K))
    (μ : Locate.Method) (memo : Bool) :
    (Locate.locate ct eps g' pts μ memo).2 = (Locate.locate ct eps g pts μ memo).2 ∧
      (Locate.locate ct eps g' pts μ memo).1.mesh = (Locate.locate ct eps g pts μ memo).1.mesh ∧
      (Locate.locate ct eps g' pts μ memo).1.tree.getD (Locate.locate ct eps g' pts μ memo).1.mesh
        = (Locate.locate ct eps g pts μ memo).1.tree.getD
            (Locate.locate ct eps g pts μ memo).1.mesh ∧
      (Locate.locate ct eps g' pts μ memo).1.memo = (Locate.locate ct eps g pts μ memo).1.memo := by
  obtain ⟨m, t, s⟩ := g
  obtain ⟨m', t', s'⟩ := g'
  dsimp only at h1 h2 h3
  subst h1 h3
  unfold Locate.locate
  dsimp only
  cases hL : (if memo then Cache.lookup s' pts else none) with
  | some r => exact ⟨rfl, rfl, h2, rfl⟩
  | none =>
    dsimp only
    by_cases hμ : μ = .celltree
    · simp only [hμ, if_true, h2, Locate.fresh]
      cases memo <;> simp
    · simp only [hμ, if_false]
      cases Locate.fresh ct eps m' μ pts with
      | error e => exact ⟨rfl, rfl, h2, rfl⟩
      | ok r => cases memo <;> exact ⟨rfl, rfl, h2, rfl⟩

theorem alphas_alike {g g' : Grid K} (h : Alike g g') (pts : List (K × K))
    (inds : Option (List Int)) (copy memo : Bool) :
    (interpolationAlphas ct eps g' pts inds copy memo).2
        = (interpolationAlphas ct eps g pts inds copy memo).2 ∧
      Alike (interpolationAlphas ct eps g pts inds copy memo).1
        (interpolationAlphas ct eps g' pts inds copy memo).1 := by
  unfold interpolationAlphas
  rw [h.weights]
  cases hL : (if memo then Cache.lookup g.weights pts else none) with
  | some r => exact ⟨rfl, h⟩
  | none =>
    cases inds with
    | some is =>
      dsimp only
      rw [h.mesh]
      cases weighAll g.loc.mesh is pts with
      | error e => exact ⟨rfl, h.mesh, h.tree, h.memo, rfl⟩
      | ok w =>
        cases memo with
        | false => exact ⟨rfl, h.mesh, h.tree, h.memo, rfl⟩
        | true => exact ⟨rfl, h.mesh, h.tree, h.memo, rfl⟩
    | none =>
      obtain ⟨l1, l2, l3, l4⟩ := locate_alike ct eps h.mesh h.tree h.memo pts .celltree copy
      dsimp only
      rw [l1, l2]
      cases (Locate.locate ct eps g.loc pts .celltree copy).2 with
      | error e => exact ⟨rfl, l2, l3, l4, rfl⟩
      | ok is =>
        dsimp only
        cases weighAll (Locate.locate ct eps g.loc pts .celltree copy).1.mesh is pts with
        | error e => exact ⟨rfl, l2, l3, l4, rfl⟩
        | ok w =>
          cases memo with
          | false => exact ⟨rfl, l2, l3, l4, rfl⟩
          | true => exact ⟨rfl, l2, l3, l4, rfl⟩

theorem values_alike {g g' : Grid K} (h : Alike g g') (loc : Loc) (data : List (Option K))
    (pts : List (K × K)) (copy memo : Bool) :
    (interpolateVar ct eps g' loc data pts copy memo).2
        = (interpolateVar ct eps g loc data pts copy memo).2 ∧
      Alike (interpolateVar ct eps g loc data pts copy memo).1
        (interpolateVar ct eps g' loc data pts copy memo).1 := by
  obtain ⟨l1, l2, l3, l4⟩ := locate_alike ct eps h.mesh h.tree h.memo pts .celltree copy
  have hg : Alike { g with loc := (Locate.locate ct eps g.loc pts .celltree copy).1 }
      { g' with loc := (Locate.locate ct eps g'.loc pts .celltree copy).1 } :=
    ⟨l2, l3, l4, h.weights⟩
  unfold interpolateVar
  dsimp only
  rw [l1]
  cases (Locate.locate ct eps g.loc pts .celltree copy).2 with
  | error e => exact ⟨rfl, hg⟩
  | ok is =>
    cases loc with
    | face => exact ⟨rfl, hg⟩
    | boundary => exact ⟨rfl, hg⟩
    | node =>
      obtain ⟨a1, a2⟩ := alphas_alike ct eps hg pts (some is) copy memo
      refine ⟨?_, a2⟩
      dsimp only
      rw [a1, a2.mesh]

end Verif.UWeights
