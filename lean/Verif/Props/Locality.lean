import Verif.Lemmas.Locality
import Verif.Props.CellChoice

/-!
# What an evaluation depends on: C164, C165
-/

set_option autoImplicit false

namespace Verif
open Spec Verif.DepthM Verif.TimeM Verif.At

section
variable {K : Type} [Field K] [LinearOrder K] [IsStrictOrderedRing K]

/-- A face number as the cell tree reports it: -1 for none. -/
def Reported (p : UPt K) : Prop := p.face = -1 ∨ ∃ k : Nat, p.face = k

/-- A cell as the cell tree reports it. -/
def ReportedCell (p : SPt K) : Prop := p.cell = none ∨ ∃ i j : Nat, p.cell = some ((i : Int), (j : Int))

/-- All points are in a face, or no value is NaN. -/
def LocatedOrFinite (pts : List (UPt K)) (vs vs' : List (Option K)) : Prop :=
  (∀ p ∈ pts, p.face ≠ -1) ∨ ((∀ v ∈ vs, v ≠ none) ∧ ∀ v ∈ vs', v ≠ none)

/-! ## C164 -/

/-- C164 in full, for data over time on an unstructured grid: also when points are in no face and
values are NaN. -/
def C164_statement : Prop :=
  ∀ (m : UGeom.Mesh ℚ) (loc : UGeom.Loc) (times : List Int) (ds : DepthSys ℚ (UPt ℚ))
    (d d' : List (List (Option ℚ))) (pts : List (UPt ℚ)) (t : Int) (e : Bool),
    (∀ f ∈ m.faces, ∀ a ∈ f, 0 ≤ a) → StrictIncr times → d.length = times.length →
    Alike (fun s s' => s.length = s'.length) d d' → (∀ p ∈ pts, Reported p) →
    (∀ (i n : Nat) (s s' : List (Option ℚ)), NextTo times t i → d[i]? = some s → d'[i]? = some s' →
      (∃ p ∈ pts, UsesU m loc p n) → s[n]? = s'[n]?) →
    eval (xyU m loc) times ds (.time d') pts t e = eval (xyU m loc) times ds (.time d) pts t e

/-- C164 fails: what a point outside the grid gives depends on whether a value of the last face is
NaN. -/
theorem C164_refuted : ¬ C164_statement := by
  intro h
  have := h oneTriangle .node [0] (levelSys UPt.z [0, 10] .extrapolate .extrapolate)
    [[some 1, some 2, some 3]] [[none, some 2, some 3]] [⟨-1, (9, 9), 0⟩] 0 false
    (by decide) (by unfold StrictIncr; decide) rfl
    ⟨rfl, by
      intro i x x' h1 h2
      rcases i with _ | i
      · cases h1; cases h2; rfl
      · cases h1⟩
    (by
      intro p hp
      simp only [List.mem_singleton] at hp
      subst hp
      exact Or.inl rfl)
    (by
      rintro i n s s' _ _ _ ⟨p, hp, k, f, hk, _⟩
      simp only [List.mem_singleton] at hp
      subst hp
      simp only at hk
      omega)
  revert this
  decide +kernel

/-- C164, data over time on an unstructured grid: values at other times and at corners or faces where
no point is do not matter. -/
theorem C164_unstructured_partial (m : UGeom.Mesh K) (hm : ∀ f ∈ m.faces, ∀ a ∈ f, 0 ≤ a)
    (loc : UGeom.Loc) (times : List Int) (hs : StrictIncr times) (ds : DepthSys K (UPt K))
    (d d' : List (List (Option K))) (hl : d.length = times.length)
    (hd : Alike (fun s s' => s.length = s'.length) d d') (pts : List (UPt K))
    (hp : ∀ p ∈ pts, Reported p) (t : Int) (e : Bool)
    (h : ∀ (i n : Nat) (s s' : List (Option K)), NextTo times t i → d[i]? = some s →
      d'[i]? = some s' → (∃ p ∈ pts, UsesU m loc p n) → s[n]? = s'[n]?)
    (hf : ∀ (i : Nat) (s s' : List (Option K)), NextTo times t i → d[i]? = some s →
      d'[i]? = some s' → LocatedOrFinite pts s s') :
    eval (xyU m loc) times ds (.time d') pts t e = eval (xyU m loc) times ds (.time d) pts t e :=
  eval_local_time (xyU m loc) hs ds d d' hl hd.1 t e pts fun i s s' hi h1 h2 =>
    xyU_local m hm loc s s' (hd.2 i s s' h1 h2) pts hp
      (fun p hpp n hu => h i n s s' hi h1 h2 ⟨p, hpp, hu⟩) (hf i s s' hi h1 h2)

/-- C164, data over times and levels, whatever the kind of depths. -/
theorem C164_unstructured_depths_partial (m : UGeom.Mesh K) (hm : ∀ f ∈ m.faces, ∀ a ∈ f, 0 ≤ a)
    (loc : UGeom.Loc) (times : List Int) (hs : StrictIncr times) (ds : DepthSys K (UPt K)) (n : Nat)
    (d d' : List (List (List (Option K)))) (hl : d.length = times.length)
    (hn : ∀ r ∈ d, r.length = n) (hd : Alike (Alike fun s s' => s.length = s'.length) d d')
    (pts : List (UPt K)) (hp : ∀ p ∈ pts, Reported p) (t : Int) (e : Bool)
    (h : ∀ (i k n : Nat) (r r' : List (List (Option K))) (s s' : List (Option K)),
      NextTo times t i → d[i]? = some r → d'[i]? = some r' → r[k]? = some s → r'[k]? = some s' →
      (∃ p ∈ pts, UsesU m loc p n) → s[n]? = s'[n]?)
    (hf : ∀ (i k : Nat) (r r' : List (List (Option K))) (s s' : List (Option K)),
      NextTo times t i → d[i]? = some r → d'[i]? = some r' → r[k]? = some s → r'[k]? = some s' →
      LocatedOrFinite pts s s') :
    eval (xyU m loc) times ds (.timeDepth d') pts t e =
      eval (xyU m loc) times ds (.timeDepth d) pts t e := by
  have hh : ∀ r ∈ d, r.length = (d.headD []).length := by
    intro r hr
    cases d with
    | nil => cases hr
    | cons x d => rw [hn r hr]; exact (hn x List.mem_cons_self).symm
  refine eval_local (xyU m loc) hs ds d d' hl
    ⟨hd.1, fun i r r' h1 h2 => (hd.2 i r r' h1 h2).1⟩ hh t e (fun _ _ => True) pts
    (depthLocal_all ds _ pts) ?_
  intro i k r r' s s' hi h1 h2 h3 h4 ps hps
  refine xyU_local m hm loc s s' ((hd.2 i r r' h1 h2).2 k s s' h3 h4) ps (fun p hpp => hp p (hps p hpp).1)
    (fun p hpp n hu => h i k n r r' s s' hi h1 h2 h3 h4 ⟨p, (hps p hpp).1, hu⟩) ?_
  rcases hf i k r r' s s' hi h1 h2 h3 h4 with g | g
  · exact Or.inl fun p hpp => g p (hps p hpp).1
  · exact Or.inr g

/-- C164, data over time on a structured grid, with no restriction on points off the grid. -/
theorem C164_structured (sqrt : K → K) (g : SInterp.Grid K) (loc : SIndex.Loc) (times : List Int)
    (hs : StrictIncr times) (ds : DepthSys K (SPt K)) (c c' : Nat)
    (d d' : List (List (List (SInterp.MV K)))) (hl : d.length = times.length)
    (hd : d.length = d'.length) (hc : ∀ s ∈ d, Rectangular c s) (hc' : ∀ s ∈ d', Rectangular c' s)
    (pts : List (SPt K)) (hp : ∀ p ∈ pts, ReportedCell p) (t : Int) (e : Bool)
    (h : ∀ (i : Nat) (s s' : List (List (SInterp.MV K))), NextTo times t i → d[i]? = some s →
      d'[i]? = some s' → ∀ r q, (∃ p ∈ pts, UsesS g loc p r q) → SameAt s s' r q) :
    eval (xyS sqrt g (some loc)) times ds (.time d') pts t e =
      eval (xyS sqrt g (some loc)) times ds (.time d) pts t e :=
  eval_local_time (xyS sqrt g (some loc)) hs ds d d' hl hd t e pts fun i s s' hi h1 h2 =>
    xyS_local sqrt g loc (hc s (List.mem_of_getElem? h1)) (hc' s' (List.mem_of_getElem? h2)) pts hp
      fun p hpp r q hu => h i s s' hi h1 h2 r q ⟨p, hpp, hu⟩

/-- C164, data over times and levels on a structured grid. -/
theorem C164_structured_depths (sqrt : K → K) (g : SInterp.Grid K) (loc : SIndex.Loc)
    (times : List Int) (hs : StrictIncr times) (ds : DepthSys K (SPt K)) (n c c' : Nat)
    (d d' : List (List (List (List (SInterp.MV K))))) (hl : d.length = times.length)
    (hn : ∀ r ∈ d, r.length = n) (hd : Alike (fun r r' => r.length = r'.length) d d')
    (hc : ∀ r ∈ d, ∀ s ∈ r, Rectangular c s) (hc' : ∀ r ∈ d', ∀ s ∈ r, Rectangular c' s)
    (pts : List (SPt K)) (hp : ∀ p ∈ pts, ReportedCell p) (t : Int) (e : Bool)
    (h : ∀ (i k : Nat) (x x' : List (List (List (SInterp.MV K)))) (s s' : List (List (SInterp.MV K))),
      NextTo times t i → d[i]? = some x → d'[i]? = some x' → x[k]? = some s → x'[k]? = some s' →
      ∀ r q, (∃ p ∈ pts, UsesS g loc p r q) → SameAt s s' r q) :
    eval (xyS sqrt g (some loc)) times ds (.timeDepth d') pts t e =
      eval (xyS sqrt g (some loc)) times ds (.timeDepth d) pts t e := by
  have hh : ∀ r ∈ d, r.length = (d.headD []).length := by
    intro r hr
    cases d with
    | nil => cases hr
    | cons x d => rw [hn r hr]; exact (hn x List.mem_cons_self).symm
  refine eval_local (xyS sqrt g (some loc)) hs ds d d' hl hd hh t e (fun _ _ => True) pts
    (depthLocal_all ds _ pts) ?_
  intro i k x x' s s' hi h1 h2 h3 h4 ps hps
  exact xyS_local sqrt g loc (hc x (List.mem_of_getElem? h1) s (List.mem_of_getElem? h3))
    (hc' x' (List.mem_of_getElem? h2) s' (List.mem_of_getElem? h4)) ps (fun p hpp => hp p (hps p hpp).1)
    fun p hpp r q hu => h i k x x' s s' hi h1 h2 h3 h4 r q ⟨p, (hps p hpp).1, hu⟩

/-! ## C165 -/

/-- C165 in full: at every depth, with data on the levels, only the levels next to the depth of a
point matter for it. -/
def C165_statement : Prop :=
  ∀ (m : UGeom.Mesh ℚ) (loc : UGeom.Loc) (times : List Int) (levels : List ℚ) (sbc bbc : BC)
    (d d' : List (List (List (Option ℚ)))) (pts : List (UPt ℚ)) (t : Int) (e : Bool),
    (∀ f ∈ m.faces, ∀ a ∈ f, 0 ≤ a) → StrictIncr times → StrictIncr levels → 2 ≤ levels.length →
    d.length = times.length → (∀ r ∈ d, r.length = levels.length) →
    Alike (Alike fun s s' => s.length = s'.length) d d' → (∀ p ∈ pts, ∃ k : Nat, p.face = k) →
    (∀ (i k n : Nat) (r r' : List (List (Option ℚ))) (s s' : List (Option ℚ)),
      NextTo times t i → d[i]? = some r → d'[i]? = some r' → r[k]? = some s → r'[k]? = some s' →
      (∃ p ∈ pts, NextTo levels p.z k ∧ UsesU m loc p n) → s[n]? = s'[n]?) →
    eval (xyU m loc) times (levelSys UPt.z levels sbc bbc) (.timeDepth d') pts t e =
      eval (xyU m loc) times (levelSys UPt.z levels sbc bbc) (.timeDepth d) pts t e

/-- C165 fails: a point above the first level is NaN when the value at the bottom level is. -/
theorem C165_refuted : ¬ C165_statement := by
  intro h
  have := h oneTriangle .node [0] [0, 10] .extrapolate .extrapolate
    [[[some 1, some 2, some 3], [some 1, some 2, some 3]]]
    [[[some 1, some 2, some 3], [none, some 2, some 3]]] [⟨0, (1, 1), -1⟩] 0 false
    (by decide) (by unfold StrictIncr; decide) (by unfold StrictIncr; decide +kernel) (by decide) rfl
    (by simp)
    ⟨rfl, by
      intro i x x' h1 h2
      rcases i with _ | i
      · cases h1; cases h2
        refine ⟨rfl, ?_⟩
        intro k s s' h1 h2
        rcases k with _ | _ | k
        · cases h1; cases h2; rfl
        · cases h1; cases h2; rfl
        · cases h1
      · cases h1⟩
    (by
      intro p hp
      simp only [List.mem_singleton] at hp
      subst hp
      exact ⟨0, rfl⟩)
    (by
      rintro i k n r r' s s' _ h1 h2 h3 h4 ⟨p, hp, ⟨y, hy, hn⟩, _⟩
      simp only [List.mem_singleton] at hp
      subst hp
      rcases i with _ | i
      · cases h1; cases h2
        rcases k with _ | _ | k
        · cases h3; cases h4; rfl
        · cases hy
          exact absurd ⟨by norm_num, by norm_num⟩ (hn 0 (by simp)).2
        · cases h3
      · cases h1)
  revert this
  decide +kernel

/-- C165 when every depth is within the levels and not at or beyond the one listed last: of the data,
only the values count that are, for some point, at a time next to the time asked for, at a level next
to the depth of the point, and at the corners of its face (or the face). -/
theorem C165_unstructured_partial (m : UGeom.Mesh K) (hm : ∀ f ∈ m.faces, ∀ a ∈ f, 0 ≤ a)
    (loc : UGeom.Loc) (times : List Int) (hs : StrictIncr times) (levels : List K)
    (hlv : StrictIncr levels ∨ StrictDecr levels) (hn2 : 2 ≤ levels.length) (sbc bbc : BC)
    (d d' : List (List (List (Option K)))) (hl : d.length = times.length) (hne : d ≠ [])
    (hn : ∀ r ∈ d, r.length = levels.length)
    (hd : Alike (Alike fun s s' => s.length = s'.length) d d') (pts : List (UPt K))
    (hp : ∀ p ∈ pts, ∃ k : Nat, p.face = k) (hz : ∀ p ∈ pts, WithinLevels levels p.z) (t : Int)
    (e : Bool)
    (h : ∀ (i k n : Nat) (r r' : List (List (Option K))) (s s' : List (Option K)),
      NextTo times t i → d[i]? = some r → d'[i]? = some r' → r[k]? = some s → r'[k]? = some s' →
      (∃ p ∈ pts, NextTo levels p.z k ∧ UsesU m loc p n) → s[n]? = s'[n]?) :
    eval (xyU m loc) times (levelSys UPt.z levels sbc bbc) (.timeDepth d') pts t e =
      eval (xyU m loc) times (levelSys UPt.z levels sbc bbc) (.timeDepth d) pts t e := by
  have hhd : (d.headD []).length = levels.length := by
    cases d with
    | nil => exact absurd rfl hne
    | cons x d => exact hn x List.mem_cons_self
  refine eval_local (xyU m loc) hs _ d d' hl
    ⟨hd.1, fun i r r' h1 h2 => (hd.2 i r r' h1 h2).1⟩ (fun r hr => by rw [hn r hr, hhd]) t e
    (fun p n => NextTo levels p.z n) pts
    (by rw [hhd]; exact depthLocal_levels UPt.z levels hlv hn2 sbc bbc pts hz) ?_
  intro i k r r' s s' hi h1 h2 h3 h4 ps hps
  refine xyU_local m hm loc s s' ((hd.2 i r r' h1 h2).2 k s s' h3 h4) ps
    (fun p hpp => Or.inr (hp p (hps p hpp).1))
    (fun p hpp n hu => h i k n r r' s s' hi h1 h2 h3 h4 ⟨p, (hps p hpp).1, (hps p hpp).2, hu⟩)
    (Or.inl fun p hpp => ?_)
  obtain ⟨k, hk⟩ := hp p (hps p hpp).1
  rw [hk]
  omega

/-- C165 on a structured grid. -/
theorem C165_structured_partial (sqrt : K → K) (g : SInterp.Grid K) (loc : SIndex.Loc)
    (times : List Int) (hs : StrictIncr times) (levels : List K)
    (hlv : StrictIncr levels ∨ StrictDecr levels) (hn2 : 2 ≤ levels.length) (sbc bbc : BC) (c c' : Nat)
    (d d' : List (List (List (List (SInterp.MV K))))) (hl : d.length = times.length) (hne : d ≠ [])
    (hn : ∀ r ∈ d, r.length = levels.length) (hd : Alike (fun r r' => r.length = r'.length) d d')
    (hc : ∀ r ∈ d, ∀ s ∈ r, Rectangular c s) (hc' : ∀ r ∈ d', ∀ s ∈ r, Rectangular c' s)
    (pts : List (SPt K)) (hp : ∀ p ∈ pts, ReportedCell p) (hz : ∀ p ∈ pts, WithinLevels levels p.z)
    (t : Int) (e : Bool)
    (h : ∀ (i k : Nat) (x x' : List (List (List (SInterp.MV K)))) (s s' : List (List (SInterp.MV K))),
      NextTo times t i → d[i]? = some x → d'[i]? = some x' → x[k]? = some s → x'[k]? = some s' →
      ∀ r q, (∃ p ∈ pts, NextTo levels p.z k ∧ UsesS g loc p r q) → SameAt s s' r q) :
    eval (xyS sqrt g (some loc)) times (levelSys SPt.z levels sbc bbc) (.timeDepth d') pts t e =
      eval (xyS sqrt g (some loc)) times (levelSys SPt.z levels sbc bbc) (.timeDepth d) pts t e := by
  have hhd : (d.headD []).length = levels.length := by
    cases d with
    | nil => exact absurd rfl hne
    | cons x d => exact hn x List.mem_cons_self
  refine eval_local (xyS sqrt g (some loc)) hs _ d d' hl hd (fun r hr => by rw [hn r hr, hhd]) t e
    (fun p n => NextTo levels p.z n) pts
    (by rw [hhd]; exact depthLocal_levels SPt.z levels hlv hn2 sbc bbc pts hz) ?_
  intro i k x x' s s' hi h1 h2 h3 h4 ps hps
  exact xyS_local sqrt g loc (hc x (List.mem_of_getElem? h1) s (List.mem_of_getElem? h3))
    (hc' x' (List.mem_of_getElem? h2) s' (List.mem_of_getElem? h4)) ps (fun p hpp => hp p (hps p hpp).1)
    fun p hpp r q hu => h i k x x' s s' hi h1 h2 h3 h4 r q ⟨p, (hps p hpp).1, (hps p hpp).2, hu⟩

end

/-! ## The hypotheses are met -/

/-- Whatever is put at the fourth node, at the lowest level and at the last time, a point of the first
triangle between the first two levels and times is not affected. -/
example (x : Option ℚ) : eval (xyU twoTriangles .node) [0, 10, 40]
    (levelSys UPt.z [0, 10, 30] .extrapolate .mask)
    (.timeDepth [[[some 1, some 2, some 3, x], [some 2, some 2, some 3, x], [x, x, x, x]],
      [[some 5, some 2, some 3, x], [some 1, none, some 3, x], [x, x, x, x]],
      [[x, x, x, x], [x, x, x, x], [x, x, x, x]]])
    [⟨0, (1, 1), 5⟩] 5 false =
    eval (xyU twoTriangles .node) [0, 10, 40] (levelSys UPt.z [0, 10, 30] .extrapolate .mask)
    (.timeDepth [[[some 1, some 2, some 3, some 7], [some 2, some 2, some 3, some 7],
      [some 7, some 7, some 7, some 7]],
      [[some 5, some 2, some 3, some 7], [some 1, none, some 3, some 7], [some 7, some 7, some 7, some 7]],
      [[some 7, some 7, some 7, some 7], [some 7, some 7, some 7, some 7],
        [some 7, some 7, some 7, some 7]]])
    [⟨0, (1, 1), 5⟩] 5 false := by
  refine C165_unstructured_partial twoTriangles (by decide) .node [0, 10, 40]
    (by unfold StrictIncr; decide) [0, 10, 30] (Or.inl (by unfold StrictIncr; decide +kernel))
    (by decide) .extrapolate .mask _ _ ?_ ?_ ?_ ⟨?_, ?_⟩ [⟨0, (1, 1), 5⟩] ?_ ?_ 5 false ?_
  · rfl
  · simp
  · simp
  · rfl
  · intro i r r' h1 h2
    rcases i with _ | _ | _ | i
    all_goals first
      | (cases h1; cases h2
         refine ⟨rfl, ?_⟩
         intro k s s' h3 h4
         rcases k with _ | _ | _ | k
         all_goals first
           | (cases h3; cases h4; rfl)
           | cases h3)
      | cases h1
  · intro p hp
    simp only [List.mem_singleton] at hp
    subst hp
    exact ⟨0, rfl⟩
  · intro p hp
    simp only [List.mem_singleton] at hp
    subst hp
    exact ⟨0, 30, rfl, rfl, Or.inl ⟨by norm_num, by norm_num⟩⟩
  · rintro i k n r r' s s' ⟨y, hy, hi⟩ h1 h2 h3 h4 ⟨p, hp, ⟨w, hw, hk⟩, q, f, hq, hf, hn⟩
    simp only [List.mem_singleton] at hp
    subst hp
    obtain rfl : q = 0 := by simp only at hq; omega
    cases hf
    simp only [List.mem_cons, List.not_mem_nil, or_false] at hn
    rcases i with _ | _ | _ | i
    · cases h1; cases h2
      rcases k with _ | _ | _ | k
      · cases h3; cases h4
        rcases hn with hn | hn | hn <;> (obtain rfl := Int.ofNat.inj hn; rfl)
      · cases h3; cases h4
        rcases hn with hn | hn | hn <;> (obtain rfl := Int.ofNat.inj hn; rfl)
      · cases hw
        exact absurd ⟨by norm_num, by norm_num⟩ (hk 10 (by simp)).2
      · cases h3
    · cases h1; cases h2
      rcases k with _ | _ | _ | k
      · cases h3; cases h4
        rcases hn with hn | hn | hn <;> (obtain rfl := Int.ofNat.inj hn; rfl)
      · cases h3; cases h4
        rcases hn with hn | hn | hn <;> (obtain rfl := Int.ofNat.inj hn; rfl)
      · cases hw
        exact absurd ⟨by norm_num, by norm_num⟩ (hk 10 (by simp)).2
      · cases h3
    · cases hy
      exact absurd ⟨by norm_num, by norm_num⟩ (hi 10 (by simp)).2
    · cases h1

/-- On a structured grid of two by two cells, a point of the first cell and one off the grid: the last
row and column, and the last time, do not matter. -/
example (x : SInterp.MV ℚ) : eval (xyS (fun k => k) grid2 (some .node)) [0, 10, 40]
    (levelSys SPt.z [0, 10] .extrapolate .mask)
    (.time [[[⟨1, false⟩, ⟨2, false⟩, x], [⟨3, true⟩, ⟨5, false⟩, x], [x, x, x]],
      [[⟨4, false⟩, ⟨2, false⟩, x], [⟨3, true⟩, ⟨7, false⟩, x], [x, x, x]],
      [[x, x, x], [x, x, x], [x, x, x]]])
    [⟨some (0, 0), (1 / 2, 1 / 4), 5⟩, ⟨none, (9, 9), 5⟩] 5 false =
    eval (xyS (fun k => k) grid2 (some .node)) [0, 10, 40]
    (levelSys SPt.z [0, 10] .extrapolate .mask)
    (.time [[[⟨1, false⟩, ⟨2, false⟩, ⟨0, false⟩], [⟨3, true⟩, ⟨5, false⟩, ⟨0, false⟩],
        [⟨0, false⟩, ⟨0, false⟩, ⟨0, false⟩]],
      [[⟨4, false⟩, ⟨2, false⟩, ⟨0, false⟩], [⟨3, true⟩, ⟨7, false⟩, ⟨0, false⟩],
        [⟨0, false⟩, ⟨0, false⟩, ⟨0, false⟩]],
      [[⟨0, false⟩, ⟨0, false⟩, ⟨0, false⟩], [⟨0, false⟩, ⟨0, false⟩, ⟨0, false⟩],
        [⟨0, false⟩, ⟨0, false⟩, ⟨0, false⟩]]])
    [⟨some (0, 0), (1 / 2, 1 / 4), 5⟩, ⟨none, (9, 9), 5⟩] 5 false := by
  refine C164_structured (fun k => k) grid2 .node [0, 10, 40] (by unfold StrictIncr; decide) _ 3 3 _ _
    ?_ ?_ ?_ ?_ [⟨some (0, 0), (1 / 2, 1 / 4), 5⟩, ⟨none, (9, 9), 5⟩] ?_ 5 false ?_
  · rfl
  · rfl
  · unfold Rectangular; simp
  · unfold Rectangular; simp
  · intro p hp
    simp only [List.mem_cons, List.not_mem_nil, or_false] at hp
    rcases hp with rfl | rfl
    · exact Or.inr ⟨0, 0, rfl⟩
    · exact Or.inl rfl
  · rintro i s s' ⟨y, hy, hi⟩ h1 h2 r q ⟨p, hp, a, b, hc, hrq⟩
    simp only [List.mem_cons, List.not_mem_nil, or_false] at hp
    rcases hp with rfl | rfl
    · simp only [Option.some.injEq, Prod.mk.injEq] at hc
      obtain rfl : a = 0 := by omega
      obtain rfl : b = 0 := by omega
      obtain ⟨hr, hq⟩ := hrq
      rcases i with _ | _ | _ | i
      · cases h1; cases h2
        rcases hr with rfl | rfl <;> rcases hq with rfl | rfl <;> exact ⟨_, rfl, rfl⟩
      · cases h1; cases h2
        rcases hr with rfl | rfl <;> rcases hq with rfl | rfl <;> exact ⟨_, rfl, rfl⟩
      · cases hy
        exact absurd ⟨by norm_num, by norm_num⟩ (hi 10 (by simp)).2
      · cases h1
    · cases hc

end Verif
