import Verif.Lemmas.SMemory
import Mathlib.Algebra.Order.Ring.Rat
import Mathlib.Algebra.Field.Rat

/-!
# C194–C196: a structured grid object over histories
-/

set_option autoImplicit false

namespace Verif
open SMemory (Contents Obj Parts parts)

namespace SHist

/-- The contents a grid should have after some calls: the last assigned. -/
def gridNow {G P D : Type} (g : G) : List (SMemory.Op G P D) → G
  | [] => g
  | .setGrid g' :: h => gridNow g' h
  | _ :: h => gridNow g h

/-- A call that changes neither the grid nor how the mask is used. -/
inductive Usual {G P D : Type} : SMemory.Op G P D → Prop
  | locate (pts : List P) (memo : Bool) : Usual (.locate pts memo true)
  | locateOne (p : P) (memo : Bool) : Usual (.locateOne p memo true)
  | logical (pts : List P) (inds : Option (List (Option (Int × Int)))) (memo : Bool) :
      Usual (.logical pts inds memo)
  | interpolate (data : D) (pts : List P) (memo : Bool) : Usual (.interpolate data pts memo)

/-! Two rows of three nodes: two cells, each `w` wide and 1 high. -/

def lonOf (w : ℚ) : List (List ℚ) := [[0, w, 2 * w], [0, w, 2 * w]]
def latOf : List (List ℚ) := [[0, 0, 0], [1, 1, 1]]

def strip (w : ℚ) : Contents ℚ where
  tree := { rows := 2, cols := 3,
            nodes := [(0, 0), (w, 0), (2 * w, 0), (0, 1), (w, 1), (2 * w, 1)],
            coordMask := [false, false, false, false, false, false], maskedCoords := false,
            nodeMask := false, centerMask := none, centerPad := (.none, .none) }
  interp := { lon := lonOf w, lat := latOf, pads := fun _ => (.none, .none), centerMask := none,
              behavior := "mask" }

/-- A tree library for the examples: the first face whose first and third nodes enclose the point. -/
def boxSearch (nodes : List (ℚ × ℚ)) (faces : List (List Int)) (p : ℚ × ℚ) : Int :=
  let hit := fun f : List Int =>
    let a := nodes.getD (f.getD 0 0).toNat (0, 0)
    let c := nodes.getD (f.getD 2 0).toNat (0, 0)
    decide (a.1 ≤ p.1 ∧ p.1 < c.1 ∧ a.2 ≤ p.2 ∧ p.2 < c.2)
  match faces.findIdx? hit with
  | some i => (i : Int)
  | none => -1

/-- Values at the nodes that increase by 4 from column to column. -/
def ramp : Option SIndex.Loc × List (List (SInterp.MV ℚ)) :=
  (some .node, [[⟨0, false⟩, ⟨4, false⟩, ⟨8, false⟩], [⟨0, false⟩, ⟨4, false⟩, ⟨8, false⟩]])

abbrev F : Parts (Contents ℚ) (SCelltree.CellTree (ℚ × ℚ)) (ℚ × ℚ) (Option (ℚ × ℚ))
    (Option SIndex.Loc × List (List (SInterp.MV ℚ))) (Option ℚ) := parts boxSearch id

abbrev Call := SMemory.Op (Contents ℚ) (ℚ × ℚ) (Option SIndex.Loc × List (List (SInterp.MV ℚ)))

abbrev start (w : ℚ) : Obj (Contents ℚ) (SCelltree.CellTree (ℚ × ℚ)) (ℚ × ℚ) (Option (ℚ × ℚ)) :=
  SMemory.new (strip w)

end SHist

open SHist

/-! ## C194 -/

section C194

/-- The full claim: interpolation answers as a grid just made with the present coordinates and masks
would, whatever was asked and assigned before. -/
def C194_statement : Prop :=
  ∀ (search : List (ℚ × ℚ) → List (List Int) → ℚ × ℚ → Int) (g : Contents ℚ) (h : List Call)
    (data : Option SIndex.Loc × List (List (SInterp.MV ℚ))) (pts : List (ℚ × ℚ)) (memo : Bool),
    (SMemory.act (parts search id) (SMemory.after (parts search id) (SMemory.new g) h)
        (.interpolate data pts memo)).2
      = (SMemory.act (parts search id) (SMemory.new (gridNow g h)) (.interpolate data pts memo)).2

/-- After the coordinates were changed, the old tree and the old coefficients are used. -/
theorem C194_old_coordinates :
    (SMemory.act F (SMemory.after F (start 1)
      [.interpolate ramp [(1 / 2, 1 / 2)] false, .setGrid (strip 2)])
      (.interpolate ramp [(1 / 2, 1 / 2), (3, 1 / 2)] false)).2 = .values (.ok [some 2, none]) ∧
    (SMemory.act F (start 2) (.interpolate ramp [(1 / 2, 1 / 2), (3, 1 / 2)] false)).2
      = .values (.ok [some 1, some 6]) := by
  constructor <;> decide +kernel

theorem C194_refuted : ¬ C194_statement := by
  intro h
  have h1 := h boxSearch (strip 1) [.interpolate ramp [(1 / 2, 1 / 2)] false, .setGrid (strip 2)]
    ramp [(1 / 2, 1 / 2), (3, 1 / 2)] false
  have h2 := C194_old_coordinates
  have h3 := h2.1.symm.trans (h1.trans h2.2)
  exact absurd h3 (by decide +kernel)

variable {G T P L D V : Type} [DecidableEq P] (F : Parts G T P L D V)

theorem usual_kept {g : G} {o : Obj G T P L} (h : SMemory.Faithful F g o)
    {c : SMemory.Op G P D} (hc : Usual c) : SMemory.Faithful F g (SMemory.act F o c).1 := by
  cases hc with
  | locate pts memo => exact (SMemory.locate_faithful F h pts memo).2.1
  | locateOne p memo => exact (SMemory.locateOne_faithful F h p memo).1
  | logical pts inds memo => exact (SMemory.logical_faithful F h pts inds memo).2.1
  | interpolate data pts memo => exact (SMemory.interpolate_faithful F h data pts memo).2.1

theorem history_kept (g : G) (h : List (SMemory.Op G P D)) (hh : ∀ c ∈ h, Usual c) :
    SMemory.Faithful F g (SMemory.after F (SMemory.new g) h) := by
  induction h using List.reverseRecOn with
  | nil => exact SMemory.faithful_new F g
  | append_singleton h c ih =>
    simp only [SMemory.after, List.foldl_append, List.foldl_cons, List.foldl_nil]
    exact usual_kept F (ih fun c' hc' => hh c' (by simp [hc'])) (hh c (by simp))

/-- While the grid stays as it is and nobody asks to ignore the mask, interpolation and location
answer as a new grid would, whatever was asked before, remembered or not. -/
theorem C194_same_grid_partial (g : G) (h : List (SMemory.Op G P D)) (hh : ∀ c ∈ h, Usual c)
    (data : D) (pts : List P) (memo : Bool) :
    (SMemory.act F (SMemory.after F (SMemory.new g) h) (.interpolate data pts memo)).2
        = (SMemory.act F (SMemory.new g) (.interpolate data pts memo)).2 ∧
    (SMemory.act F (SMemory.after F (SMemory.new g) h) (.locate pts memo true)).2
        = (SMemory.act F (SMemory.new g) (.locate pts memo true)).2 := by
  have h1 := history_kept F g h hh
  have h2 := SMemory.faithful_new F g (L := L)
  constructor
  · simp only [SMemory.act, (SMemory.interpolate_faithful F h1 data pts memo).1,
      (SMemory.interpolate_faithful F h2 data pts memo).1]
  · simp only [SMemory.act, (SMemory.locate_faithful F h1 pts memo).1,
      (SMemory.locate_faithful F h2 pts memo).1]

theorem after_sets (g : G) (s : List G) :
    SMemory.after F (SMemory.new g) (s.map .setGrid) = SMemory.new (s.getLastD g) := by
  induction s generalizing g with
  | nil => rfl
  | cons a s ih =>
    have h := ih a
    simp only [SMemory.after, List.map_cons, List.foldl_cons] at h ⊢
    refine Eq.trans h ?_
    cases s <;> rfl

/-- Coordinates and masks assigned before the first question are the ones used: the last count. -/
theorem C194_before_use_partial (g : G) (s : List G) (h : List (SMemory.Op G P D))
    (hh : ∀ c ∈ h, Usual c) (data : D) (pts : List P) (memo : Bool) :
    (SMemory.act F (SMemory.after F (SMemory.new g) (s.map .setGrid ++ h))
        (.interpolate data pts memo)).2
      = (SMemory.act F (SMemory.new (s.getLastD g)) (.interpolate data pts memo)).2 := by
  have e : SMemory.after F (SMemory.new g) (s.map .setGrid ++ h)
      = SMemory.after F (SMemory.new (s.getLastD g)) h := by
    rw [← after_sets F g s]
    simp only [SMemory.after, List.foldl_append]
  rw [e]
  exact (C194_same_grid_partial F (s.getLastD g) h hh data pts memo).1

example : (SMemory.act SHist.F (SMemory.after SHist.F (start 1)
      ([strip 4, strip 2].map .setGrid ++ [.locate [(3, 1 / 2)] true true]))
      (.interpolate ramp [(1 / 2, 1 / 2), (3, 1 / 2)] true)).2
      = .values (.ok [some 1, some 6]) := by
  decide +kernel

/-- And the values are those of the located points (C70 and the properties of structured
interpolation say what these are). -/
theorem C194_values_partial {K : Type} [Field K] [LinearOrder K]
    (search : List (K × K) → List (List Int) → K × K → Int) (sqrt : K → K) (g : Contents K)
    (h : List (SMemory.Op (Contents K) (K × K)
      (Option SIndex.Loc × List (List (SInterp.MV K))))) (hh : ∀ c ∈ h, Usual c)
    (loc : Option SIndex.Loc) (var : List (List (SInterp.MV K))) (pts : List (K × K)) (memo : Bool)
    (cells : List (Option (Int × Int)))
    (hc : SCelltree.locateFaces search g.tree true pts = .ok cells) :
    (SMemory.act (parts search sqrt) (SMemory.after (parts search sqrt) (SMemory.new g) h)
        (.interpolate (loc, var) pts memo)).2
      = .values (SInterp.interpolate sqrt g.interp loc false var (pts.zip cells)) := by
  have h1 := history_kept (parts search sqrt) g h hh
  have hm : ∀ (f : K × K → Except Err (Int × Int)) (l : List (K × K))
      (r : List (Option (Int × Int))), l.mapM (fun p => (f p).map SCelltree.maskMiss) = .ok r →
      ∃ is, DepthM.mapE f l = .ok is ∧ r = is.map SMemory.maskMiss ∧ is.length = l.length := by
    intro f l
    induction l with
    | nil =>
      intro r h
      simp only [List.mapM_nil, pure, Except.pure, Except.ok.injEq] at h
      subst h
      exact ⟨[], rfl, rfl, rfl⟩
    | cons p l ih =>
      intro r h
      simp only [List.mapM_cons, bind, Except.bind, Except.map] at h
      cases hf : f p with
      | error e => rw [hf] at h; cases h
      | ok ij =>
        rw [hf] at h
        dsimp only at h
        cases hr : l.mapM (fun p => (f p).map SCelltree.maskMiss) with
        | error e =>
          simp only [Except.map] at hr
          rw [hr] at h; cases h
        | ok r' =>
          obtain ⟨is, e1, rfl, e3⟩ := ih r' hr
          simp only [Except.map] at hr
          rw [hr] at h
          cases h
          exact ⟨ij :: is, by simp only [DepthM.mapE, hf, e1], rfl, by simp [e3]⟩
  have hcells : SMemory.cellsOf (parts search sqrt) g pts = .ok cells ∧
      pts.length = cells.length := by
    unfold SCelltree.locateFaces at hc
    simp only [SMemory.cellsOf, SMemory.rawOf, parts]
    cases hb : SCelltree.build g.tree true with
    | error e => rw [hb] at hc; cases hc
    | ok t =>
      rw [hb] at hc
      obtain ⟨is, e1, rfl, e3⟩ := hm _ _ _ hc
      simp only [e1]
      exact ⟨trivial, by simp [e3]⟩
  simp only [SMemory.act, (SMemory.interpolate_faithful _ h1 _ pts memo).1, SMemory.valuesOf,
    hcells.1, SMemory.Out.values.injEq]
  have hl := hcells.2
  split
  · rename_i ha
    have : (pts.zip cells).all (fun q => q.2.isNone) = true := by
      rw [List.all_eq_true] at ha ⊢
      intro q hq
      exact ha q.2 (List.of_mem_zip hq).2
    unfold SInterp.interpolate
    rw [if_pos this]
    simp only [Except.ok.injEq]
    have : (pts.zip cells).map (fun q => (none : Option K)) = pts.map fun _ => none := by
      simp only [List.map_const', List.length_zip, ← hl, min_self]
    exact this.symm
  · simp only [SMemory.pair, hl, if_true]
    rfl

example : (∀ c ∈ ([.interpolate ramp [(1 / 2, 1 / 2)] true, .logical [(1 / 2, 1 / 2)] (some [none]) true,
      .locate [(3 / 2, 0)] true true] : List Call), Usual c) ∧
    SCelltree.locateFaces boxSearch (strip 1).tree true [(1 / 2, 1 / 2), (3, 1 / 2)]
      = .ok [some (0, 0), none] ∧
    (SMemory.act SHist.F (SMemory.after SHist.F (start 1)
      [.interpolate ramp [(1 / 2, 1 / 2)] true, .logical [(1 / 2, 1 / 2)] (some [none]) true,
       .locate [(3 / 2, 0)] true true]) (.interpolate ramp [(1 / 2, 1 / 2), (3, 1 / 2)] true)).2
      = .values (.ok [some 2, none]) := by
  refine ⟨?_, by decide +kernel, by decide +kernel⟩
  intro c hc
  simp only [List.mem_cons, List.not_mem_nil, or_false] at hc
  rcases hc with rfl | rfl | rfl <;> constructor

end C194

/-! ## C195 -/

section C195

/-- The full claim: logical coordinates asked for in given cells are those in these cells, whatever
was asked before; the grid does not change. -/
def C195_statement : Prop :=
  ∀ (search : List (ℚ × ℚ) → List (List Int) → ℚ × ℚ → Int) (g : Contents ℚ) (h : List Call)
    (pts : List (ℚ × ℚ)) (cells : List (Option (Int × Int))) (memo : Bool), (∀ c ∈ h, Usual c) →
    (SMemory.act (parts search id) (SMemory.after (parts search id) (SMemory.new g) h)
        (.logical pts (some cells) memo)).2
      = (SMemory.act (parts search id) (SMemory.new g) (.logical pts (some cells) memo)).2

/-- Asked first in the left cell, the point has the coordinates of the left cell ever after. -/
theorem C195_remembered :
    (SMemory.act F (SMemory.after F (start 1) [.logical [(3 / 2, 1 / 4)] (some [some (0, 0)]) true])
      (.logical [(3 / 2, 1 / 4)] (some [some (0, 1)]) true)).2
      = .logicals (.ok [some (3 / 2, 1 / 4)]) ∧
    (SMemory.act F (start 1) (.logical [(3 / 2, 1 / 4)] (some [some (0, 1)]) true)).2
      = .logicals (.ok [some (1 / 2, 5 / 4)]) := by
  constructor <;> decide +kernel

theorem C195_refuted : ¬ C195_statement := by
  intro h
  have h1 := h boxSearch (strip 1) [.logical [(3 / 2, 1 / 4)] (some [some (0, 0)]) true]
    [(3 / 2, 1 / 4)] [some (0, 1)] true (by
      intro c hc
      simp only [List.mem_cons, List.not_mem_nil, or_false] at hc
      subst hc
      constructor)
  have h2 := C195_remembered
  have h3 := h2.1.symm.trans (h1.trans h2.2)
  exact absurd h3 (by decide +kernel)

variable {G T P L D V : Type} [DecidableEq P] (F : Parts G T P L D V)

/-- Without the memory the claim holds. -/
theorem C195_memo_off_partial (g : G) (h : List (SMemory.Op G P D)) (hh : ∀ c ∈ h, Usual c)
    (pts : List P) (inds : Option (List (Option (Int × Int)))) :
    (SMemory.act F (SMemory.after F (SMemory.new g) h) (.logical pts inds false)).2
      = (SMemory.act F (SMemory.new g) (.logical pts inds false)).2 := by
  have h1 := (SMemory.logical_faithful F (history_kept F g h hh) pts inds false).1 (Or.inl rfl)
  have h2 := (SMemory.logical_faithful F (SMemory.faithful_new F g (L := L)) pts inds false).1
    (Or.inl rfl)
  simp only [SMemory.act, h1, h2]

/-- With the memory it holds for points whose coordinates were not asked for with the memory
before. -/
theorem C195_new_points_partial (g : G) (h : List (SMemory.Op G P D)) (hh : ∀ c ∈ h, Usual c)
    (pts : List P) (inds : Option (List (Option (Int × Int)))) (memo : Bool)
    (hn : ∀ is, SMemory.Op.logical pts is true ∉ h) :
    (SMemory.act F (SMemory.after F (SMemory.new g) h) (.logical pts inds memo)).2
      = (SMemory.act F (SMemory.new g) (.logical pts inds memo)).2 := by
  have hk : ∀ p ∈ (SMemory.after F (SMemory.new g : Obj G T P L) h).logicals, p.1 ≠ pts := by
    clear inds memo
    induction h using List.reverseRecOn with
    | nil => intro p hp; simp [SMemory.after, SMemory.new] at hp
    | append_singleton h c ih =>
      have hh' : ∀ c ∈ h, Usual c := fun c' hc' => hh c' (by simp [hc'])
      have ih := ih hh' (fun is hi => hn is (by simp [hi]))
      have hf := history_kept F g h hh'
      intro p hp
      simp only [SMemory.after, List.foldl_append, List.foldl_cons, List.foldl_nil] at hp
      have hc := hh c (by simp)
      cases hc with
      | locate pts' memo =>
        exact ih p (Eq.mp (congrArg (p ∈ ·) (SMemory.locate_faithful F hf pts' memo).2.2) hp)
      | locateOne p' memo =>
        exact ih p (Eq.mp (congrArg (p ∈ ·) (SMemory.locateOne_faithful F hf p' memo).2) hp)
      | logical pts' inds' memo =>
        rcases (SMemory.logical_faithful F hf pts' inds' memo).2.2 p hp with h1 | ⟨h1, h2, -⟩
        · exact ih p h1
        · intro he
          rw [he] at h2
          subst h1 h2
          exact hn inds' (by simp)
      | interpolate data pts' memo =>
        exact ih p (Eq.mp (congrArg (p ∈ ·) (SMemory.interpolate_faithful F hf data pts' memo).2.2) hp)
  have hl : Cache.lookup (SMemory.after F (SMemory.new g : Obj G T P L) h).logicals pts = none := by
    cases hl : Cache.lookup (SMemory.after F (SMemory.new g : Obj G T P L) h).logicals pts with
    | none => rfl
    | some r => exact absurd rfl (hk _ (Cache.lookup_mem hl))
  have h1 := (SMemory.logical_faithful F (history_kept F g h hh) pts inds memo).1 (Or.inr hl)
  have h2 := (SMemory.logical_faithful F (SMemory.faithful_new F g (L := L)) pts inds memo).1
    (Or.inr rfl)
  simp only [SMemory.act, h1, h2]

/-- While no cells are given together with the memory, coordinates in the cells the grid finds are
those of a new grid, with the memory as well. -/
theorem C195_own_cells_partial (g : G) (h : List (SMemory.Op G P D)) (hh : ∀ c ∈ h, Usual c)
    (hn : ∀ pts is, SMemory.Op.logical pts (some is) true ∉ h) (pts : List P) (memo : Bool) :
    (SMemory.act F (SMemory.after F (SMemory.new g) h) (.logical pts none memo)).2
      = (SMemory.act F (SMemory.new g) (.logical pts none memo)).2 := by
  have hk : ∀ p ∈ (SMemory.after F (SMemory.new g : Obj G T P L) h).logicals,
      SMemory.logicalsOf F g p.1 = .ok p.2 := by
    clear pts memo
    induction h using List.reverseRecOn with
    | nil => intro p hp; simp [SMemory.after, SMemory.new] at hp
    | append_singleton h c ih =>
      have hh' : ∀ c ∈ h, Usual c := fun c' hc' => hh c' (by simp [hc'])
      have ih := ih hh' (fun pts is hi => hn pts is (by simp [hi]))
      have hf := history_kept F g h hh'
      intro p hp
      simp only [SMemory.after, List.foldl_append, List.foldl_cons, List.foldl_nil] at hp
      have hc := hh c (by simp)
      cases hc with
      | locate pts' memo =>
        exact ih p (Eq.mp (congrArg (p ∈ ·) (SMemory.locate_faithful F hf pts' memo).2.2) hp)
      | locateOne p' memo =>
        exact ih p (Eq.mp (congrArg (p ∈ ·) (SMemory.locateOne_faithful F hf p' memo).2) hp)
      | logical pts' inds' memo =>
        rcases (SMemory.logical_faithful F hf pts' inds' memo).2.2 p hp with h1 | ⟨h1, h2, h3⟩
        · exact ih p h1
        · subst h1 h2
          cases inds' with
          | none => exact h3
          | some is => exact absurd (by simp) (hn p.1 is)
      | interpolate data pts' memo =>
        exact ih p (Eq.mp (congrArg (p ∈ ·) (SMemory.interpolate_faithful F hf data pts' memo).2.2) hp)
  have h2 := (SMemory.logical_faithful F (SMemory.faithful_new F g (L := L)) pts none memo).1
    (Or.inr rfl)
  have hf := history_kept F g h hh (L := L)
  simp only [SMemory.act, h2, SMemory.Out.logicals.injEq]
  by_cases hm : memo = false ∨
      Cache.lookup (SMemory.after F (SMemory.new g : Obj G T P L) h).logicals pts = none
  · exact (SMemory.logical_faithful F hf pts none memo).1 hm
  · rw [not_or] at hm
    obtain ⟨hm1, hm2⟩ := hm
    cases hl : Cache.lookup (SMemory.after F (SMemory.new g : Obj G T P L) h).logicals pts with
    | none => exact absurd hl hm2
    | some r =>
      have hm1 : memo = true := by simpa using hm1
      subst hm1
      have := hk _ (Cache.lookup_mem hl)
      simp only [SMemory.geoToLogical, if_true, hl]
      exact this.symm

example : (SMemory.act SHist.F (SMemory.after SHist.F (start 1)
      [.logical [(1 / 2, 1 / 2)] none true, .logical [(3 / 2, 1 / 2)] (some [some (0, 0)]) false])
      (.logical [(3 / 2, 1 / 4)] (some [some (0, 1)]) true)).2
      = .logicals (.ok [some (1 / 2, 5 / 4)]) ∧
    Cache.lookup (SMemory.after SHist.F (start 1)
      [.logical [(1 / 2, 1 / 2)] none true, .logical [(3 / 2, 1 / 2)] (some [some (0, 0)]) false]
      ).logicals [(1 / 2, 1 / 2)] = some [some (1 / 2, 1 / 2)] := by
  constructor <;> decide +kernel

end C195

/-! ## C196 -/

section C196

/-- The full claim: located by itself, a point gives one pair of indices. -/
def C196_statement : Prop :=
  ∀ (search : List (ℚ × ℚ) → List (List Int) → ℚ × ℚ → Int) (g : Contents ℚ) (h : List Call)
    (p : ℚ × ℚ) (memo : Bool) (a : SMemory.Answer), (∀ c ∈ h, Usual c) →
    (SMemory.act (parts search id) (SMemory.after (parts search id) (SMemory.new g) h)
        (.locateOne p memo true)).2 = .single (.ok a) → ∃ ij, a = .one ij

/-- An array located before under the same key is handed out instead; off the grid it holds a masked
entry where the pair would be `-1, -1`. -/
theorem C196_array :
    (SMemory.act F (SMemory.after F (start 1) [.locate [(5, 5)] true true])
      (.locateOne (5, 5) true true)).2 = .single (.ok (.many [none])) ∧
    (SMemory.act F (start 1) (.locateOne (5, 5) true true)).2
      = .single (.ok (.one (-1, -1))) := by
  constructor <;> decide +kernel

theorem C196_refuted : ¬ C196_statement := by
  intro h
  obtain ⟨ij, h1⟩ := h boxSearch (strip 1) [.locate [(5, 5)] true true] (5, 5) true _ (by
      intro c hc
      simp only [List.mem_cons, List.not_mem_nil, or_false] at hc
      subst hc
      constructor) C196_array.1
  cases h1

variable {G T P L D V : Type} [DecidableEq P] (F : Parts G T P L D V)

/-- Without the memory the answer is always the pair a new grid gives. -/
theorem C196_memo_off_partial (g : G) (h : List (SMemory.Op G P D)) (hh : ∀ c ∈ h, Usual c) (p : P)
    (a : SMemory.Answer)
    (ha : (SMemory.act F (SMemory.after F (SMemory.new g) h) (.locateOne p false true)).2
      = .single (.ok a)) :
    ∃ ij, a = .one ij ∧
      (SMemory.act F (SMemory.new g) (.locateOne p false true)).2 = .single (.ok (.one ij)) := by
  have h1 := (SMemory.locateOne_off F (history_kept F g h hh) p).1
  have h2 := (SMemory.locateOne_off F (SMemory.faithful_new F g (L := L)) p).1
  simp only [SMemory.act, h1, h2, SMemory.Out.single.injEq] at ha ⊢
  cases hr : SMemory.rawOf F g [p] with
  | error e => rw [hr] at ha; cases ha
  | ok is =>
    obtain ⟨ij, rfl⟩ := SMemory.one_raw F g p is hr
    rw [hr] at ha
    cases ha
    exact ⟨ij, rfl, rfl⟩

/-- The first time a grid is asked, the pair is the one found by a tree of its faces, without the
masked ones exactly if the mask is to be used. -/
theorem C196_first_partial (g : G) (p : P) (memo useMask : Bool) (t : T) (ij : Int × Int)
    (ht : F.build g useMask = .ok t) (hf : F.find t g p = .ok ij) :
    (SMemory.act F (SMemory.new g : Obj G T P L) (.locateOne p memo useMask)).2
      = .single (.ok (.one ij)) := by
  cases memo <;>
    simp [SMemory.act, SMemory.locateOne, SMemory.new, SMemory.search, SMemory.treeOf, Cache.lookup,
      ht, DepthM.mapE, hf]

/-- A grid whose last node is masked: the second cell is found only without the mask. -/
example :
    let g : Contents ℚ := { strip 1 with tree :=
      { (strip 1).tree with coordMask := [false, false, false, false, false, true],
                            maskedCoords := true } }
    (SMemory.act SHist.F (SMemory.new g) (.locateOne (3 / 2, 1 / 2) true false)).2
      = .single (.ok (.one (0, 1))) ∧
    (SMemory.act SHist.F (SMemory.new g) (.locateOne (3 / 2, 1 / 2) true true)).2
      = .single (.ok (.one (-1, -1))) := by
  constructor <;> decide +kernel

/-- With the memory the answer is that pair, or an array of that one pair, masked if off the grid. -/
theorem C196_same_cell_partial (g : G) (h : List (SMemory.Op G P D)) (hh : ∀ c ∈ h, Usual c) (p : P)
    (memo : Bool) (a : SMemory.Answer)
    (ha : (SMemory.act F (SMemory.after F (SMemory.new g) h) (.locateOne p memo true)).2
      = .single (.ok a)) :
    ∃ ij, (SMemory.act F (SMemory.new g) (.locateOne p false true)).2 = .single (.ok (.one ij)) ∧
      (a = .one ij ∨ a = .many [if ij.1 < 0 ∨ ij.2 < 0 then none else some ij]) := by
  have hf := history_kept F g h hh (L := L)
  cases hL : (if memo then Cache.lookup (SMemory.after F (SMemory.new g : Obj G T P L) h).cells [p]
      else none) with
  | some r =>
    cases memo with
    | false => simp at hL
    | true =>
      simp only [if_true] at hL
      have hc := hf.cells _ (Cache.lookup_mem hL)
      have h2 := (SMemory.locateOne_off F (SMemory.faithful_new F g (L := L)) p).1
      simp only [SMemory.act, SMemory.locateOne, if_true, hL, SMemory.Out.single.injEq,
        Except.ok.injEq] at ha
      subst ha
      simp only [SMemory.cellsOf] at hc
      simp only [SMemory.act, h2, SMemory.Out.single.injEq]
      cases hr : SMemory.rawOf F g [p] with
      | error e => rw [hr] at hc; cases hc
      | ok is =>
        obtain ⟨ij, rfl⟩ := SMemory.one_raw F g p is hr
        rw [hr] at hc
        cases hc
        exact ⟨ij, rfl, Or.inr rfl⟩
  | none =>
    have ha' : (SMemory.act F (SMemory.after F (SMemory.new g : Obj G T P L) h)
        (.locateOne p false true)).2 = .single (.ok a) := by
      rw [← ha]
      simp only [SMemory.act, SMemory.locateOne, hL, Bool.false_eq_true, if_false]
    obtain ⟨ij, h1, h2⟩ := C196_memo_off_partial F g h hh p a ha'
    exact ⟨ij, h2, Or.inl h1⟩

example : (SMemory.act SHist.F (SMemory.after SHist.F (start 1)
      [.locate [(1 / 2, 1 / 2)] true true, .interpolate ramp [(3 / 2, 1 / 2)] true])
      (.locateOne (3 / 2, 1 / 2) false true)).2 = .single (.ok (.one (0, 1))) := by
  decide +kernel

end C196

end Verif
