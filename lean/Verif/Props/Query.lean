import Verif.Model.Query
import Verif.Props.Evaluate

/-!
# C200–C202: the units and the boundary conditions of a query
-/

set_option autoImplicit false

namespace Verif
open Verif.At Verif.DepthM Verif.Spec Verif.EvalSpec
open Verif.Evaluate (Variable Lead Rest DepthObj)
open Verif.Query

namespace QuerySpec

/-- Every number of an answer converted. -/
def converted (f : ℚ → ℚ) (out : List (Cell ℚ)) : List (Cell ℚ) :=
  out.map fun c => { c with value := c.value.map f }

/-- A named option is among the arguments. -/
def Given (kw : Kw) (name : String) (x : Option String) : Prop := kw.lookup name = some x

/-- A named option is not among the arguments. -/
def Absent (kw : Kw) (name : String) : Prop := kw.lookup name = none

/-- Levels from the bottom up, at depths 20, 10 and 0; a point is its depth. -/
def fromBottom (kw : Kw) : DepthO ℚ ℚ where
  conds := levelConds kw
  sys := levelSys id [20, 10, 0]

/-- One value for each of these levels, at a single time. -/
def column (d : Option (DepthO ℚ ℚ)) (kw : Kw) : QVar ℚ ℚ ℚ where
  base := { structured := false, time := none, depth := .surface 0, data := .one [2, 3, 5],
            horiz := [4], order := some ["depth", "ele"] }
  depth := d
  conds := variableConds kw
  units := some "m"

end QuerySpec

open QuerySpec

/-! ## C200: units -/

section C200

/-- The full claim: an answer asked for in other units is the answer in the units of the variable,
converted. `factor u w` is how many `w` make one `u`. -/
def C200_statement : Prop :=
  ∀ (factor : String → String → ℚ) (v : QVar ℚ ℚ ℚ) (u w : String) (pts : List ℚ) (t : Int)
    (out : List (Cell ℚ)), v.units = some u →
    v.at same 1000 pts t none false [] = .ok out →
    v.at same 1000 pts t (some w) false [] = .ok (converted (fun x => x * factor u w) out)

variable {K P σ : Type} [Field K] [DecidableEq K]

/-- The units asked for make no difference, to a variable or to the components of a vector. -/
theorem C200_ignored (xy : Rest σ → List P → Except Err (List (Cell K))) (limit : Nat)
    (pts : List P) (t : Int) (u w : Option String) (e : Bool) (kw : Kw) :
    (∀ v : QVar K P σ, v.at xy limit pts t u e kw = v.at xy limit pts t w e kw) ∧
    ∀ vs : List (QVar K P σ),
      vectorAt vs xy limit pts t u e kw = vectorAt vs xy limit pts t w e kw :=
  ⟨fun _ => rfl, fun _ => rfl⟩

/-- Nor do the units of the variable itself: they describe the numbers of the data and are not
applied to them. -/
theorem C200_own_units (v : QVar K P σ) (unit : Option String)
    (xy : Rest σ → List P → Except Err (List (Cell K))) (limit : Nat) (pts : List P) (t : Int)
    (u : Option String) (e : Bool) (kw : Kw) :
    QVar.at { v with units := unit } xy limit pts t u e kw = v.at xy limit pts t u e kw := rfl

theorem C200_refuted : ¬ C200_statement := by
  intro h
  have h1 := h (fun u w => if u = "m" ∧ w = "cm" then 100 else 1)
    (column (some (fromBottom [])) []) "m" "cm" [15] 0 [⟨some (5 / 2), false⟩] rfl
    (by decide +kernel)
  exact absurd h1 (by decide +kernel)

/-- Missing: units other than those of the variable. Asked in its own units, the answer is the
answer in them. -/
theorem C200_own_partial (factor : String → String → ℚ) (hf : ∀ u, factor u u = 1)
    (v : QVar ℚ ℚ ℚ) (u : String) (xy : Rest ℚ → List ℚ → Except Err (List (Cell ℚ))) (limit : Nat)
    (pts : List ℚ) (t : Int) (e : Bool) (kw : Kw) (out : List (Cell ℚ))
    (h : v.at xy limit pts t none e kw = .ok out) :
    v.at xy limit pts t (some u) e kw = .ok (converted (fun x => x * factor u u) out) := by
  have : converted (fun x => x * factor u u) out = out := by
    simp only [converted, hf, mul_one]
    rw [List.map_congr_left (g := id) (fun c _ => by cases c; simp), List.map_id]
  rw [this]
  exact h

example : (column (some (fromBottom [])) []).at same 1000 [15] 0 (some "m") false []
    = .ok [⟨some (5 / 2), false⟩] := by decide +kernel

end C200

/-! ## C201: conditions given to a depth object -/

section C201

variable {K P : Type}

/-- The full claim: the conditions a depth object was made with are those of every query that names
none. Level depths here; `C201_sigma` has the other systems. -/
def C201_statement : Prop :=
  ∀ (sys : BC → BC → DepthSys ℚ ℚ) (kw : Kw) (s b : String),
    Given kw "surface_boundary_condition" (some s) → Given kw "bottom_boundary_condition" (some b) →
    DepthO.under ⟨levelConds kw, sys⟩ none none = DepthO.under ⟨levelConds kw, sys⟩ (some s) (some b)

/-- Sigma depths use the conditions they were made with. -/
theorem C201_sigma (sys : BC → BC → DepthSys K P) (kw : Kw) (s b : String)
    (hs : Given kw "surface_boundary_condition" (some s))
    (hb : Given kw "bottom_boundary_condition" (some b)) :
    DepthO.under ⟨sigmaConds kw, sys⟩ none none = sys (bc (some s)) (bc (some b)) := by
  simp only [Given] at hs hb
  simp only [DepthO.under, sigmaConds, Kw.get, hs, hb]

/-- A condition named by the query is used whatever the object was made with. -/
theorem C201_named (d : DepthO K P) (s b : String) :
    d.under (some s) (some b) = d.sys (bc (some s)) (bc (some b)) := rfl

/-- Made without them, sigma depths extrapolate above the surface and mask below the bottom. -/
theorem C201_sigma_default (sys : BC → BC → DepthSys K P) (kw : Kw)
    (hs : Absent kw "surface_boundary_condition") (hb : Absent kw "bottom_boundary_condition") :
    DepthO.under ⟨sigmaConds kw, sys⟩ none none = sys .extrapolate .mask := by
  simp only [Absent] at hs hb
  simp only [DepthO.under, sigmaConds, Kw.get, hs, hb]
  rfl

private theorem bc_mask {s : String} : bc (some s) = .mask ↔ s = "mask" := by
  unfold bc
  split <;> simp_all

private theorem bc_extrapolate {s : String} : bc (some s) = .extrapolate ↔ s = "extrapolate" := by
  unfold bc
  split <;> simp_all

section
variable [Field K] [LinearOrder K]

private theorem levelEnds_congr {s s' b b' : BC} (h1 : s = .mask ↔ s' = .mask)
    (h2 : b = .mask ↔ b' = .mask) (n : Nat) (asc : Bool) (i : Int) :
    (levelEnds n asc s b i : Entry K) = levelEnds n asc s' b' i := by
  simp only [levelEnds, h1, h2]

/-- Texts other than the two documented ones: a level depth extrapolates unless the text is `mask`.
-/
theorem C201_levels_text (z : P → K) (levels : List K) (d : DepthO K P)
    (hd : d.sys = levelSys z levels) (s b : String) (pts : List P) :
    (d.under (some s) (some b)).alphas pts
      = (d.under (some (if s = "mask" then "mask" else "extrapolate"))
          (some (if b = "mask" then "mask" else "extrapolate"))).alphas pts := by
  have key : ∀ x : String, bc (some x) = .mask ↔
      bc (some (if x = "mask" then "mask" else "extrapolate")) = .mask := by
    intro x
    by_cases h : x = "mask" <;> simp [h, bc_mask]
  simp only [C201_named, hd, levelSys, levelAlphas,
    levelEnds_congr (K := K) (key s) (key b)]

/-- A sigma depth, its surface listed first or its bottom, masks unless the text is `extrapolate`. -/
theorem C201_sigma_text (d : DepthO K P) (numLevels numLayers shape0 : Nat) (surf bot : Int)
    (hends : (surf = 0 ∧ 0 ≤ bot) ∨ (bot = 0 ∧ 0 ≤ surf)) (z : P → K) (profiles : List P → List (List K)) (colMask : List P → List Bool)
    (hd : ∀ x y, (d.sys x y).alphas = fun pts => sigmaAlphas (fun r => r) surf bot numLevels
      numLayers shape0 x y (pts.map z) (profiles pts) (colMask pts))
    (s b : String) (pts : List P) :
    (d.under (some s) (some b)).alphas pts
      = (d.under (some (if s = "extrapolate" then "extrapolate" else "mask"))
          (some (if b = "extrapolate" then "extrapolate" else "mask"))).alphas pts := by
  have key : ∀ x y (e : Entry K), applyBC surf bot (bc (some x)) (bc (some y)) e
      = applyBC surf bot (bc (some (if x = "extrapolate" then "extrapolate" else "mask")))
          (bc (some (if y = "extrapolate" then "extrapolate" else "mask"))) e := by
    intro x y e
    by_cases c1 : x = "extrapolate" <;> by_cases c2 : y = "extrapolate" <;>
      simp only [applyBC, bc_mask, bc_extrapolate, c1, c2, if_true, if_false]
    all_goals by_cases c3 : x = "mask" <;> by_cases c4 : y = "mask" <;>
      simp_all <;> grind
  simp only [C201_named, hd, sigmaAlphas, key s b]

end

/-- Level depths do not look at these options: every object made without the options of its base
class extrapolates above the surface and masks below the bottom. -/
theorem C201_ignored (sys : BC → BC → DepthSys K P) (kw : Kw)
    (hs : Absent kw "default_surface_boundary_condition")
    (hb : Absent kw "default_bottom_boundary_conditon") :
    DepthO.under ⟨levelConds kw, sys⟩ none none = sys .extrapolate .mask := by
  simp only [Absent] at hs hb
  simp only [DepthO.under, levelConds, baseConds, Kw.get, hs, hb]
  rfl

theorem C201_refuted : ¬ C201_statement := by
  intro h
  have h1 := h (levelSys id [20, 10, 0])
    [("surface_boundary_condition", some "mask"), ("bottom_boundary_condition", some "extrapolate")]
    "mask" "extrapolate" rfl rfl
  have h2 := congrArg (fun d => d.alphas [-5, 25]) h1
  exact absurd h2 (by decide +kernel)

/-- Missing: the documented names. Level depths use the options of their base class, one of which is
misspelt. -/
theorem C201_levels_partial (sys : BC → BC → DepthSys K P) (kw : Kw) (s b : String)
    (hs : Given kw "default_surface_boundary_condition" (some s))
    (hb : Given kw "default_bottom_boundary_conditon" (some b)) :
    DepthO.under ⟨levelConds kw, sys⟩ none none = sys (bc (some s)) (bc (some b)) := by
  simp only [Given] at hs hb
  simp only [DepthO.under, levelConds, baseConds, Kw.get, hs, hb]

/-- The two objects differ: above the surface and below the bottom. -/
example :
    ((fromBottom [("surface_boundary_condition", some "mask")]).under none none).alphas [-5, 25]
      = .ok [⟨2, some 0, false⟩, ⟨-1, some 1, true⟩] ∧
    ((fromBottom [("default_surface_boundary_condition", some "mask"),
        ("default_bottom_boundary_conditon", some "extrapolate")]).under none none).alphas [-5, 25]
      = .ok [⟨2, some 0, true⟩, ⟨-1, some 1, false⟩] := by
  refine ⟨?_, ?_⟩ <;> decide +kernel

/-- An unknown text: extrapolated from levels, masked over sigma levels. -/
example :
    ((fromBottom []).under (some "nearest") (some "nearest")).alphas [-5, 25]
      = .ok [⟨2, some 0, false⟩, ⟨-1, some 1, false⟩] ∧
    (DepthO.under (P := ℚ) ⟨sigmaConds [], fun x y => ⟨2, fun pts => sigmaAlphas (fun r => r) 2 0 3 2 3
        x y pts (pts.map fun _ => [20, 10, 0]) (pts.map fun _ => false)⟩⟩
        (some "nearest") (some "nearest")).alphas [-5, 25]
      = .ok [⟨2, some 0, true⟩, ⟨-1, some 1, true⟩] := by
  refine ⟨?_, ?_⟩ <;> decide +kernel

end C201

/-! ## C202: conditions of a variable -/

section C202

/-- The full claim: a query that names no conditions, to a variable made without conditions, has
those of the depth object of the variable. -/
def C202_statement : Prop :=
  ∀ (v : QVar ℚ ℚ ℚ) (d : DepthO ℚ ℚ) (vkw : Kw) (s b : String) (pts : List ℚ) (t : Int),
    v.depth = some d → v.conds = variableConds vkw →
    Absent vkw "surface_boundary_condition" → Absent vkw "bottom_boundary_condition" →
    d.conds = ⟨some s, some b⟩ →
    v.at same 1000 pts t none false [] = v.at same 1000 pts t none false
      [("surface_boundary_condition", some s), ("bottom_boundary_condition", some b)]

variable {K P σ : Type} [Field K] [DecidableEq K]

/-- What a query names is used, whatever the variable and its depth were made with. -/
theorem C202_named (v : QVar K P σ) (d : DepthO K P) (hd : v.depth = some d) (kw : Kw)
    (s b : String) (hs : Given kw "surface_boundary_condition" (some s))
    (hb : Given kw "bottom_boundary_condition" (some b))
    (xy : Rest σ → List P → Except Err (List (Cell K))) (limit : Nat) (pts : List P) (t : Int)
    (u : Option String) (e : Bool) :
    v.at xy limit pts t u e kw
      = Evaluate.at' { v.base with depth := .sys (d.sys (bc (some s)) (bc (some b))) }
          xy limit pts t e := by
  simp only [Given] at hs hb
  simp only [QVar.at, QVar.depthFor, hd, Kw.get, hs, hb, DepthO.under]

/-- What a query does not name is taken from the variable. -/
theorem C202_variable (v : QVar K P σ) (vkw : Kw) (hv : v.conds = variableConds vkw)
    (s b : String) (hs : Given vkw "surface_boundary_condition" (some s))
    (hb : Given vkw "bottom_boundary_condition" (some b)) (kw : Kw)
    (hks : Absent kw "surface_boundary_condition") (hkb : Absent kw "bottom_boundary_condition")
    (xy : Rest σ → List P → Except Err (List (Cell K))) (limit : Nat) (pts : List P) (t : Int)
    (u : Option String) (e : Bool) :
    v.at xy limit pts t u e kw = v.at xy limit pts t u e
      [("surface_boundary_condition", some s), ("bottom_boundary_condition", some b)] := by
  simp only [Given, Absent] at hs hb hks hkb
  have h1 : variableConds vkw = ⟨some s, some b⟩ := by
    simp only [variableConds, Kw.get, hs, hb]
  have : v.depthFor kw = v.depthFor
      [("surface_boundary_condition", some s), ("bottom_boundary_condition", some b)] := by
    simp only [QVar.depthFor, hv, h1, Kw.get, hks, hkb]
    rfl
  simp only [QVar.at, this]

/-- A vector has one column for each component, asked with all the options of the query. -/
theorem C202_vector (vs : List (QVar K P σ)) (xy : Rest σ → List P → Except Err (List (Cell K)))
    (limit : Nat) (pts : List P) (t : Int) (u : Option String) (e : Bool) (kw : Kw)
    (cols : List (List (Cell K))) :
    vectorAt vs xy limit pts t u e kw = .ok cols ↔
      List.Forall₂ (fun v c => v.at xy limit pts t u e kw = .ok c) vs cols := by
  unfold vectorAt
  induction vs generalizing cols with
  | nil => cases cols <;> simp [mapE]
  | cons v vs ih =>
    simp only [mapE]
    cases h1 : v.at xy limit pts t u e kw with
    | error x => cases cols <;> simp [h1]
    | ok c =>
      cases h2 : mapE (fun v => v.at xy limit pts t u e kw) vs with
      | error x =>
        cases cols with
        | nil => simp
        | cons d ds =>
          simp only [List.forall₂_cons, h1, ← ih, h2]
          simp
      | ok cs =>
        cases cols with
        | nil => simp
        | cons d ds =>
          simp only [List.forall₂_cons, h1, ← ih, h2]
          simp

/-- A variable made without conditions never uses those of its depth object: points above the
surface are extrapolated and points below the bottom masked, whatever the object was made with, and
whatever the documentation of `at` says of the bottom. -/
theorem C202_depth_unused (v : QVar K P σ) (d : DepthO K P) (hd : v.depth = some d)
    (vkw : Kw) (hv : v.conds = variableConds vkw) (hs : Absent vkw "surface_boundary_condition")
    (hb : Absent vkw "bottom_boundary_condition") (kw : Kw)
    (hks : Absent kw "surface_boundary_condition") (hkb : Absent kw "bottom_boundary_condition")
    (xy : Rest σ → List P → Except Err (List (Cell K))) (limit : Nat) (pts : List P) (t : Int)
    (u : Option String) (e : Bool) :
    v.at xy limit pts t u e kw
      = Evaluate.at' { v.base with depth := .sys (d.sys .extrapolate .mask) } xy limit pts t e := by
  simp only [Absent] at hs hb hks hkb
  have h1 : variableConds vkw = ⟨some "extrapolate", some "mask"⟩ := by
    simp only [variableConds, Kw.get, hs, hb]
  have : v.depthFor kw = .sys (d.sys .extrapolate .mask) := by
    simp only [QVar.depthFor, hd, hv, h1, Kw.get, hks, hkb, DepthO.under]
    rfl
  simp only [QVar.at, this]

theorem C202_refuted : ¬ C202_statement := by
  intro h
  have h1 := h (column (some (fromBottom [("default_bottom_boundary_conditon", some "extrapolate")]))
    []) _ [] "extrapolate" "extrapolate" [15, 25] 0 rfl rfl rfl rfl rfl
  exact absurd h1 (by decide +kernel)

/-- Missing: variables made without conditions. Made with `None` for both, a variable has the
conditions of its depth object, and so has a query that names `None`. -/
theorem C202_none_partial (v : QVar K P σ) (d : DepthO K P) (hd : v.depth = some d)
    (s b : String) (hc : d.conds = ⟨some s, some b⟩) (kw : Kw)
    (h : (v.conds = ⟨none, none⟩ ∧ Absent kw "surface_boundary_condition" ∧
        Absent kw "bottom_boundary_condition") ∨
      (Given kw "surface_boundary_condition" none ∧ Given kw "bottom_boundary_condition" none))
    (xy : Rest σ → List P → Except Err (List (Cell K))) (limit : Nat) (pts : List P) (t : Int)
    (u : Option String) (e : Bool) :
    v.at xy limit pts t u e kw = v.at xy limit pts t u e
      [("surface_boundary_condition", some s), ("bottom_boundary_condition", some b)] := by
  have : v.depthFor kw = v.depthFor
      [("surface_boundary_condition", some s), ("bottom_boundary_condition", some b)] := by
    rcases h with ⟨h, hs, hb⟩ | ⟨hs, hb⟩ <;> simp only [Given, Absent] at hs hb
    · simp only [QVar.depthFor, hd, h, Kw.get, hs, hb, DepthO.under, hc]
      rfl
    · simp only [QVar.depthFor, hd, Kw.get, hs, hb, DepthO.under, hc]
      rfl
  simp only [QVar.at, this]

/-- Above the surface, within, below the bottom: as made by default, and with `None`. -/
example :
    let d := some (fromBottom [("default_surface_boundary_condition", some "mask"),
      ("default_bottom_boundary_conditon", some "extrapolate")])
    (column d []).at same 1000 [15, 25] 0 none false []
      = .ok [⟨some (5 / 2), false⟩, ⟨none, true⟩] ∧
    (column d [("surface_boundary_condition", none), ("bottom_boundary_condition", none)]).at same
      1000 [15, 25] 0 none false [] = .ok [⟨some (5 / 2), false⟩, ⟨some 2, false⟩] ∧
    (column d []).at same 1000 [15, 25] 0 none false
      [("surface_boundary_condition", none), ("bottom_boundary_condition", none)]
      = .ok [⟨some (5 / 2), false⟩, ⟨some 2, false⟩] := by
  refine ⟨?_, ?_, ?_⟩ <;> decide +kernel

end C202

end Verif
