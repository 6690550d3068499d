import Verif.Model.SaveDisk
import Mathlib.Algebra.Order.Field.Rat

/-!
# C216, C217: a save that fails leaves the files as they were, and one that does not writes the data
-/

set_option autoImplicit false

namespace Verif
open SaveDisk

/-- C216 as stated: after a save the file is complete, or the save has failed and nothing is changed. -/
def C216_statement : Prop :=
  ∀ (used : List String) (grid : AnyGrid ℚ) (ds : DatasetCopy.DS ℚ) (format path : String) (d : Disk ℚ),
    (∃ nc vars, SaveDisk.save used grid ds format path d = (.ok (), put d path (.mesh nc vars))) ∨
    (∃ e, SaveDisk.save used grid ds format path d = (.error e, d))

variable {K : Type}

theorem put_put (d : Disk K) (path : String) (c c' : Content K) : put (put d path c) path c' = put d path c' := by
  funext q
  unfold put
  split <;> rfl

/-- C216 for unstructured grids that can be written: all representative points there, and all variables
accepted. The new file has the grid and the variables; and for formats that are not known, where nothing
is changed. Missing: every failure after the file has been opened, see `C216_lost`. -/
theorem C216_partial (used : List String) (grid : AnyGrid K) (ds : DatasetCopy.DS K)
    (format path : String) (d : Disk K) :
    (format ≠ "netcdf3" → format ≠ "netcdf4" →
      SaveDisk.save used grid ds format path d = (.error .valueError, d)) ∧
    ∀ mesh g nc out, grid = .unstructured mesh g → UIO.save g = .ok nc →
      DatasetCopy.save mesh g used ds = .ok out → format = "netcdf3" ∨ format = "netcdf4" →
      SaveDisk.save used grid ds format path d = (.ok (), put d path (.mesh nc out.vars)) := by
  constructor
  · intro h3 h4
    unfold SaveDisk.save
    rw [if_pos ⟨h3, h4⟩]
  · rintro mesh g nc out rfl hg hv hf
    unfold SaveDisk.save
    rw [if_neg (by rcases hf with rfl | rfl <;> decide)]
    simp only [hg, hv, put_put]

/-- C216, what happens instead: every save that fails with a known format has replaced the file that was
there by an unfinished one. -/
theorem C216_lost (used : List String) (grid : AnyGrid K) (ds : DatasetCopy.DS K) (format path : String)
    (d d' : Disk K) (e : Err) (hf : format = "netcdf3" ∨ format = "netcdf4")
    (h : SaveDisk.save used grid ds format path d = (.error e, d')) : d' path = some .unfinished := by
  unfold SaveDisk.save at h
  rw [if_neg (by rcases hf with rfl | rfl <;> decide)] at h
  cases grid with
  | unstructured mesh g =>
    simp only at h
    cases hg : UIO.save g with
    | error e' =>
      simp only [hg] at h
      cases h
      simp [put]
    | ok nc =>
      simp only [hg] at h
      cases hv : DatasetCopy.save mesh g used ds with
      | error e' =>
        simp only [hv] at h
        cases h
        simp [put]
      | ok out =>
        simp only [hv] at h
        cases h
  | structured =>
    simp only at h
    cases h
    simp [put]
  | rectangular =>
    simp only at h
    cases h
    simp [put]

/-- C216, what happens instead: a dataset on a structured or rectangular grid cannot be saved at all, and
trying to empties the file. -/
theorem C216_structured (used : List String) (grid : AnyGrid K) (ds : DatasetCopy.DS K)
    (format path : String) (d : Disk K) (hg : grid = .structured ∨ grid = .rectangular)
    (hf : format = "netcdf3" ∨ format = "netcdf4") :
    SaveDisk.save used grid ds format path d = (.error .attributeError, put d path .unfinished) := by
  unfold SaveDisk.save
  rw [if_neg (by rcases hf with rfl | rfl <;> decide)]
  rcases hg with rfl | rfl <;> rfl

/-- C216: a save that does not raise has written the whole grid and all variables. -/
theorem C216_complete (used : List String) (grid : AnyGrid K) (ds : DatasetCopy.DS K)
    (format path : String) (d d' : Disk K)
    (h : SaveDisk.save used grid ds format path d = (.ok (), d')) :
    ∃ mesh g nc out, grid = .unstructured mesh g ∧ UIO.save g = .ok nc ∧
      DatasetCopy.save mesh g used ds = .ok out ∧ d' = put d path (.mesh nc out.vars) := by
  unfold SaveDisk.save at h
  split at h
  · cases h
  · cases grid with
    | unstructured mesh g =>
      simp only at h
      cases hg : UIO.save g with
      | error e' =>
        simp only [hg] at h
        cases h
      | ok nc =>
        simp only [hg] at h
        cases hv : DatasetCopy.save mesh g used ds with
        | error e' =>
          simp only [hv] at h
          cases h
        | ok out =>
          simp only [hv, put_put] at h
          cases h
          exact ⟨mesh, g, nc, out, rfl, hg, hv, rfl⟩
    | structured => cases h
    | rectangular => cases h

/-- C216: no other file is ever changed. -/
theorem C216_others (used : List String) (grid : AnyGrid K) (ds : DatasetCopy.DS K)
    (format path : String) (d : Disk K) (q : String) (hq : q ≠ path) :
    (SaveDisk.save used grid ds format path d).2 q = d q := by
  have hp : ∀ (d : Disk K) c, put d path c q = d q := fun d c => if_neg hq
  unfold SaveDisk.save
  split
  · rfl
  · cases grid with
    | unstructured mesh g =>
      simp only
      cases UIO.save g with
      | error e => exact hp _ _
      | ok nc =>
        simp only
        cases DatasetCopy.save mesh g used ds with
        | error e => exact hp _ _
        | ok out => simp only [hp]
    | structured => exact hp _ _
    | rectangular => exact hp _ _

/-- C216 is false: a dataset on a structured grid is saved where there is a file. -/
theorem C216_refuted : ¬ C216_statement := by
  intro h
  rcases h [] .structured ⟨[], []⟩ "netcdf4" "a.nc" (fun _ => some (.other [1, 2, 3])) with
    ⟨nc, vars, h⟩ | ⟨e, h⟩
  · rw [C216_structured _ _ _ _ _ _ (Or.inl rfl) (Or.inr rfl)] at h
    cases h
  · have hl := C216_lost _ _ _ _ _ _ _ _ (Or.inr rfl) h
    cases hl

/-- A triangle with data on its nodes can be saved; data elsewhere fail after the file is opened. -/
def exTriangle : UIO.UGrid ℚ := { nodes := [(0, 0), (1, 0), (0, 1)], faces := some [[0, 1, 2]] }

example :
    (match SaveDisk.save [] (.unstructured "mesh" exTriangle)
        ⟨[("z", ⟨"z", some "node", [3], [1, 2, 3], [("units", "m")]⟩)], []⟩ "netcdf4" "a.nc" (fun _ => none) with
      | (.ok (), d) => (match d "a.nc" with
        | some (.mesh _ [v]) => decide (v.data = [1, 2, 3])
        | _ => false)
      | _ => false) = true ∧
    (match SaveDisk.save [] (.unstructured "mesh" exTriangle)
        ⟨[("z", ⟨"z", some "corner", [3], [1, 2, 3], []⟩)], []⟩ "netcdf4" "a.nc" (fun _ => some (.other [1])) with
      | (.error .valueError, d) => (match d "a.nc" with
        | some .unfinished => true
        | _ => false)
      | _ => false) = true := by
  decide +kernel

/-! ## C217 -/

/-- The file at the path holds the values of all these variables. -/
def HoldsData (d : Disk K) (path : String) (vars : List (UVars.SVar K)) : Prop :=
  ∃ nc out, d path = some (.mesh nc out) ∧ ∀ v ∈ vars, ∃ o ∈ out, o.name = v.name ∧ o.data = v.data

/-- C217 as stated: after a vector variable has been saved its components are in the file; formats that
are not known are refused. -/
def C217_statement : Prop :=
  ∀ (vars : List (UVars.SVar ℚ)) (format path : String) (d : Disk ℚ),
    (format = "netcdf3" ∨ format = "netcdf4" →
      ∃ d', saveVector vars format path d = (.ok (), d') ∧ HoldsData d' path vars) ∧
    (format ≠ "netcdf3" → format ≠ "netcdf4" → saveVector vars format path d = (.error .valueError, d))

/-- C217 for formats that are not known. Missing: all others, for which nothing is written, see
`C217_nothing`. -/
theorem C217_partial (vars : List (UVars.SVar K)) (format path : String) (d : Disk K)
    (h3 : format ≠ "netcdf3") (h4 : format ≠ "netcdf4") :
    saveVector vars format path d = (.error .valueError, d) := by
  unfold saveVector
  rw [if_pos ⟨h3, h4⟩]

/-- C217, what happens instead: the call succeeds, and no file is made or changed. -/
theorem C217_nothing (vars : List (UVars.SVar K)) (format path : String) (d : Disk K)
    (hf : format = "netcdf3" ∨ format = "netcdf4") : saveVector vars format path d = (.ok (), d) := by
  unfold saveVector
  rw [if_neg (by rcases hf with rfl | rfl <;> decide)]

/-- C217 is false: there is no file afterwards. -/
theorem C217_refuted : ¬ C217_statement := by
  intro h
  obtain ⟨d', h1, nc, out, h2, -⟩ := (h [⟨"u", some "node", [3], [1, 2, 3], []⟩] "netcdf4" "a.nc"
    (fun _ => none)).1 (Or.inr rfl)
  rw [C217_nothing _ _ _ _ (Or.inr rfl)] at h1
  cases h1
  cases h2

example : ("netcdf5" : String) ≠ "netcdf3" ∧ ("netcdf5" : String) ≠ "netcdf4" := by decide

end Verif
