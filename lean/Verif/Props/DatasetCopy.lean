import Verif.Model.DatasetCopy
import Verif.Props.UVars
import Verif.Props.Dataset
import Mathlib.Data.List.Nodup
import Mathlib.Data.List.Forall2

/-!
# C210: a dataset loaded from a file and saved to another
-/

set_option autoImplicit false

namespace Verif
open DatasetCopy UVars
open Dataset (NcVar notGrid)

section C210
variable {K : Type}

/-- A variable that can be saved with the grid: it states its location, has one value for each element
there, and no fill value. -/
def Copyable (g : UIO.UGrid K) (f : DatasetCopy.File K) (v : NcVar) : Prop :=
  ∃ loc n, v.location = some loc ∧ PartSize g loc n ∧ v.shape = [n] ∧
    "_FillValue" ∉ (f.attrs v.name).map Prod.fst

/-- The new file has the variables of the old one, by name, in order and with their values. -/
def SameVars (f : DatasetCopy.File K) (vs : List NcVar) (o : DatasetCopy.Out K) : Prop :=
  o.vars.map (fun w => (w.name, w.data)) = vs.map (fun v => (v.name, f.data v.name))

/-- C210 as stated. The names in a file differ; those of the grid (`used`) are not names of data. -/
def C210_statement : Prop :=
  ∀ (topology : List (String × String)) (infer : NcVar → Except Err (Option String)) (mesh : String)
    (g : UIO.UGrid ℚ) (used : List String) (f : DatasetCopy.File ℚ),
    (f.vars.map NcVar.name).Nodup →
    (∀ v ∈ f.vars, notGrid topology v.name = true → Copyable g f v ∧ v.name ∉ used) →
    ∃ o, copy topology infer mesh g used f = .ok o ∧
      SameVars f (f.vars.filter fun v => notGrid topology v.name) o ∧ o.globals = f.globals

theorem setAttrs_fine (as : List (String × String)) (h : "_FillValue" ∉ as.map Prod.fst) :
    ∀ base, ∃ r, setAttrs base as = .ok r := by
  induction as with
  | nil => exact fun base => ⟨base, rfl⟩
  | cons kv as ih =>
    intro base
    simp only [List.map_cons, List.mem_cons, not_or] at h
    obtain ⟨r, hr⟩ := ih h.2 (Cache.assign base kv.1 kv.2)
    exact ⟨r, by rw [setAttrs, if_neg (fun e => h.1 e.symm), hr]⟩

theorem saveVar_ok (mesh : String) (g : UIO.UGrid K) (used : List String) (v : SVar K) (loc : String)
    (n : Nat) (hl : v.location = some loc) (hp : PartSize g loc n) (hs : v.shape = [n])
    (hu : v.name ∉ used) (hf : "_FillValue" ∉ v.attrs.map Prod.fst) :
    ∃ o, saveVar mesh g used v = .ok o ∧ o.name = v.name ∧ o.data = v.data ∧
      o.dim = mesh ++ "_num_" ++ loc := by
  obtain ⟨c, hc⟩ := place_ok mesh g loc n hp
  unfold saveVar
  rw [hl, hc]
  simp only [if_neg hu, hs, List.prod_cons, List.prod_nil, mul_one, ne_eq, not_true_eq_false, if_false]
  generalize hb : ([("location", (some loc).getD ""), ("mesh", mesh)] ++ _ : List (String × String)) = base
  obtain ⟨r, hr⟩ := setAttrs_fine v.attrs hf base
  rw [hr]
  exact ⟨_, rfl, rfl, rfl, rfl⟩

theorem partSize_valid {g : UIO.UGrid K} {loc : String} {n : Nat} (h : PartSize g loc n) :
    loc ∈ Var.validLocations := by
  rcases h with ⟨rfl, _⟩ | ⟨rfl, _⟩ | ⟨rfl, _⟩ | ⟨rfl, _⟩ <;> decide

/-- The name a variable has once loaded. -/
def loadedName (v : NcVar) : String := v.longName.getD v.name

theorem load_copyable (topology : List (String × String)) (infer : NcVar → Except Err (Option String))
    (g : UIO.UGrid K) (f : DatasetCopy.File K) (vs : List NcVar)
    (h : ∀ v ∈ vs, notGrid topology v.name = true → Copyable g f v) :
    Dataset.loadVars topology infer (buildVar f) vs =
      .ok ((vs.filter fun v => notGrid topology v.name).map fun v => (v.name,
        { name := loadedName v, location := v.location, shape := v.shape, data := f.data v.name,
          attrs := f.attrs v.name })) := by
  induction vs with
  | nil => rfl
  | cons v vs ih =>
    have ih := ih (fun w hw => h w (List.mem_cons_of_mem _ hw))
    rw [Dataset.loadVars]
    cases hg : notGrid topology v.name with
    | false => simp [hg, ih]
    | true =>
      obtain ⟨loc, n, h1, h2, -, -⟩ := h v (by simp) hg
      have hloc : Dataset.locate infer v = .ok (some loc) := by
        simp only [Dataset.locate, h1, if_pos (partSize_valid h2)]
      simp only [if_true, hloc, buildVar, ih, hg, List.filter_cons, List.map_cons, h1]
      rfl

theorem saveVars_copyable (mesh : String) (g : UIO.UGrid K) (vs : List (SVar K)) : ∀ used : List String,
    (vs.map SVar.name).Nodup → (∀ v ∈ vs, v.name ∉ used) →
    (∀ v ∈ vs, ∃ loc n, v.location = some loc ∧ PartSize g loc n ∧ v.shape = [n] ∧
      "_FillValue" ∉ v.attrs.map Prod.fst) →
    ∃ os, saveVars mesh g used vs = .ok os ∧
      os.map (fun o => (o.name, o.data)) = vs.map (fun v => (v.name, v.data)) := by
  induction vs with
  | nil => exact fun _ _ _ _ => ⟨[], rfl, rfl⟩
  | cons v vs ih =>
    intro used hn hu h
    simp only [List.map_cons, List.nodup_cons] at hn
    obtain ⟨loc, n, h1, h2, h3, h4⟩ := h v (by simp)
    obtain ⟨o, ho, hon, hod, -⟩ := saveVar_ok mesh g used v loc n h1 h2 h3 (hu v (by simp)) h4
    obtain ⟨os, hos, he⟩ := ih (v.name :: used) hn.2 (fun w hw => by
      simp only [List.mem_cons, not_or]
      exact ⟨fun e => hn.1 (e ▸ List.mem_map_of_mem hw), hu w (List.mem_cons_of_mem _ hw)⟩)
      (fun w hw => h w (List.mem_cons_of_mem _ hw))
    exact ⟨o :: os, by simp only [saveVars, ho, hos], by simp only [List.map_cons, hon, hod, he]⟩

/-- C210, what the new file has: the variables under their long names, if they have any. They are
saved if these differ from each other and from the names the grid takes. -/
theorem C210_long_names (topology : List (String × String)) (infer : NcVar → Except Err (Option String))
    (mesh : String) (g : UIO.UGrid K) (used : List String) (f : DatasetCopy.File K)
    (hn : ((f.vars.filter fun v => notGrid topology v.name).map loadedName).Nodup)
    (h : ∀ v ∈ f.vars, notGrid topology v.name = true → Copyable g f v ∧ loadedName v ∉ used) :
    ∃ o, copy topology infer mesh g used f = .ok o ∧
      o.vars.map (fun w => (w.name, w.data)) =
        (f.vars.filter fun v => notGrid topology v.name).map (fun v => (loadedName v, f.data v.name)) ∧
      o.globals = [] := by
  have hload := load_copyable topology infer g f f.vars (fun v hv hg => (h v hv hg).1)
  obtain ⟨os, hos, he⟩ := saveVars_copyable mesh g
    ((f.vars.filter fun v => notGrid topology v.name).map fun v =>
      ({ name := loadedName v, location := v.location, shape := v.shape, data := f.data v.name,
          attrs := f.attrs v.name } : SVar K)) used (by simpa [List.map_map, Function.comp_def] using hn) (by
      intro w hw
      obtain ⟨v, hv, rfl⟩ := List.mem_map.mp hw
      obtain ⟨h1, h2⟩ := List.mem_filter.mp hv
      exact (h v h1 h2).2) (by
      intro w hw
      obtain ⟨v, hv, rfl⟩ := List.mem_map.mp hw
      obtain ⟨h1, h2⟩ := List.mem_filter.mp hv
      exact (h v h1 h2).1)
  refine ⟨⟨os, []⟩, ?_, ?_, rfl⟩
  · unfold copy load save
    rw [hload]
    simp only [List.map_map, Function.comp_def]
    rw [hos]
  · simp only
    rw [he]
    simp [List.map_map, Function.comp_def]

/-- C210, for variables without a long name of their own. Missing: other long names, and the attributes
of the file, which are lost unless there are none. -/
theorem C210_partial (topology : List (String × String)) (infer : NcVar → Except Err (Option String))
    (mesh : String) (g : UIO.UGrid K) (used : List String) (f : DatasetCopy.File K)
    (hn : (f.vars.map NcVar.name).Nodup)
    (h : ∀ v ∈ f.vars, notGrid topology v.name = true → Copyable g f v ∧ v.name ∉ used)
    (hl : ∀ v ∈ f.vars, v.longName = none ∨ v.longName = some v.name) :
    ∃ o, copy topology infer mesh g used f = .ok o ∧
      SameVars f (f.vars.filter fun v => notGrid topology v.name) o ∧
      (f.globals = [] → o.globals = f.globals) := by
  have hname : ∀ v ∈ f.vars, loadedName v = v.name := by
    intro v hv
    rcases hl v hv with e | e <;> simp [loadedName, e]
  obtain ⟨o, h1, h2, h3⟩ := C210_long_names topology infer mesh g used f (by
    rw [List.map_congr_left (g := NcVar.name) (fun v hv => hname v (List.mem_filter.mp hv).1)]
    exact List.Nodup.sublist (List.Sublist.map _ List.filter_sublist) hn)
    (fun v hv hg => ⟨(h v hv hg).1, by rw [hname v hv]; exact (h v hv hg).2⟩)
  refine ⟨o, h1, ?_, fun e => by rw [h3, e]⟩
  unfold SameVars
  rw [h2]
  exact List.map_congr_left (fun v hv => by rw [hname v (List.mem_filter.mp hv).1])

/-- C210, two variables with one long name, side by side: the dataset cannot be saved. -/
theorem C210_one_long_name (topology : List (String × String)) (infer : NcVar → Except Err (Option String))
    (mesh : String) (g : UIO.UGrid K) (used : List String) (f : DatasetCopy.File K) (v w : NcVar)
    (hf : f.vars = [v, w]) (hv : notGrid topology v.name = true) (hw : notGrid topology w.name = true)
    (hcv : Copyable g f v) (hcw : Copyable g f w) (hu : loadedName v ∉ used)
    (he : loadedName v = loadedName w) :
    copy topology infer mesh g used f = .error .runtimeError := by
  have hload := load_copyable topology infer g f f.vars (by
    intro x hx _
    rw [hf] at hx
    simp only [List.mem_cons, List.not_mem_nil, or_false] at hx
    rcases hx with rfl | rfl
    exacts [hcv, hcw])
  obtain ⟨loc, n, h1, h2, h3, h4⟩ := hcv
  obtain ⟨loc', n', g1, g2, g3, g4⟩ := hcw
  obtain ⟨o, ho, -⟩ := saveVar_ok mesh g used
    { name := loadedName v, location := v.location, shape := v.shape, data := f.data v.name,
      attrs := f.attrs v.name } loc n h1 h2 h3 hu h4
  obtain ⟨c, hc⟩ := place_ok mesh g loc' n' g2
  unfold copy load save
  rw [hload, hf]
  simp only [List.filter_cons, hv, hw, if_true, List.filter_nil, List.map_cons, List.map_nil, saveVars, ho]
  unfold saveVar
  simp only [g1, hc]
  rw [if_pos (by rw [he]; simp)]

/-- A file with heights of the surface, with a long name. -/
def heights : DatasetCopy.File ℚ :=
  { vars := [{ name := "mesh" },
      { name := "zeta", longName := some "surface height", location := some "node", shape := [3] }],
    data := fun _ => [1, 2, 3], attrs := fun _ => [("units", "m")], globals := [] }

def heightsGrid : UIO.UGrid ℚ := { nodes := [(0, 0), (1, 0), (0, 1)] }

theorem heights_copyable (v : NcVar) (hv : v ∈ heights.vars)
    (hg : notGrid [("mesh", "mesh")] v.name = true) :
    Copyable heightsGrid heights v ∧ v.name ∉ ["mesh", "mesh_node_lon"] := by
  simp only [heights, List.mem_cons, List.not_mem_nil, or_false] at hv
  rcases hv with rfl | rfl
  · exact absurd hg (by decide +kernel)
  · exact ⟨⟨"node", 3, rfl, Or.inl ⟨rfl, rfl⟩, rfl, by simp [heights]⟩, by simp⟩

/-- C210 fails: a variable with a long name is saved under that name. -/
theorem C210_refuted : ¬ C210_statement := by
  intro h
  obtain ⟨o, ho, hs, -⟩ := h [("mesh", "mesh")] (fun _ => .ok none) "mesh" heightsGrid
    ["mesh", "mesh_node_lon"] heights (by simp [heights]) heights_copyable
  have e : copy [("mesh", "mesh")] (fun _ => .ok none) "mesh" heightsGrid ["mesh", "mesh_node_lon"] heights =
      .ok ⟨[⟨"surface height", "mesh_num_node", [1, 2, 3], [("location", "node"), ("mesh", "mesh"),
        ("coordinates", "mesh_node_lon mesh_node_lat"), ("units", "m")]⟩], []⟩ := by decide +kernel
  rw [ho] at e
  injection e with e
  subst e
  have hf : (heights.vars.filter fun v => notGrid [("mesh", "mesh")] v.name) =
      [{ name := "zeta", longName := some "surface height", location := some "node", shape := [3] }] := by
    decide +kernel
  unfold SameVars at hs
  rw [hf] at hs
  simp at hs

/-- The hypotheses of `C210_partial` hold for the same file without the long name. -/
example : copy [("mesh", "mesh")] (fun _ => .ok none) "mesh" heightsGrid ["mesh", "mesh_node_lon"]
    { heights with vars := [{ name := "mesh" }, { name := "zeta", location := some "node", shape := [3] }] } =
      .ok ⟨[⟨"zeta", "mesh_num_node", [1, 2, 3], [("location", "node"), ("mesh", "mesh"),
        ("coordinates", "mesh_node_lon mesh_node_lat"), ("units", "m")]⟩], []⟩ := by decide +kernel

/-- And two variables with one long name are refused. -/
example : copy [("mesh", "mesh")] (fun _ => .ok none) "mesh" heightsGrid ["mesh", "mesh_node_lon"]
    { heights with vars := [
        { name := "a", longName := some "height", location := some "node", shape := [3] },
        { name := "b", longName := some "height", location := some "node", shape := [3] }] } =
      .error .runtimeError := by decide +kernel

end C210

section C211
variable {K : Type}

/-- The variable in the new file names the coordinates of its part of the new grid, if the grid has
them, and no others. -/
def NamesPoints (mesh : String) (g : UIO.UGrid K) (v : NcVar) (w : OutVar K) : Prop :=
  ∀ loc c, v.location = some loc → PointsAt g loc c →
    Cache.lookup w.attrs "coordinates" = c.map fun _ =>
      mesh ++ "_" ++ loc ++ "_lon " ++ mesh ++ "_" ++ loc ++ "_lat"

/-- C211 as stated. -/
def C211_statement : Prop :=
  ∀ (topology : List (String × String)) (infer : NcVar → Except Err (Option String)) (mesh : String)
    (g : UIO.UGrid ℚ) (used : List String) (f : DatasetCopy.File ℚ) (o : DatasetCopy.Out ℚ),
    (∀ v ∈ f.vars, notGrid topology v.name = true → Copyable g f v) →
    (∀ n, ((f.attrs n).map Prod.fst).Nodup) → copy topology infer mesh g used f = .ok o →
    List.Forall₂ (NamesPoints mesh g) (f.vars.filter fun v => notGrid topology v.name) o.vars

theorem saveVars_each (mesh : String) (g : UIO.UGrid K) : ∀ (vs : List (SVar K)) (used : List String)
    (os : List (OutVar K)), saveVars mesh g used vs = .ok os →
    List.Forall₂ (fun v o => ∃ used', saveVar mesh g used' v = .ok o) vs os
  | [], _, os, h => by cases h; exact .nil
  | v :: vs, used, os, h => by
    rw [saveVars] at h
    cases h1 : saveVar mesh g used v with
    | error e => rw [h1] at h; cases h
    | ok o =>
      rw [h1] at h
      cases h2 : saveVars mesh g (v.name :: used) vs with
      | error e => rw [h2] at h; cases h
      | ok os' =>
        rw [h2] at h
        cases h
        exact .cons ⟨used, h1⟩ (saveVars_each mesh g vs _ _ h2)

theorem copy_each (topology : List (String × String)) (infer : NcVar → Except Err (Option String))
    (mesh : String) (g : UIO.UGrid K) (used : List String) (f : DatasetCopy.File K) (o : DatasetCopy.Out K)
    (h : ∀ v ∈ f.vars, notGrid topology v.name = true → Copyable g f v)
    (hc : copy topology infer mesh g used f = .ok o) :
    List.Forall₂ (fun (v : NcVar) w => ∃ used', saveVar mesh g used'
      { name := loadedName v, location := v.location, shape := v.shape, data := f.data v.name,
        attrs := f.attrs v.name } = .ok w)
      (f.vars.filter fun v => notGrid topology v.name) o.vars := by
  unfold copy load save at hc
  rw [load_copyable topology infer g f f.vars h] at hc
  simp only [List.map_map, Function.comp_def] at hc
  cases hs : saveVars mesh g used ((f.vars.filter fun v => notGrid topology v.name).map fun v =>
      ({ name := loadedName v, location := v.location, shape := v.shape, data := f.data v.name,
         attrs := f.attrs v.name } : SVar K)) with
  | error e => rw [hs] at hc; cases hc
  | ok os =>
    rw [hs] at hc
    cases hc
    exact (List.forall₂_map_left_iff.mp (saveVars_each mesh g _ _ _ hs))

/-- C211, for variables without the attribute `coordinates` in the old file. Missing: the others. -/
theorem C211_partial (topology : List (String × String)) (infer : NcVar → Except Err (Option String))
    (mesh : String) (g : UIO.UGrid K) (used : List String) (f : DatasetCopy.File K) (o : DatasetCopy.Out K)
    (h : ∀ v ∈ f.vars, notGrid topology v.name = true → Copyable g f v)
    (hc : copy topology infer mesh g used f = .ok o) :
    List.Forall₂ (fun v w => "coordinates" ∉ (f.attrs v.name).map Prod.fst → NamesPoints mesh g v w)
      (f.vars.filter fun v => notGrid topology v.name) o.vars := by
  refine (copy_each topology infer mesh g used f o h hc).imp ?_
  rintro v w ⟨used', hs⟩ ha loc c hl hp
  exact C102_coordinates mesh g used' _ loc hl c hp w hs ha

/-- C211, every attribute of the old file is kept as it was, and so is `coordinates`, whatever the
names in the new file. -/
theorem C211_kept (topology : List (String × String)) (infer : NcVar → Except Err (Option String))
    (mesh : String) (g : UIO.UGrid K) (used : List String) (f : DatasetCopy.File K) (o : DatasetCopy.Out K)
    (h : ∀ v ∈ f.vars, notGrid topology v.name = true → Copyable g f v)
    (hn : ∀ n, ((f.attrs n).map Prod.fst).Nodup)
    (hc : copy topology infer mesh g used f = .ok o) :
    List.Forall₂ (fun v w => ∀ k x, (k, x) ∈ f.attrs v.name → Cache.lookup w.attrs k = some x)
      (f.vars.filter fun v => notGrid topology v.name) o.vars := by
  have hall : ∀ v ∈ f.vars.filter (fun v => notGrid topology v.name),
      "_FillValue" ∉ (f.attrs v.name).map Prod.fst := by
    intro v hv
    obtain ⟨h1, h2⟩ := List.mem_filter.mp hv
    obtain ⟨_, _, _, _, _, h3⟩ := h v h1 h2
    exact h3
  refine ((List.forall₂_and_left _ _).mpr ⟨hall, copy_each topology infer mesh g used f o h hc⟩).imp ?_
  rintro v w ⟨hf, used', hs⟩ k x hk
  unfold saveVar at hs
  split at hs
  · cases hs
  · split at hs
    · cases hs
    · split at hs
      · cases hs
      · simp only [setAttrs_ok _ _ hf] at hs
        cases hs
        exact foldl_lookup_own _ _ _ _ (hn _) hk

/-- Heights that name the longitudes and latitudes of their file, as CF asks. -/
def namedHeights : DatasetCopy.File ℚ :=
  { heights with attrs := fun _ => [("units", "m"), ("coordinates", "lon lat")] }

theorem namedHeights_copyable (v : NcVar) (hv : v ∈ namedHeights.vars)
    (hg : notGrid [("mesh", "mesh")] v.name = true) : Copyable heightsGrid namedHeights v := by
  simp only [namedHeights, heights, List.mem_cons, List.not_mem_nil, or_false] at hv
  rcases hv with rfl | rfl
  · exact absurd hg (by decide +kernel)
  · exact ⟨"node", 3, rfl, Or.inl ⟨rfl, rfl⟩, rfl, by simp [namedHeights]⟩

theorem namedHeights_copy :
    copy [("mesh", "mesh")] (fun _ => .ok none) "mesh" heightsGrid ["mesh", "mesh_node_lon"] namedHeights =
      .ok ⟨[⟨"surface height", "mesh_num_node", [1, 2, 3], [("location", "node"), ("mesh", "mesh"),
        ("coordinates", "lon lat"), ("units", "m")]⟩], []⟩ := by decide +kernel

/-- C211 fails: the new file has no variables `lon` and `lat`. -/
theorem C211_refuted : ¬ C211_statement := by
  intro h
  have h := h [("mesh", "mesh")] (fun _ => .ok none) "mesh" heightsGrid ["mesh", "mesh_node_lon"] namedHeights _
    namedHeights_copyable (by intro n; simp [namedHeights]) namedHeights_copy
  have hf : (namedHeights.vars.filter fun v => notGrid [("mesh", "mesh")] v.name) =
      [{ name := "zeta", longName := some "surface height", location := some "node", shape := [3] }] := by
    decide +kernel
  rw [hf] at h
  cases h with
  | cons h _ => exact absurd (h "node" (some heightsGrid.nodes) rfl (Or.inl ⟨rfl, rfl⟩)) (by decide +kernel)

/-- The hypotheses of `C211_partial` and `C211_kept` hold for heights with and without the attribute. -/
example : (∀ n, ((namedHeights.attrs n).map Prod.fst).Nodup) ∧
    (∀ v ∈ heights.vars, "coordinates" ∉ (heights.attrs v.name).map Prod.fst) := by
  refine ⟨by intro n; simp [namedHeights], by intro v _; simp [heights]⟩

end C211

end Verif
