import Verif.Model.Dataset
import Verif.Spec.Dataset
import Verif.Lemmas.Dataset
import Mathlib.Data.List.Forall2

/-!
# Properties of datasets: C57, C84, C85, C86
-/

set_option autoImplicit false

namespace Verif
open Verif.Spec Verif.Dataset

section
variable {F G V A T : Type}

/-! ## C57: files or parts -/

/-- C57: a file together with a grid, variables or attributes is refused. -/
theorem C57_both (load : Option F → Option T → Except Err (DS F G V A)) (a : Args F G V A T) (f : F)
    (hf : a.ncfile = some f) (h : a.grid ≠ none ∨ a.variables ≠ none ∨ a.attributes ≠ none) :
    init load a = .error .valueError := by
  unfold init
  rw [hf]
  have : (a.grid.isSome || a.variables.isSome || a.attributes.isSome) = true := by
    simp only [Bool.or_eq_true, Option.isSome_iff_ne_none]
    rcases h with h | h | h
    · exact Or.inl (Or.inl h)
    · exact Or.inl (Or.inr h)
    · exact Or.inr h
  simp [this]

/-- C57: a file alone is loaded. -/
theorem C57_file (load : Option F → Option T → Except Err (DS F G V A)) (f : F) :
    init load { ncfile := some f } = load (some f) none := rfl

/-- C57: without a file the parts are those given, and empty tables if not given. -/
theorem C57_parts (load : Option F → Option T → Except Err (DS F G V A)) (a : Args F G V A T)
    (hf : a.ncfile = none) :
    ∃ ds, init load a = .ok ds ∧ ds.filename = none ∧ ds.grid = a.grid ∧
      (∀ vs, a.variables = some vs → ds.variables = vs) ∧
      (a.variables = none → ds.variables = []) ∧
      (∀ as, a.attributes = some as → ds.attributes = as) ∧
      (a.attributes = none → ds.attributes = []) := by
  refine ⟨⟨none, a.grid, a.variables.getD [], a.attributes.getD []⟩, ?_, rfl, rfl, ?_, ?_, ?_, ?_⟩
  · unfold init
    rw [hf]
  · intro vs h
    simp [h]
  · intro h
    simp [h]
  · intro vs h
    simp [h]
  · intro h
    simp [h]

open Classical in
/-- C57: a query by attribute gives exactly the variables with this value, in order. -/
theorem C57_query [DecidableEq A] (attrs : V → List (String × A)) (ds : DS F G V A) (k : String)
    (a : A) :
    byAttribute attrs ds k a =
      (ds.variables.map Prod.snd).filter (fun v => decide (HasAttr (attrs v) k a)) := by
  unfold byAttribute
  apply List.filter_congr
  intro v _
  rw [Bool.eq_iff_iff, beq_iff_eq, attr_spec, decide_eq_true_iff]

/-! ## C84: topologies -/

/-- C84: the topology given with a file is used, however the dataset is made. -/
def C84_statement : Prop :=
  ∀ (F G V A T : Type) (load : Option F → Option T → Except Err (DS F G V A)) (f : F)
    (t : Option T),
    init load { ncfile := some f, topology := t } = load (some f) t ∧
      fromNetCDF load (some f) none none t = load (some f) t

/-- The code is wrong: the constructor does not pass it on. -/
theorem C84_refuted : ¬ C84_statement := by
  intro h
  have := (h Unit Unit Unit Unit Unit (fun _ t => match t with
    | none => .error .valueError
    | some _ => .ok ⟨none, none, [], []⟩) () (some ())).1
  cases this

/-- C84 for `Dataset.from_netCDF`; the constructor is missing, see `C84_refuted`. -/
theorem C84_partial (load : Option F → Option T → Except Err (DS F G V A)) (f : Option F)
    (t : Option T) : fromNetCDF load f none none t = load f t := rfl

/-- Separate files for the grid or the variables are refused. -/
theorem C84_separate (load : Option F → Option T → Except Err (DS F G V A)) (f g : Option F)
    (vs : Option (List F)) (t : Option T) (h : g ≠ none ∨ vs ≠ none) :
    fromNetCDF load f g vs t = .error .notImplemented := by
  unfold fromNetCDF initFromFile
  have : (g.isSome || vs.isSome) = true := by
    simp only [Bool.or_eq_true, Option.isSome_iff_ne_none]
    exact h
  simp [this]

end

example :
    init (F := Nat) (G := Nat) (V := Nat) (A := Nat) (T := Nat) (fun _ _ => .error .keyError)
      { ncfile := some 1, attributes := some [] } = .error .valueError ∧
    byAttribute (F := Nat) (G := Nat) (A := String) (fun v : Nat => [("units", if v < 2 then "m" else "s")])
      ⟨none, none, [("a", 1), ("b", 5), ("c", 0)], []⟩ "units" "m" = [1, 0] := by
  exact ⟨rfl, by decide⟩

/-! ## C85: variables of a file -/

section
variable {β : Type}

/-- The variables that are loaded, with their locations. -/
def Loads (topology : List (String × String)) (infer : NcVar → Except Err (Option String))
    (v : NcVar) (l : String) : Prop :=
  ¬ Mentioned topology v.name ∧ LocatedAt infer v l

/-- C85: every variable of the file that is not used by the grid and has a location is loaded.
`roles` are the entries of the topology that name variables; the others describe it. -/
def C85_statement : Prop :=
  ∀ (β : Type) (topology : List (String × String)) (infer : NcVar → Except Err (Option String))
    (build : NcVar → String → String → Except Err β) (vars : List NcVar) (r : List (String × β)),
    loadVars topology infer build vars = .ok r →
    ∀ v ∈ vars, ∀ l, LocatedAt infer v l →
      ¬ Mentioned (topology.filter (fun kv => kv.1 != "long_name")) v.name →
      ∃ b, (v.name, b) ∈ r

/-- The code is wrong: a variable whose name is a word of the long name of the topology is left
out. -/
theorem C85_refuted : ¬ C85_statement := by
  intro h
  have hm : ¬ Mentioned ([("long_name", "Topology data")].filter (fun kv => kv.1 != "long_name"))
      "data" := by
    rintro ⟨kv, hkv, -⟩
    simp at hkv
  obtain ⟨b, hb⟩ := h Unit [("long_name", "Topology data")] (fun _ => .ok none) (fun _ _ _ => .ok ())
    [⟨"data", none, some "node", [3]⟩] [] (by decide +kernel)
    ⟨"data", none, some "node", [3]⟩ (by simp) "node" (Or.inl ⟨rfl, by simp [KnownLocation]⟩) hm
  cases hb

theorem loadVars_spec (topology : List (String × String))
    (infer : NcVar → Except Err (Option String)) (build : NcVar → String → String → Except Err β)
    (vars : List NcVar) (r : List (String × β))
    (h : loadVars topology infer build vars = .ok r) :
    (∀ k b, (k, b) ∈ r ↔ ∃ v ∈ vars, v.name = k ∧ ∃ l, Loads topology infer v l ∧
      build v (v.longName.getD v.name) l = .ok b) ∧
    (r.map Prod.fst).Sublist (vars.map NcVar.name) ∧
    ∀ v ∈ vars, ∀ l, Loads topology infer v l →
      ∃ b, build v (v.longName.getD v.name) l = .ok b := by
  induction vars generalizing r with
  | nil =>
    cases h
    simp
  | cons v vs ih =>
    have huniq : ∀ l l', LocatedAt infer v l → LocatedAt infer v l' → l = l' := by
      intro l l' h1 h2
      rw [← locate_spec] at h1 h2
      rw [h1] at h2
      cases h2
      rfl
    unfold loadVars at h
    by_cases hg : notGrid topology v.name = true
    · rw [if_pos hg] at h
      have hm := (notGrid_spec _ _).1 hg
      cases hl : locate infer v with
      | error e =>
        rw [hl] at h
        cases h
      | ok o =>
        cases o with
        | none =>
          rw [hl] at h
          obtain ⟨i1, i2, i3⟩ := ih r h
          refine ⟨?_, ?_, ?_⟩
          · intro k b
            rw [i1]
            constructor
            · rintro ⟨w, hw, hh⟩
              exact ⟨w, by simp [hw], hh⟩
            · rintro ⟨w, hw, hk, l, hL, hh⟩
              rcases List.mem_cons.1 hw with rfl | hw
              · exact absurd hL.2 (locate_none _ _ hl l)
              · exact ⟨w, hw, hk, l, hL, hh⟩
          · exact List.Sublist.cons _ i2
          · intro w hw l hL
            rcases List.mem_cons.1 hw with rfl | hw
            · exact absurd hL.2 (locate_none _ _ hl l)
            · exact i3 w hw l hL
        | some l =>
          rw [hl] at h
          have hL0 : LocatedAt infer v l := (locate_spec _ _ _).1 hl
          simp only at h
          cases hb : build v (v.longName.getD v.name) l with
          | error e =>
            rw [hb] at h
            cases h
          | ok b0 =>
            rw [hb] at h
            simp only at h
            cases hr : loadVars topology infer build vs with
            | error e =>
              rw [hr] at h
              cases h
            | ok r' =>
              rw [hr] at h
              cases h
              obtain ⟨i1, i2, i3⟩ := ih r' hr
              refine ⟨?_, ?_, ?_⟩
              · intro k b
                rw [List.mem_cons, i1]
                constructor
                · rintro (hk | ⟨w, hw, hh⟩)
                  · cases hk
                    exact ⟨v, by simp, rfl, l, ⟨hm, hL0⟩, hb⟩
                  · exact ⟨w, by simp [hw], hh⟩
                · rintro ⟨w, hw, hk, l', hL, hh⟩
                  rcases List.mem_cons.1 hw with rfl | hw
                  · have := huniq l l' hL0 hL.2
                    subst this
                    rw [hb] at hh
                    cases hh
                    exact Or.inl (by rw [hk])
                  · exact Or.inr ⟨w, hw, hk, l', hL, hh⟩
              · exact List.Sublist.cons_cons _ i2
              · intro w hw l' hL
                rcases List.mem_cons.1 hw with rfl | hw
                · have := huniq l l' hL0 hL.2
                  subst this
                  exact ⟨b0, hb⟩
                · exact i3 w hw l' hL
    · rw [if_neg hg] at h
      have hm : Mentioned topology v.name := by
        by_contra hn
        exact hg ((notGrid_spec _ _).2 hn)
      obtain ⟨i1, i2, i3⟩ := ih r h
      refine ⟨?_, ?_, ?_⟩
      · intro k b
        rw [i1]
        constructor
        · rintro ⟨w, hw, hh⟩
          exact ⟨w, by simp [hw], hh⟩
        · rintro ⟨w, hw, hk, l, hL, hh⟩
          rcases List.mem_cons.1 hw with rfl | hw
          · exact absurd hm hL.1
          · exact ⟨w, hw, hk, l, hL, hh⟩
      · exact List.Sublist.cons _ i2
      · intro w hw l hL
        rcases List.mem_cons.1 hw with rfl | hw
        · exact absurd hm hL.1
        · exact i3 w hw l hL

/-- C85 as the code has it: the variables loaded are exactly those with a location whose name is
not a word of the topology, under their names and with their long name, or name, and their
location. That only names used by the grid are left out is missing, see `C85_refuted`. -/
theorem C85_loaded_partial (topology : List (String × String))
    (infer : NcVar → Except Err (Option String)) (build : NcVar → String → String → Except Err β)
    (vars : List NcVar) (r : List (String × β))
    (h : loadVars topology infer build vars = .ok r) (k : String) (b : β) :
    (k, b) ∈ r ↔ ∃ v ∈ vars, v.name = k ∧ ¬ Mentioned topology k ∧ ∃ l, LocatedAt infer v l ∧
      build v (v.longName.getD v.name) l = .ok b := by
  rw [(loadVars_spec topology infer build vars r h).1]
  constructor
  · rintro ⟨v, hv, rfl, l, ⟨h1, h2⟩, h3⟩
    exact ⟨v, hv, rfl, h1, l, h2, h3⟩
  · rintro ⟨v, hv, rfl, h1, l, h2, h3⟩
    exact ⟨v, hv, rfl, l, ⟨h1, h2⟩, h3⟩

/-- The variables keep the order of the file, and none is loaded twice. -/
theorem C85_order (topology : List (String × String))
    (infer : NcVar → Except Err (Option String)) (build : NcVar → String → String → Except Err β)
    (vars : List NcVar) (r : List (String × β))
    (h : loadVars topology infer build vars = .ok r) : (r.map Prod.fst).Sublist (vars.map NcVar.name) :=
  (loadVars_spec topology infer build vars r h).2.1

/-- Loading succeeds if no variable outside the grid raises. -/
theorem C85_total (topology : List (String × String))
    (infer : NcVar → Except Err (Option String)) (build : NcVar → String → String → Except Err β)
    (vars : List NcVar)
    (hi : ∀ v ∈ vars, ¬ Mentioned topology v.name → ∃ o, infer v = .ok o)
    (hb : ∀ v ∈ vars, ∀ l, ¬ Mentioned topology v.name → LocatedAt infer v l →
      ∃ b, build v (v.longName.getD v.name) l = .ok b) :
    ∃ r, loadVars topology infer build vars = .ok r := by
  induction vars with
  | nil => exact ⟨[], rfl⟩
  | cons v vs ih =>
    obtain ⟨r, hr⟩ := ih (fun w hw => hi w (by simp [hw])) (fun w hw => hb w (by simp [hw]))
    unfold loadVars
    by_cases hg : notGrid topology v.name = true
    · rw [if_pos hg]
      have hm := (notGrid_spec _ _).1 hg
      have hl : ∃ o, locate infer v = .ok o := by
        unfold locate
        cases hv : v.location with
        | none => exact hi v (by simp) hm
        | some x =>
          by_cases hx : x ∈ Var.validLocations
          · exact ⟨some x, by simp [hx]⟩
          · simpa [hx] using hi v (by simp) hm
      obtain ⟨o, ho⟩ := hl
      rw [ho]
      cases o with
      | none => exact ⟨r, hr⟩
      | some l =>
        obtain ⟨b, hb⟩ := hb v (by simp) l hm ((locate_spec _ _ _).1 ho)
        simp only [hb, hr]
        exact ⟨_, rfl⟩
    · rw [if_neg hg]
      exact ⟨r, hr⟩

/-- One variable that cannot be built, after others that can, makes loading fail. -/
theorem C85_error (topology : List (String × String))
    (infer : NcVar → Except Err (Option String)) (build : NcVar → String → String → Except Err β)
    (vars : List NcVar) (v : NcVar) (hv : v ∈ vars) (l : String) (e : Err)
    (hm : ¬ Mentioned topology v.name) (hl : LocatedAt infer v l)
    (hb : build v (v.longName.getD v.name) l = .error e) (r : List (String × β)) :
    loadVars topology infer build vars ≠ .ok r := by
  intro h
  obtain ⟨b, hb'⟩ := (loadVars_spec topology infer build vars r h).2.2 v hv l ⟨hm, hl⟩
  rw [hb] at hb'
  cases hb'

end

/-- Of five variables the coordinates are part of the grid and one has no location. -/
example :
    loadVars [("node_coordinates", "lon lat"), ("cf_role", "mesh_topology")]
      (fun v => if v.shape = [4] then .ok (some "node") else .ok none)
      (fun _ n l => .ok (n, l))
      [⟨"lon", none, none, [4]⟩, ⟨"lat", none, none, [4]⟩, ⟨"u", some "speed", none, [4]⟩,
       ⟨"t", none, none, []⟩, ⟨"w", none, some "face", [7]⟩] =
      .ok [("u", "speed", "node"), ("w", "w", "face")] := by
  decide +kernel

/-! ## C86: saving -/

/-- C86: a dataset is written in the format asked for. -/
def C86_statement : Prop :=
  ∀ (W : Type) (w : W) (write : W → String → Except Err W) (format : String),
    format = "netcdf3" ∨ format = "netcdf4" → Dataset.save (.ok w) write format = write w format

/-- The code is wrong: netCDF 3 is accepted, and netCDF 4 is written. -/
theorem C86_refuted : ¬ C86_statement := by
  intro h
  have := h Unit () (fun _ f => if f = "netcdf4" then .ok () else .error .valueError) "netcdf3"
    (Or.inl rfl)
  revert this
  decide

/-- C86 for netCDF 4; netCDF 3 is missing, see `C86_refuted`. -/
theorem C86_partial {W : Type} (w : W) (write : W → String → Except Err W) :
    Dataset.save (.ok w) write "netcdf4" = write w "netcdf4" := rfl

/-- Other formats are refused before anything is written. -/
theorem C86_other {W : Type} (w : Except Err W) (write : W → String → Except Err W)
    (format : String) (h3 : format ≠ "netcdf3") (h4 : format ≠ "netcdf4") :
    Dataset.save w write format = .error .valueError := by
  unfold Dataset.save
  simp [h3, h4]

example : Dataset.save (W := Nat) (.ok 1) (fun w _ => .ok (w + 1)) "netcdf4" = .ok 2 := rfl

end Verif
