import Verif.Lemmas.UIO
import Mathlib.Algebra.Field.Rat
import Mathlib.Algebra.Order.Ring.Rat

/-!
# C182: the coordinates of a mesh, whoever wrote the file
-/

set_option autoImplicit false

namespace Verif
open UIO

section
variable {K : Type}

/-- A variable that describes a mesh. -/
def MeshVar (v : UIO.Var K) : Prop :=
  v.cfRole = some "mesh_topology" ∧ (v.topologyDimension = some 1 ∨ v.topologyDimension = some 2)

/-- The variable is the only mesh of the file. -/
def OnlyMesh (nc : NC K) (mesh : UIO.Var K) : Prop :=
  ∃ name before after, nc = before ++ (name, mesh) :: after ∧ MeshVar mesh ∧
    ∀ x ∈ before ++ after, ¬ MeshVar x.2

/-- Names of variables and of attributes are used once. -/
def Distinct (nc : NC K) : Prop :=
  (nc.map Prod.fst).Nodup ∧ ∀ x ∈ nc, (x.2.refs.map Prod.fst).Nodup

/-- Standard names and units of longitudes and of latitudes in the CF conventions. -/
def LonVar (v : UIO.Var K) : Prop :=
  v.standardName = some "longitude" ∨ v.standardName = some "projection_x_coordinate" ∨
  v.standardName = none ∧ ∃ u, v.units = some u ∧
    u ∈ ["degrees_east", "degree_east", "degree_E", "degrees_E", "degreeE", "degreesE"]

def LatVar (v : UIO.Var K) : Prop :=
  v.standardName = some "latitude" ∨ v.standardName = some "projection_y_coordinate" ∨
  v.standardName = none ∧ ∃ u, v.units = some u ∧
    u ∈ ["degrees_north", "degree_north", "degree_N", "degrees_N", "degreeN", "degreesN"]

/-- The variables of the file with these names, in this order. -/
def Named (nc : NC K) (names : List Name) (vars : List (UIO.Var K)) : Prop :=
  List.Forall₂ (fun n v => (n, v) ∈ nc) names vars

/-- A column of `n` rows filled with these numbers; a single number fills it all. -/
def Fills (n : Nat) (vals col : List K) : Prop :=
  vals.length = n ∧ col = vals ∨ ∃ x, vals = [x] ∧ col = List.replicate n x

/-- The column of the last of the variables that are of this kind; without any, what happens to be in
memory. -/
def LastOf (kind : UIO.Var K → Prop) (vars : List (UIO.Var K)) (n : Nat) (mem col : List K) : Prop :=
  (∃ pre v post, vars = pre ++ v :: post ∧ kind v ∧ (∀ w ∈ post, ¬ kind w) ∧ Fills n v.values col) ∨
    (∀ w ∈ vars, ¬ kind w) ∧ col = mem

/-- The coordinates of a place: longitudes and latitudes that the mesh names for it, as many as the first
variable has; nothing if it names none. -/
def CoordsAt (mem : Loc → Nat → K × K) (nc : NC K) (mesh : UIO.Var K) (l : Loc) :
    Option (List (K × K)) → Prop
  | none => ∀ names, (Role.coordinates l, names) ∉ mesh.refs
  | some cs => ∃ names v vars, (Role.coordinates l, names) ∈ mesh.refs ∧ Named nc names (v :: vars) ∧
      cs.length = v.values.length ∧
      (∀ w ∈ v :: vars, (LonVar w ∨ LatVar w) ∧ (w.values.length = cs.length ∨ w.values.length = 1)) ∧
      LastOf LonVar (v :: vars) cs.length ((List.range cs.length).map fun i => (mem l i).1) (cs.map Prod.fst) ∧
      LastOf LatVar (v :: vars) cs.length ((List.range cs.length).map fun i => (mem l i).2) (cs.map Prod.snd)

private theorem isMesh_iff (v : UIO.Var K) : isMesh v = true ↔ MeshVar v := by
  unfold isMesh MeshVar
  rcases v.cfRole with _ | r
  · simp
  · by_cases h : r = "mesh_topology"
    · rcases v.topologyDimension with _ | d <;> simp [h]
    · simp [h]

private theorem only_filter (nc : NC K) (mesh : UIO.Var K) :
    OnlyMesh nc mesh ↔ ∃ name, nc.filter (fun p => isMesh p.2) = [(name, mesh)] := by
  constructor
  · rintro ⟨name, before, after, rfl, hm, ho⟩
    refine ⟨name, ?_⟩
    have h : ∀ l : NC K, (∀ x ∈ l, ¬ MeshVar x.2) → l.filter (fun p => isMesh p.2) = [] := by
      intro l hl
      rw [List.filter_eq_nil_iff]
      intro x hx
      rw [isMesh_iff]
      exact hl x hx
    rw [List.filter_append, List.filter_cons_of_pos (by rw [isMesh_iff]; exact hm),
      h before (fun x hx => ho x (List.mem_append_left _ hx)),
      h after (fun x hx => ho x (List.mem_append_right _ hx))]
    rfl
  · rintro ⟨name, h⟩
    rw [List.filter_eq_cons_iff] at h
    obtain ⟨b, a, rfl, hb, hm, ha⟩ := h
    refine ⟨name, b, a, rfl, (isMesh_iff _).1 hm, ?_⟩
    intro x hx
    rw [← isMesh_iff]
    rcases List.mem_append.1 hx with hx | hx
    · exact hb x hx
    · exact List.filter_eq_nil_iff.1 ha x hx

private theorem lookup_iff {α β : Type} [DecidableEq α] {d : List (α × β)} (hd : (d.map Prod.fst).Nodup)
    (k : α) (v : β) : Cache.lookup d k = some v ↔ (k, v) ∈ d := by
  induction d with
  | nil => simp [Cache.lookup]
  | cons a t ih =>
    obtain ⟨k', v'⟩ := a
    simp only [List.map_cons, List.nodup_cons] at hd
    unfold Cache.lookup
    by_cases h : k' = k
    · subst h
      simp only [if_true, Option.some.injEq, List.mem_cons, Prod.mk.injEq, true_and]
      constructor
      · rintro rfl; exact Or.inl rfl
      · rintro (rfl | h)
        · rfl
        · exact absurd (List.mem_map_of_mem h) hd.1
    · rw [if_neg h, ih hd.2]
      simp [Ne.symm h]

private theorem lookup_not {α β : Type} [DecidableEq α] {d : List (α × β)} (hd : (d.map Prod.fst).Nodup)
    (k : α) : Cache.lookup d k = none ↔ ∀ v, (k, v) ∉ d := by
  constructor
  · intro h v hv
    rw [(lookup_iff hd k v).2 hv] at h
    cases h
  · intro h
    cases e : Cache.lookup d k with
    | none => rfl
    | some v => exact absurd ((lookup_iff hd k v).1 e) (h v)

private theorem getVars_iff {nc : NC K} (hd : (nc.map Prod.fst).Nodup) (names : List Name)
    (vars : List (UIO.Var K)) : getVars nc names = some vars ↔ Named nc names vars := by
  unfold Named
  induction names generalizing vars with
  | nil => simp [getVars, eq_comm]
  | cons n ns ih =>
    unfold getVars
    constructor
    · intro h
      split at h
      · rename_i v vs h1 h2
        cases h
        exact List.Forall₂.cons ((lookup_iff hd n v).1 h1) ((ih vs).1 h2)
      · cases h
    · rintro (_ | ⟨h1, h2⟩)
      rw [(lookup_iff hd n _).2 h1, (ih _).2 h2]

private theorem axis_lon (v : UIO.Var K) : axisOf v = .ok 0 ↔ LonVar v := by
  unfold axisOf LonVar
  rcases hs : v.standardName with _ | s
  · rcases hu : v.units with _ | u
    · simp
    · by_cases h1 : u ∈ ["degrees_east", "degree_east", "degree_E", "degrees_E", "degreeE", "degreesE"]
      · simp only [h1, if_true]; simpa using h1
      · by_cases h2 : u ∈ ["degrees_north", "degree_north", "degree_N", "degrees_N", "degreeN", "degreesN"]
        · simp only [h1, h2, if_true, if_false]; simpa using h1
        · simp only [h1, h2, if_false]; simpa using h1
  · by_cases h1 : s ∈ ["latitude", "projection_y_coordinate"]
    · simp only [h1, if_true]
      simp only [List.mem_cons, List.not_mem_nil, or_false] at h1
      rcases h1 with rfl | rfl <;> simp
    · by_cases h2 : s ∈ ["longitude", "projection_x_coordinate"]
      · simp only [h1, h2, if_true, if_false]
        simpa using h2
      · simp only [h1, h2, if_false]
        simpa using h2

private theorem axis_lat (v : UIO.Var K) : axisOf v = .ok 1 ↔ LatVar v := by
  unfold axisOf LatVar
  rcases hs : v.standardName with _ | s
  · rcases hu : v.units with _ | u
    · simp
    · by_cases h1 : u ∈ ["degrees_east", "degree_east", "degree_E", "degrees_E", "degreeE", "degreesE"]
      · simp only [h1, if_true]
        simp only [List.mem_cons, List.not_mem_nil, or_false] at h1
        rcases h1 with rfl | rfl | rfl | rfl | rfl | rfl <;> simp
      · by_cases h2 : u ∈ ["degrees_north", "degree_north", "degree_N", "degrees_N", "degreeN", "degreesN"]
        · simp only [h1, h2, if_true, if_false]; simpa using h2
        · simp only [h1, h2, if_false]; simpa using h2
  · by_cases h1 : s ∈ ["latitude", "projection_y_coordinate"]
    · simp only [h1, if_true]
      simpa using h1
    · by_cases h2 : s ∈ ["longitude", "projection_x_coordinate"]
      · simp only [h1, h2, if_true, if_false]
        simpa using h1
      · simp only [h1, h2, if_false]
        simpa using h1

private theorem axis_cases (v : UIO.Var K) :
    axisOf v = .ok 0 ∨ axisOf v = .ok 1 ∨ axisOf v = .error .valueError := by
  unfold axisOf
  rcases v.standardName with _ | s
  · rcases v.units with _ | u
    · simp
    · by_cases h1 : u ∈ ["degrees_east", "degree_east", "degree_E", "degrees_E", "degreeE", "degreesE"]
      · simp [h1]
      · by_cases h2 : u ∈ ["degrees_north", "degree_north", "degree_N", "degrees_N", "degreeN", "degreesN"]
        · simp [h1, h2]
        · simp only [h1, h2, if_false]; simp
  · by_cases h1 : s ∈ ["latitude", "projection_y_coordinate"]
    · simp [h1]
    · by_cases h2 : s ∈ ["longitude", "projection_x_coordinate"]
      · simp [h1, h2]
      · simp only [h1, h2, if_false]; simp

/-- No variable is both. -/
theorem lon_not_lat (v : UIO.Var K) (h : LonVar v) : ¬ LatVar v := by
  rw [← axis_lon] at h
  rw [← axis_lat, h]
  simp

theorem spread_iff (n : Nat) (vals col : List K) : spread n vals = .ok col ↔ Fills n vals col := by
  unfold spread Fills
  by_cases h : vals.length = n
  · rw [if_pos h]
    simp only [Except.ok.injEq, h, true_and]
    constructor
    · rintro rfl; exact Or.inl rfl
    · rintro (rfl | ⟨x, rfl, rfl⟩)
      · rfl
      · simp only [List.length_singleton] at h
        subst h
        rfl
  · rw [if_neg h]
    simp only [h, false_and, false_or]
    match vals with
    | [] => simp
    | [x] => simp [eq_comm]
    | _ :: _ :: _ => simp

theorem spread_ok (n : Nat) (vals : List K) :
    (∃ col, spread n vals = .ok col) ↔ vals.length = n ∨ vals.length = 1 := by
  unfold spread
  by_cases h : vals.length = n
  · simp [h]
  · rw [if_neg h]
    match vals with
    | [] => simpa using h
    | [x] => simp
    | _ :: _ :: _ => simpa using h

theorem fills_length {n : Nat} {vals col : List K} (h : Fills n vals col) : col.length = n := by
  rcases h with ⟨h, rfl⟩ | ⟨x, -, rfl⟩
  · exact h
  · simp

private theorem last_cons {kind : UIO.Var K → Prop} {v : UIO.Var K} {vs : List (UIO.Var K)} {n : Nat}
    {mem c col : List K} (hv : kind v) (hc : Fills n v.values c) :
    LastOf kind (v :: vs) n mem col ↔ LastOf kind vs n c col := by
  unfold LastOf
  constructor
  · rintro (⟨pre, w, post, h1, h2, h3, h4⟩ | ⟨h, -⟩)
    · cases pre with
      | nil =>
        cases h1
        right
        refine ⟨h3, ?_⟩
        have a := (spread_iff n _ _).2 hc
        rw [(spread_iff n _ _).2 h4] at a
        exact Except.ok.inj a
      | cons p pre =>
        cases h1
        exact Or.inl ⟨pre, w, post, rfl, h2, h3, h4⟩
    · exact absurd hv (h v List.mem_cons_self)
  · rintro (⟨pre, w, post, rfl, h2, h3, h4⟩ | ⟨h, rfl⟩)
    · exact Or.inl ⟨v :: pre, w, post, rfl, h2, h3, h4⟩
    · exact Or.inl ⟨[], v, vs, rfl, hv, h, hc⟩

private theorem last_skip {kind : UIO.Var K → Prop} {v : UIO.Var K} {vs : List (UIO.Var K)} {n : Nat}
    {mem col : List K} (hv : ¬ kind v) : LastOf kind (v :: vs) n mem col ↔ LastOf kind vs n mem col := by
  unfold LastOf
  constructor
  · rintro (⟨pre, w, post, h1, h2, h3, h4⟩ | ⟨h, e⟩)
    · cases pre with
      | nil =>
        cases h1
        exact absurd h2 hv
      | cons p pre =>
        cases h1
        exact Or.inl ⟨pre, w, post, rfl, h2, h3, h4⟩
    · exact Or.inr ⟨fun w hw => h w (List.mem_cons_of_mem _ hw), e⟩
  · rintro (⟨pre, w, post, rfl, h2, h3, h4⟩ | ⟨h, e⟩)
    · exact Or.inl ⟨v :: pre, w, post, rfl, h2, h3, h4⟩
    · refine Or.inr ⟨?_, e⟩
      intro w hw
      rcases List.mem_cons.1 hw with rfl | hw
      · exact hv
      · exact h w hw

private theorem fillCols_iff (n : Nat) (vs : List (UIO.Var K)) : ∀ (x y x' y' : List K),
    fillCols n vs (x, y) = .ok (x', y') ↔
      (∀ v ∈ vs, (LonVar v ∨ LatVar v) ∧ (v.values.length = n ∨ v.values.length = 1)) ∧
      LastOf LonVar vs n x x' ∧ LastOf LatVar vs n y y' := by
  induction vs with
  | nil =>
    intro x y x' y'
    simp [fillCols, LastOf, eq_comm]
  | cons v vs ih =>
    intro x y x' y'
    unfold fillCols
    rcases axis_cases v with ha | ha | ha
    · have hlon := (axis_lon v).1 ha
      rw [ha]
      simp only
      cases hs : spread n v.values with
      | error e =>
        simp only [reduceCtorEq, List.forall_mem_cons, false_iff]
        rintro ⟨⟨⟨-, h⟩, -⟩, -⟩
        obtain ⟨c, hc⟩ := (spread_ok n v.values).2 h
        rw [hs] at hc
        cases hc
      | ok c =>
        have hf := (spread_iff n _ _).1 hs
        simp only [Nat.zero_ne_one, if_false]
        rw [ih, last_cons hlon hf, last_skip (lon_not_lat v hlon), List.forall_mem_cons]
        have := (spread_ok n v.values).1 ⟨c, hs⟩
        simp [hlon, this]
    · have hlat := (axis_lat v).1 ha
      rw [ha]
      simp only
      cases hs : spread n v.values with
      | error e =>
        simp only [reduceCtorEq, List.forall_mem_cons, false_iff]
        rintro ⟨⟨⟨-, h⟩, -⟩, -⟩
        obtain ⟨c, hc⟩ := (spread_ok n v.values).2 h
        rw [hs] at hc
        cases hc
      | ok c =>
        have hf := (spread_iff n _ _).1 hs
        simp only [if_true]
        rw [ih, last_cons hlat hf, last_skip (fun q => lon_not_lat v q hlat), List.forall_mem_cons]
        have := (spread_ok n v.values).1 ⟨c, hs⟩
        simp [hlat, this]
    · rw [ha]
      simp only [reduceCtorEq, List.forall_mem_cons, false_iff]
      rintro ⟨⟨⟨h | h, -⟩, -⟩, -⟩
      · rw [← axis_lon, ha] at h; cases h
      · rw [← axis_lat, ha] at h; cases h

private theorem last_length {kind : UIO.Var K → Prop} {vs : List (UIO.Var K)} {n : Nat} {mem col : List K}
    (hm : mem.length = n) (h : LastOf kind vs n mem col) : col.length = n := by
  rcases h with ⟨_, _, _, _, _, _, h⟩ | ⟨-, rfl⟩
  · exact fills_length h
  · exact hm

private theorem readCoords_iff {mem : Loc → Nat → K × K} {nc : NC K} {mesh : UIO.Var K}
    (hd : (nc.map Prod.fst).Nodup) (hm : (mesh.refs.map Prod.fst).Nodup) {l : Loc}
    {c : Option (List (K × K))} :
    readCoords mem nc mesh l = .ok c ↔ CoordsAt mem nc mesh l c ∧ (l = .node → c ≠ none) := by
  unfold readCoords
  cases hn : Cache.lookup mesh.refs (.coordinates l) with
  | none =>
    have h0 := (lookup_not hm _).1 hn
    simp only
    by_cases hl : l = .node
    · rw [if_pos hl]
      simp only [reduceCtorEq, hl, forall_const, false_iff, not_and, not_not]
      intro h
      cases c with
      | none => rfl
      | some cs =>
        obtain ⟨names, v, vars, h, -⟩ := h
        subst hl
        exact absurd h (h0 names)
    · rw [if_neg hl]
      constructor
      · intro h
        cases h
        exact ⟨h0, fun q => absurd q hl⟩
      · rintro ⟨h, -⟩
        cases c with
        | none => rfl
        | some cs =>
          obtain ⟨names, v, vars, h, -⟩ := h
          exact absurd h (h0 names)
  | some names =>
    have hmem := (lookup_iff hm _ _).1 hn
    have huniq : ∀ names', (Role.coordinates l, names') ∈ mesh.refs → names' = names := by
      intro names' h
      have := (lookup_iff hm _ _).2 h
      rw [hn] at this
      exact (Option.some.inj this).symm
    simp only
    have nope : c = none → CoordsAt mem nc mesh l c → False := by
      rintro rfl h
      exact h names hmem
    cases hv : getVars nc names with
    | none =>
      simp only [reduceCtorEq, false_iff, not_and]
      intro h
      cases c with
      | none => exact absurd h (nope rfl)
      | some cs =>
        obtain ⟨names', v, vars, h1, h2, -⟩ := h
        obtain rfl := huniq _ h1
        rw [(getVars_iff hd _ _).2 h2] at hv
        cases hv
    | some vs =>
      cases vs with
      | nil =>
        simp only [reduceCtorEq, false_iff, not_and]
        intro h
        cases c with
        | none => exact absurd h (nope rfl)
        | some cs =>
          obtain ⟨names', v, vars, h1, h2, -⟩ := h
          obtain rfl := huniq _ h1
          rw [(getVars_iff hd _ _).2 h2] at hv
          cases hv
      | cons v vs =>
        simp only
        constructor
        · intro h
          split at h
          · cases h
          · rename_i x y hf
            cases h
            obtain ⟨h1, h2, h3⟩ := (fillCols_iff _ _ _ _ _ _).1 hf
            have lx := last_length (by simp) h2
            have ly := last_length (by simp) h3
            have lz : (x.zip y).length = v.values.length := by simp [lx, ly]
            refine ⟨⟨names, v, vs, hmem, (getVars_iff hd _ _).1 hv, lz, ?_, ?_, ?_⟩, by simp⟩
            · rw [lz]; exact h1
            · rw [lz, List.map_fst_zip (by omega)]; exact h2
            · rw [lz, List.map_snd_zip (by omega)]; exact h3
        · rintro ⟨h, -⟩
          cases c with
          | none => exact absurd h (nope rfl)
          | some cs =>
            obtain ⟨names', v', vars, h1, h2, h3, h4, h5, h6⟩ := h
            obtain rfl := huniq _ h1
            have e := (getVars_iff hd _ _).2 h2
            rw [hv] at e
            cases e
            rw [← h3, (fillCols_iff _ _ _ _ _ _).2 ⟨h4, h5, h6⟩]
            simp only [zip_fst_snd]

/-- The coordinates of all places of a grid. -/
def CoordsOf (mem : Loc → Nat → K × K) (nc : NC K) (mesh : UIO.Var K) (g : UGrid K) : Prop :=
  CoordsAt mem nc mesh .node (some g.nodes) ∧ CoordsAt mem nc mesh .face g.faceCoords ∧
    CoordsAt mem nc mesh .edge g.edgeCoords ∧ CoordsAt mem nc mesh .boundary g.boundaryCoords

private theorem loadMesh_sound {mem : Loc → Nat → K × K} {nc : NC K} {mesh : UIO.Var K} {g : UGrid K}
    (hd : (nc.map Prod.fst).Nodup) (hr : (mesh.refs.map Prod.fst).Nodup) (h : loadMesh mem nc mesh = .ok g) :
    CoordsOf mem nc mesh g := by
  unfold loadMesh at h
  split at h
  · cases h
  · cases h
  · rename_i nodes hn
    split at h
    · rename_i fc ec bc h1 h2 h3
      have key : g.nodes = nodes ∧ g.faceCoords = fc ∧ g.edgeCoords = ec ∧ g.boundaryCoords = bc := by
        simp only at h
        split at h
        · split at h
          · cases h
          · split at h
            · cases h
            · cases h
              exact ⟨rfl, rfl, rfl, rfl⟩
        all_goals cases h
      obtain ⟨k1, k2, k3, k4⟩ := key
      unfold CoordsOf
      rw [k1, k2, k3, k4]
      exact ⟨((readCoords_iff hd hr).1 hn).1, ((readCoords_iff hd hr).1 h1).1, ((readCoords_iff hd hr).1 h2).1,
        ((readCoords_iff hd hr).1 h3).1⟩
    all_goals cases h

/-- C182. Whatever is loaded comes from the only mesh of the file, and the coordinates of nodes, faces,
edges and boundaries are those that the mesh names for them; nodes always have coordinates. -/
theorem C182_loaded (mem : Loc → Nat → K × K) (nc : NC K) (hd : Distinct nc) (g : UGrid K)
    (h : load mem nc = .ok g) : ∃ mesh, OnlyMesh nc mesh ∧ CoordsOf mem nc mesh g := by
  unfold load at h
  split at h
  · rename_i name mesh hf
    have hmem : (name, mesh) ∈ nc := List.mem_of_mem_filter (p := fun p => isMesh p.2) (by rw [hf]; simp)
    exact ⟨mesh, (only_filter nc mesh).2 ⟨name, hf⟩, loadMesh_sound hd.1 (hd.2 _ hmem) h⟩
  · cases h

private theorem loadMesh_links {mem : Loc → Nat → K × K} {nc : NC K} {mesh : UIO.Var K} {g : UGrid K}
    (h : loadMesh mem nc mesh = .ok g) (t : List (List Int)) (ht : g.faceFace = some t) :
    ∃ f, g.faces = some f ∧ t.map List.length = f.map List.length := by
  unfold loadMesh at h
  split at h
  · cases h
  · cases h
  · split at h
    · simp only at h
      split at h
      · split at h
        · cases h
        · rename_i f' hf
          split at h
          · cases h
          · rename_i hs
            cases h
            simp only at ht
            subst ht
            cases f' with
            | none => simp at hs
            | some f =>
              simp only at hs
              split_ifs at hs with hl
              exact ⟨f, rfl, hl⟩
      all_goals cases h
    all_goals cases h

/-- C182. Links between faces are loaded only with faces, and have their shape. -/
theorem C182_links (mem : Loc → Nat → K × K) (nc : NC K) (g : UGrid K)
    (h : load mem nc = .ok g ∨ ∃ name, loadNamed mem nc name = .ok g) (t : List (List Int))
    (ht : g.faceFace = some t) : ∃ f, g.faces = some f ∧ t.map List.length = f.map List.length := by
  rcases h with h | ⟨name, h⟩
  · unfold load at h
    split at h
    · exact loadMesh_links h t ht
    · cases h
  · unfold loadNamed at h
    split at h
    · cases h
    · split_ifs at h
      exact loadMesh_links h t ht

/-- C182. A mesh asked for by its name is that mesh, whatever other meshes the file has. -/
theorem C182_by_name (mem : Loc → Nat → K × K) (nc : NC K) (hd : Distinct nc) (name : Name) (g : UGrid K)
    (h : loadNamed mem nc name = .ok g) :
    ∃ mesh, (name, mesh) ∈ nc ∧ MeshVar mesh ∧ CoordsOf mem nc mesh g := by
  unfold loadNamed at h
  split at h
  · cases h
  · rename_i mesh hl
    have hmem := (lookup_iff hd.1 _ _).1 hl
    split_ifs at h with hm
    exact ⟨mesh, hmem, (isMesh_iff mesh).1 hm, loadMesh_sound hd.1 (hd.2 _ hmem) h⟩

/-- C182. A name that no mesh has is refused, ... -/
theorem C182_no_such_mesh (mem : Loc → Nat → K × K) (nc : NC K) (hd : Distinct nc) (name : Name)
    (hn : ∀ v, (name, v) ∈ nc → ¬ MeshVar v) : loadNamed mem nc name = .error .valueError := by
  unfold loadNamed
  split
  · rfl
  · rename_i mesh hl
    rw [if_neg]
    rw [isMesh_iff]
    exact hn mesh ((lookup_iff hd.1 _ _).1 hl)

/-- ... so is a file with no mesh or with several, and the name of the only mesh changes nothing. -/
theorem C182_which_mesh (mem : Loc → Nat → K × K) (nc : NC K) (hd : Distinct nc) :
    ((∀ mesh, ¬ OnlyMesh nc mesh) → load mem nc = .error .valueError) ∧
    ∀ name mesh, OnlyMesh nc mesh → (name, mesh) ∈ nc → load mem nc = loadNamed mem nc name := by
  constructor
  · intro h
    unfold load
    split
    · rename_i name mesh hf
      exact absurd ((only_filter nc mesh).2 ⟨name, hf⟩) (h mesh)
    · rfl
  · intro name mesh ho hm
    obtain ⟨name', hf⟩ := (only_filter nc mesh).1 ho
    have hmem : (name', mesh) ∈ nc.filter (fun p => isMesh p.2) := by rw [hf]; simp
    unfold load loadNamed
    rw [hf, (lookup_iff hd.1 _ _).2 hm]
    simp only
    rw [if_pos (by simpa using (List.mem_filter.1 hmem).2)]

/-- C182. A mesh that names no coordinates of its nodes is refused. -/
theorem C182_nodes_needed (mem : Loc → Nat → K × K) (nc : NC K) (hd : Distinct nc) (mesh : UIO.Var K)
    (hm : OnlyMesh nc mesh) (hn : ∀ names, (Role.coordinates .node, names) ∉ mesh.refs) :
    load mem nc = .error .valueError := by
  obtain ⟨name, hf⟩ := (only_filter nc mesh).1 hm
  have hmem : (name, mesh) ∈ nc := List.mem_of_mem_filter (p := fun p => isMesh p.2) (by rw [hf]; simp)
  have h0 := (lookup_not (hd.2 _ hmem) _).2 hn
  simp only [load, loadMesh, hf, readCoords, h0, if_true]

/-- C182. So are nodes whose coordinates are named but not in the file, or are neither longitudes nor
latitudes by their standard name or their units. -/
theorem C182_unusable (mem : Loc → Nat → K × K) (nc : NC K) (hd : Distinct nc) (mesh : UIO.Var K)
    (hm : OnlyMesh nc mesh) (names : List Name) (hn : (Role.coordinates .node, names) ∈ mesh.refs)
    (n : Name) (hnn : n ∈ names) (hb : ∀ v, (n, v) ∈ nc → ¬ LonVar v ∧ ¬ LatVar v) :
    ∃ e, load mem nc = .error e := by
  cases h : load mem nc with
  | error e => exact ⟨e, rfl⟩
  | ok g =>
    exfalso
    obtain ⟨mesh', ho, ⟨names', v0, vars, hn', hv, -, ha, -⟩, -⟩ := C182_loaded mem nc hd g h
    obtain ⟨a, f1⟩ := (only_filter nc mesh).1 hm
    obtain ⟨b, f2⟩ := (only_filter nc mesh').1 ho
    rw [f1] at f2
    cases f2
    have hmem : (a, mesh) ∈ nc := List.mem_of_mem_filter (p := fun p => isMesh p.2) (by rw [f1]; simp)
    have e1 := (lookup_iff (hd.2 _ hmem) _ _).2 hn
    have e2 := (lookup_iff (hd.2 _ hmem) _ _).2 hn'
    rw [e1] at e2
    cases e2
    obtain ⟨v, hvm, hvn⟩ : ∃ v ∈ v0 :: vars, (n, v) ∈ nc := by
      clear ha hn' hn e1
      unfold Named at hv
      generalize v0 :: vars = vs at hv
      induction hv with
      | nil => simp at hnn
      | cons h1 h2 ih =>
        rcases List.mem_cons.1 hnn with rfl | hnn
        · exact ⟨_, List.mem_cons_self, h1⟩
        · obtain ⟨v, hv, hn⟩ := ih hnn
          exact ⟨v, List.mem_cons_of_mem _ hv, hn⟩
    rcases (ha v hvm).1 with h | h
    · exact (hb v hvn).1 h
    · exact (hb v hvn).2 h

/-- C182. A mesh without tables, a set of points, is loaded with the coordinates it names. -/
theorem C182_points (mem : Loc → Nat → K × K) (nc : NC K) (hd : Distinct nc) (mesh : UIO.Var K)
    (hm : OnlyMesh nc mesh) (nodes : List (K × K)) (fc ec bc : Option (List (K × K)))
    (hn : CoordsAt mem nc mesh .node (some nodes)) (hf : CoordsAt mem nc mesh .face fc)
    (he : CoordsAt mem nc mesh .edge ec) (hb : CoordsAt mem nc mesh .boundary bc)
    (ht : ∀ r names, (r, names) ∈ mesh.refs → ∃ l, r = .coordinates l) :
    load mem nc = .ok { nodes := nodes, faceCoords := fc, edgeCoords := ec, boundaryCoords := bc } := by
  obtain ⟨name, hfil⟩ := (only_filter nc mesh).1 hm
  have hmem : (name, mesh) ∈ nc := List.mem_of_mem_filter (p := fun p => isMesh p.2) (by rw [hfil]; simp)
  have hr := hd.2 _ hmem
  have ht' : ∀ r, (∀ l, r ≠ Role.coordinates l) → Cache.lookup mesh.refs r = none := by
    intro r hr'
    rw [lookup_not hr]
    intro names hnm
    obtain ⟨l, hl⟩ := ht r names hnm
    exact hr' l hl
  simp only [load, loadMesh, hfil, (readCoords_iff hd.1 hr).2 ⟨hn, by simp⟩,
    (readCoords_iff hd.1 hr).2 ⟨hf, by simp⟩, (readCoords_iff hd.1 hr).2 ⟨he, by simp⟩,
    (readCoords_iff hd.1 hr).2 ⟨hb, by simp⟩, readTable,
    ht' .faceNode (by simp), ht' .faceFace (by simp), ht' .boundaryNode (by simp),
    ht' .edgeNode (by simp)]

/-- Two variables named for a place, a longitude and a latitude of one length in either order. -/
theorem C182_two (mem : Loc → Nat → K × K) (nc : NC K) (mesh : UIO.Var K) (l : Loc) (n1 n2 : Name)
    (v1 v2 : UIO.Var K) (h : (Role.coordinates l, [n1, n2]) ∈ mesh.refs) (h1 : (n1, v1) ∈ nc)
    (h2 : (n2, v2) ∈ nc) (hl : v1.values.length = v2.values.length) :
    (LonVar v1 → LatVar v2 → CoordsAt mem nc mesh l (some (v1.values.zip v2.values))) ∧
    (LatVar v1 → LonVar v2 → CoordsAt mem nc mesh l (some (v2.values.zip v1.values))) := by
  constructor
  · intro ha hb
    have e : (v1.values.zip v2.values).length = v1.values.length := by simp [hl]
    refine ⟨[n1, n2], v1, [v2], h, .cons h1 (.cons h2 .nil), e, ?_, Or.inl ?_, Or.inl ?_⟩
    · intro w hw
      rw [e]
      simp only [List.mem_cons, List.not_mem_nil, or_false] at hw
      rcases hw with rfl | rfl
      · exact ⟨Or.inl ha, Or.inl rfl⟩
      · exact ⟨Or.inr hb, Or.inl hl.symm⟩
    · exact ⟨[], v1, [v2], rfl, ha, by simpa using fun q => lon_not_lat v2 q hb, Or.inl ⟨e.symm, by
        rw [List.map_fst_zip (by omega)]⟩⟩
    · exact ⟨[v1], v2, [], rfl, hb, by simp, Or.inl ⟨by rw [e, hl], by rw [List.map_snd_zip (by omega)]⟩⟩
  · intro ha hb
    have e : (v2.values.zip v1.values).length = v1.values.length := by simp [hl]
    refine ⟨[n1, n2], v1, [v2], h, .cons h1 (.cons h2 .nil), e, ?_, Or.inl ?_, Or.inl ?_⟩
    · intro w hw
      rw [e]
      simp only [List.mem_cons, List.not_mem_nil, or_false] at hw
      rcases hw with rfl | rfl
      · exact ⟨Or.inr ha, Or.inl rfl⟩
      · exact ⟨Or.inl hb, Or.inl hl.symm⟩
    · exact ⟨[v1], v2, [], rfl, hb, by simp, Or.inl ⟨by rw [e, hl], by rw [List.map_fst_zip (by omega)]⟩⟩
    · exact ⟨[], v1, [v2], rfl, ha, by simpa using lon_not_lat v2 hb, Or.inl ⟨e.symm, by
        rw [List.map_snd_zip (by omega)]⟩⟩

/-- C182 as listed wants the coordinates to be those of the file, not what the memory held before. -/
def C182_statement (K : Type) : Prop :=
  ∀ (nc : NC K), Distinct nc → ∀ mem mem', load mem nc = load mem' nc

private theorem fillCols_err {n : Nat} {e : Err} (vs : List (UIO.Var K)) : ∀ (st st' : List K × List K),
    fillCols n vs st = .error e → fillCols n vs st' = .error e := by
  induction vs with
  | nil => intro st st' h; cases h
  | cons v vs ih =>
    rintro ⟨x, y⟩ ⟨x', y'⟩ h
    unfold fillCols at h ⊢
    split at h
    · exact h
    · split at h
      · exact h
      · split_ifs at h ⊢ with ha
        · exact ih _ _ h
        · exact ih _ _ h

private theorem readCoords_err {mem mem' : Loc → Nat → K × K} {nc : NC K} {mesh : UIO.Var K} {l : Loc} {e : Err}
    (h : readCoords mem nc mesh l = .error e) : readCoords mem' nc mesh l = .error e := by
  unfold readCoords at h ⊢
  split at h
  · exact h
  · split at h
    · exact h
    · exact h
    · simp only at h ⊢
      split at h
      · rename_i he
        cases h
        rw [fillCols_err _ _ _ he]
      · cases h

private theorem read_free {mem mem' : Loc → Nat → K × K} {nc : NC K} {mesh : UIO.Var K}
    (hd : (nc.map Prod.fst).Nodup) (hm : (mesh.refs.map Prod.fst).Nodup) (l : Loc)
    (h : ∀ names vars, (Role.coordinates l, names) ∈ mesh.refs → Named nc names vars →
      (∃ v ∈ vars, LonVar v) ∧ ∃ v ∈ vars, LatVar v) :
    readCoords mem nc mesh l = readCoords mem' nc mesh l := by
  cases hr : readCoords mem nc mesh l with
  | error e => exact (readCoords_err hr).symm
  | ok c =>
    obtain ⟨hc, hs⟩ := (readCoords_iff hd hm).1 hr
    refine ((readCoords_iff hd hm).2 ⟨?_, hs⟩).symm
    cases c with
    | none => exact hc
    | some cs =>
      obtain ⟨names, v, vars, h1, h2, h3, h4, h5, h6⟩ := hc
      obtain ⟨⟨a, ha, ha'⟩, ⟨b, hb, hb'⟩⟩ := h names _ h1 h2
      refine ⟨names, v, vars, h1, h2, h3, h4, ?_, ?_⟩
      · rcases h5 with h5 | ⟨q, -⟩
        · exact Or.inl h5
        · exact absurd ha' (q a ha)
      · rcases h6 with h6 | ⟨q, -⟩
        · exact Or.inl h6
        · exact absurd hb' (q b hb)

/-- C182, except for meshes that name only longitudes or only latitudes for a place: the grid is made
of what is in the file. -/
theorem C182_file_only_partial (nc : NC K) (hd : Distinct nc)
    (h : ∀ mesh, OnlyMesh nc mesh → ∀ l names vars, (Role.coordinates l, names) ∈ mesh.refs →
      Named nc names vars → (∃ v ∈ vars, LonVar v) ∧ ∃ v ∈ vars, LatVar v) :
    ∀ mem mem', load mem nc = load mem' nc := by
  intro mem mem'
  unfold load
  split
  · rename_i name mesh hf
    have hmem : (name, mesh) ∈ nc := List.mem_of_mem_filter (p := fun p => isMesh p.2) (by rw [hf]; simp)
    have hr := fun l => read_free (mem := mem) (mem' := mem') hd.1 (hd.2 _ hmem) l
      (h mesh ((only_filter nc mesh).2 ⟨name, hf⟩) l)
    unfold loadMesh
    rw [hr, hr, hr, hr]
  · rfl

end

/-- A mesh of one dimension. -/
def exLine : UIO.Var ℚ :=
  { cfRole := some "mesh_topology", topologyDimension := some 1,
    refs := [(.coordinates .node, [.other 1, .other 2])] }

/-- Its latitudes, and its longitudes known by their units. -/
def exLats : UIO.Var ℚ := { standardName := some "latitude", values := [10, 11] }

def exLons : UIO.Var ℚ := { units := some "degree_E", values := [20, 21] }

/-- The latitude is named first. -/
example (mem : Loc → Nat → ℚ × ℚ) : load mem [(.other 0, exLine), (.other 1, exLats), (.other 2, exLons)] =
    .ok { nodes := [(20, 10), (21, 11)] } := by
  refine C182_points mem _ ⟨by decide, by decide⟩ exLine ⟨_, [], _, rfl, ⟨rfl, Or.inl rfl⟩, ?_⟩ _ none none none
    ((C182_two mem _ exLine .node (.other 1) (.other 2) exLats exLons (by simp [exLine]) (by simp) (by simp)
      rfl).2 (Or.inl rfl) (Or.inr (Or.inr ⟨rfl, _, rfl, by decide⟩)))
    (by simp [CoordsAt, exLine]) (by simp [CoordsAt, exLine]) (by simp [CoordsAt, exLine]) ?_
  · simp [MeshVar, exLats, exLons]
  · intro r names h
    simp only [exLine, List.mem_singleton, Prod.mk.injEq] at h
    exact ⟨_, h.1⟩

/-- Without the longitudes in the file it is refused. -/
example (mem : Loc → Nat → ℚ × ℚ) : ∃ e, load mem [(.other 0, exLine), (.other 1, exLats)] = .error e :=
  C182_unusable mem _ ⟨by decide, by decide⟩ exLine
    ⟨_, [], _, rfl, ⟨rfl, Or.inl rfl⟩, by simp [MeshVar, exLats]⟩ [.other 1, .other 2] (by simp [exLine])
    (.other 2) (by simp) (by simp)

/-- A single latitude is that of every node. -/
def exOneLat : UIO.Var ℚ := { standardName := some "latitude", values := [10] }

/-- The same mesh with the longitudes named first. -/
def exLine' : UIO.Var ℚ := { exLine with refs := [(.coordinates .node, [.other 2, .other 1])] }

example (mem : Loc → Nat → ℚ × ℚ) :
    load mem [(.other 0, exLine'), (.other 1, exOneLat), (.other 2, exLons)] =
      .ok { nodes := [(20, 10), (21, 10)] } := by
  refine C182_points mem _ ⟨by decide, by decide⟩ exLine' ⟨_, [], _, rfl, ⟨rfl, Or.inl rfl⟩, ?_⟩ _ none none none
    ⟨[.other 2, .other 1], exLons, [exOneLat], by simp [exLine'], .cons (by simp) (.cons (by simp) .nil), rfl, ?_,
      Or.inl ⟨[], exLons, [exOneLat], rfl, Or.inr (Or.inr ⟨rfl, _, rfl, by decide⟩),
        by simpa using fun h => lon_not_lat exOneLat h (Or.inl rfl), Or.inl ⟨rfl, rfl⟩⟩,
      Or.inl ⟨[exLons], exOneLat, [], rfl, Or.inl rfl, by simp, Or.inr ⟨10, rfl, rfl⟩⟩⟩
    (by simp [CoordsAt, exLine']) (by simp [CoordsAt, exLine']) (by simp [CoordsAt, exLine']) ?_
  · simp [MeshVar, exOneLat, exLons]
  · intro w hw
    simp only [List.mem_cons, List.not_mem_nil, or_false] at hw
    rcases hw with rfl | rfl
    · exact ⟨Or.inl (Or.inr (Or.inr ⟨rfl, _, rfl, by decide⟩)), Or.inl rfl⟩
    · exact ⟨Or.inr (Or.inl rfl), Or.inr rfl⟩
  · intro r names h
    simp only [exLine', List.mem_singleton, Prod.mk.injEq] at h
    exact ⟨_, h.1⟩

/-- A mesh that names only its longitudes. -/
def exLonOnly : UIO.Var ℚ := { exLine with refs := [(.coordinates .node, [.other 2])] }

/-- C182 does not hold: a mesh that names only longitudes is loaded, with latitudes that are whatever
the memory held. -/
theorem C182_refuted : ¬ C182_statement ℚ := by
  intro h
  have e := h [(.other 0, exLonOnly), (.other 2, exLons)] ⟨by decide, by decide⟩
    (fun _ _ => (0, 0)) (fun _ _ => (0, 1))
  have key : ∀ (y : ℚ), load (fun _ _ => (0, y)) [(.other 0, exLonOnly), (.other 2, exLons)] =
      .ok { nodes := [(20, y), (21, y)] } := by
    intro y
    refine C182_points _ _ ⟨by decide, by decide⟩ exLonOnly ⟨_, [], _, rfl, ⟨rfl, Or.inl rfl⟩, ?_⟩ _ none none
      none ⟨[.other 2], exLons, [], by simp [exLonOnly], .cons (by simp) .nil, rfl, ?_,
        Or.inl ⟨[], exLons, [], rfl, Or.inr (Or.inr ⟨rfl, _, rfl, by decide⟩), by simp, Or.inl ⟨rfl, rfl⟩⟩,
        Or.inr ⟨by simpa using lon_not_lat exLons (Or.inr (Or.inr ⟨rfl, _, rfl, by decide⟩)), rfl⟩⟩
      (by simp [CoordsAt, exLonOnly]) (by simp [CoordsAt, exLonOnly]) (by simp [CoordsAt, exLonOnly]) ?_
    · simp [MeshVar, exLons]
    · intro w hw
      simp only [List.mem_cons, List.not_mem_nil, or_false] at hw
      subst hw
      exact ⟨Or.inl (Or.inr (Or.inr ⟨rfl, _, rfl, by decide⟩)), Or.inl rfl⟩
    · intro r names h
      simp only [exLonOnly, List.mem_singleton, Prod.mk.injEq] at h
      exact ⟨_, h.1⟩
  rw [key, key] at e
  simp at e

/-- Two meshes in one file: it is refused without a name, and each is found by its name. -/
example (mem : Loc → Nat → ℚ × ℚ) :
    load mem [(.other 0, exLine), (.other 1, exLats), (.other 2, exLons), (.other 3, exLine')] =
      .error .valueError ∧
    loadNamed mem [(.other 0, exLine), (.other 1, exLats), (.other 2, exLons), (.other 3, exLine')] (.other 3) =
      .ok { nodes := [(20, 10), (21, 11)] } ∧
    loadNamed mem [(.other 0, exLine), (.other 1, exLats), (.other 2, exLons), (.other 3, exLine')] (.other 1) =
      .error .valueError := by
  refine ⟨rfl, rfl, C182_no_such_mesh mem _ ⟨by decide, by decide⟩ _ ?_⟩
  simp [MeshVar, exLats]

/-- Two triangles with their links. -/
def exLinked : NC ℚ :=
  [(.other 0, { cfRole := some "mesh_topology", topologyDimension := some 2,
                refs := [(.coordinates .node, [.other 1, .other 2]), (.faceNode, [.other 3]),
                  (.faceFace, [.other 4])] }),
   (.other 1, { standardName := some "latitude", values := [10, 11, 11, 10] }),
   (.other 2, { standardName := some "longitude", values := [20, 20, 21, 21] }),
   (.other 3, { startIndex := some 0, table := [[0, 1, 2], [0, 2, 3]] }),
   (.other 4, { startIndex := some 0, table := [[-1, -1, 1], [0, -1, -1]] })]

/-- They are loaded with it; without the faces the mesh is refused. -/
example : (∃ g, load (fun _ _ => (0, 0)) exLinked = .ok g ∧ g.faces = some [[0, 1, 2], [0, 2, 3]] ∧
      g.faceFace = some [[-1, -1, 1], [0, -1, -1]]) ∧
    load (fun _ _ => (0, 0)) (exLinked.eraseIdx 3) = .error .typeError :=
  ⟨⟨_, rfl, rfl, rfl⟩, rfl⟩

end Verif
