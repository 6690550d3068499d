import Verif.Props.UIO

/-!
# C188: what a saved unstructured grid says about its own variables
-/

set_option autoImplicit false

namespace Verif
open UIO

section
variable {K : Type}

/-- The file has a variable of this name. -/
def WrittenAs (nc : NC K) (n : Name) : Prop := ∃ v, (n, v) ∈ nc

/-- The mesh variable names this variable, in the attribute `r`. -/
def RefersTo (m : Var K) (r : Role) (n : Name) : Prop := ∃ ns, (r, ns) ∈ m.refs ∧ n ∈ ns

/-- C188 as listed: the variables named are those of the file. -/
def C188_statement (K : Type) : Prop :=
  ∀ (g : UGrid K) (nc : NC K) (m : Var K), save g = .ok nc → (Name.mesh, m) ∈ nc →
    ∀ n, n ≠ .mesh → ((∃ r, RefersTo m r n) ↔ WrittenAs nc n)

/-- One triangle that knows its neighbours. -/
def linkedGrid : UGrid ℚ where
  nodes := [(0, 0), (1, 0), (0, 1)]
  faces := some [[0, 1, 2]]
  faceFace := some [[-1, -1, -1]]

/-- A boundary segment with its middle. -/
def boundaryGrid : UGrid ℚ where
  nodes := [(0, 0), (1, 0)]
  boundaries := some [[0, 1]]
  boundaryCoords := some [(1 / 2, 0)]

/-- C188 is false: a table of neighbours is named and not written, ... -/
theorem C188_refuted : ¬ C188_statement ℚ := by
  intro h
  obtain ⟨v, hv⟩ := (h linkedGrid _ _ rfl List.mem_cons_self .faceLinks (by decide)).1
    ⟨.faceFace, [.faceLinks], by simp [meshVar, linkedGrid], by simp⟩
  simp [tableVar, coordVars, linkedGrid] at hv

/-- ... and coordinates of boundaries are written and not named. -/
theorem C188_refuted_boundary : ∃ (g : UGrid ℚ) (nc : NC ℚ) (m : Var ℚ), save g = .ok nc ∧
    (Name.mesh, m) ∈ nc ∧ WrittenAs nc (.lon .boundary) ∧ ∀ r, ¬ RefersTo m r (.lon .boundary) := by
  refine ⟨boundaryGrid, _, _, rfl, List.mem_cons_self, ⟨lonVar [(1 / 2, 0)], ?_⟩, ?_⟩
  · simp [tableVar, coordVars, lonVar, boundaryGrid]
  · rintro r ⟨ns, h, hn⟩
    simp [meshVar, boundaryGrid] at h
    rcases h with ⟨-, rfl⟩ | ⟨-, rfl⟩ <;> simp at hn

private theorem optCoords_inv {l : Loc} {t : Option (List (List Int))} {cs : Option (List (K × K))} {x : NC K}
    (h : optCoords l (t.map List.length) cs = .ok x) : x = optC l cs ∧ (cs ≠ none → t ≠ none) := by
  cases cs with
  | none => cases h; exact ⟨rfl, fun h => absurd rfl h⟩
  | some c =>
    cases t with
    | none => cases h
    | some t =>
      simp only [optCoords, Option.map_some] at h
      split at h
      · cases h; exact ⟨rfl, by simp⟩
      · cases h

private theorem save_inv {g : UGrid K} {nc : NC K} (h : save g = .ok nc) : nc = saved g ∧
    (g.faceCoords ≠ none → g.faces ≠ none) ∧ (g.edgeCoords ≠ none → g.edges ≠ none) ∧
    (g.boundaryCoords ≠ none → g.boundaries ≠ none) := by
  unfold save at h
  split at h
  · next fc ec bc h1 h2 h3 =>
    obtain ⟨rfl, a⟩ := optCoords_inv h1
    obtain ⟨rfl, b⟩ := optCoords_inv h2
    obtain ⟨rfl, c⟩ := optCoords_inv h3
    exact ⟨(Except.ok.inj h).symm, a, b, c⟩
  · cases h
  · cases h
  · cases h

private theorem mem_optC (l : Loc) (cs : Option (List (K × K))) (n : Name) :
    (∃ v, (n, v) ∈ optC l cs) ↔ cs ≠ none ∧ (n = .lon l ∨ n = .lat l) := by
  cases cs with
  | none => simp [optC]
  | some c =>
    simp only [optC, coordVars, List.mem_cons, Prod.mk.injEq, List.not_mem_nil, or_false]
    constructor
    · rintro ⟨v, ⟨rfl, -⟩ | ⟨rfl, -⟩⟩ <;> simp
    · rintro ⟨-, rfl | rfl⟩
      · exact ⟨_, Or.inr ⟨rfl, rfl⟩⟩
      · exact ⟨_, Or.inl ⟨rfl, rfl⟩⟩

private theorem mem_tableVar (role : String) (name : Name) (t : Option (List (List Int))) (n : Name) :
    (∃ v : Var K, (n, v) ∈ tableVar role name t) ↔ t ≠ none ∧ n = name := by
  cases t with
  | none => simp [tableVar]
  | some c => simp [tableVar]

/-- The variables of a saved file: the mesh, the nodes, and what the grid has of tables of nodes and of
coordinates. -/
theorem C188_written (g : UGrid K) (nc : NC K) (h : save g = .ok nc) (n : Name) : WrittenAs nc n ↔
    n = .mesh ∨ (g.faces ≠ none ∧ n = .faceNodes) ∨ (g.edges ≠ none ∧ n = .edgeNodes) ∨
      (g.boundaries ≠ none ∧ n = .boundaryNodes) ∨
      (g.faceCoords ≠ none ∧ (n = .lon .face ∨ n = .lat .face)) ∨
      (g.edgeCoords ≠ none ∧ (n = .lon .edge ∨ n = .lat .edge)) ∨
      (g.boundaryCoords ≠ none ∧ (n = .lon .boundary ∨ n = .lat .boundary)) ∨
      n = .lon .node ∨ n = .lat .node := by
  obtain ⟨rfl, -, -, -⟩ := save_inv h
  unfold WrittenAs saved
  simp only [List.mem_append, exists_or, mem_tableVar, mem_optC]
  have e : (∃ v, (n, v) ∈ coordVars .node g.nodes) ↔ (n = .lon .node ∨ n = .lat .node) := by
    have := mem_optC .node (some g.nodes) n
    simpa [optC] using this
  rw [e]
  simp only [List.mem_cons, Prod.mk.injEq, List.not_mem_nil, or_false, exists_and_left,
    exists_eq, and_true, or_assoc]

/-- The attributes of the mesh variable: what the grid has, boundary coordinates apart. -/
theorem C188_named (g : UGrid K) (nc : NC K) (h : save g = .ok nc) (m : Var K) (hm : (Name.mesh, m) ∈ nc)
    (r : Role) (n : Name) : RefersTo m r n ↔
      (r = .coordinates .node ∧ (n = .lon .node ∨ n = .lat .node)) ∨
      (g.edges ≠ none ∧ r = .edgeNode ∧ n = .edgeNodes) ∨
      (g.edgeCoords ≠ none ∧ r = .coordinates .edge ∧ (n = .lon .edge ∨ n = .lat .edge)) ∨
      (g.faces ≠ none ∧ r = .faceNode ∧ n = .faceNodes) ∨
      (g.faceCoords ≠ none ∧ r = .coordinates .face ∧ (n = .lon .face ∨ n = .lat .face)) ∨
      (g.faceEdge ≠ none ∧ r = .faceEdge ∧ n = .faceEdges) ∨
      (g.faceFace ≠ none ∧ r = .faceFace ∧ n = .faceLinks) ∨
      (g.boundaries ≠ none ∧ r = .boundaryNode ∧ n = .boundaryNodes) := by
  obtain ⟨rfl, h1, h2, -⟩ := save_inv h
  have e : m = meshVar g := by
    unfold saved at hm
    simp only [List.mem_append, List.mem_cons, Prod.mk.injEq, true_and, List.not_mem_nil, or_false] at hm
    have t : ∀ role name x, name ≠ Name.mesh → (Name.mesh, m) ∈ tableVar role name x → False :=
      fun role name x hn hx => hn (((mem_tableVar role name x .mesh).1 ⟨m, hx⟩).2.symm)
    have c : ∀ l cs, (Name.mesh, m) ∈ optC l cs → False := fun l cs hx => by
      rcases ((mem_optC l cs .mesh).1 ⟨m, hx⟩).2 with q | q <;> cases q
    rcases hm with ((((((hm | hm) | hm) | hm) | hm) | hm) | hm) | hm
    · exact hm
    · exact (t _ _ _ (by decide) hm).elim
    · exact (t _ _ _ (by decide) hm).elim
    · exact (t _ _ _ (by decide) hm).elim
    · exact (c _ _ hm).elim
    · exact (c _ _ hm).elim
    · exact (c _ _ hm).elim
    · exact (c .node (some g.nodes) hm).elim
  subst e
  have one : ∀ (b : Bool) (R : Role) (N : Name), (∃ ns, (r, ns) ∈ (if b then [(R, [N])] else []) ∧ n ∈ ns) ↔
      (b = true ∧ r = R ∧ n = N) := by
    intro b R N
    cases b with
    | false => simp
    | true =>
      simp only [if_true, List.mem_cons, Prod.mk.injEq, List.not_mem_nil, or_false, true_and]
      constructor
      · rintro ⟨ns, ⟨rfl, rfl⟩, q⟩; exact ⟨rfl, by simpa using q⟩
      · rintro ⟨rfl, rfl⟩; exact ⟨_, ⟨rfl, rfl⟩, by simp⟩
  have two : ∀ (t : Option (List (List Int))) (c : Option (List (K × K))) (R : Role) (N : Name) (l : Loc),
      (c ≠ none → t ≠ none) →
      ((∃ ns, (r, ns) ∈ (if t.isSome then [(R, [N])] ++
        (if c.isSome then [(.coordinates l, [.lon l, .lat l])] else []) else []) ∧ n ∈ ns) ↔
      (t ≠ none ∧ r = R ∧ n = N) ∨ (c ≠ none ∧ r = .coordinates l ∧ (n = .lon l ∨ n = .lat l))) := by
    intro t c R N l htc
    cases t with
    | none =>
      have : c = none := by
        by_contra q
        exact htc q rfl
      subst this
      simp
    | some t =>
      simp only [Option.isSome_some, if_true, List.mem_append, or_and_right, exists_or]
      have a := one true R N
      simp only [if_true, true_and] at a
      rw [a]
      cases c with
      | none => simp
      | some c =>
        simp only [Option.isSome_some, if_true, List.mem_cons, Prod.mk.injEq, List.not_mem_nil, or_false,
          ne_eq, reduceCtorEq, not_false_eq_true, true_and]
        constructor
        · rintro (q | ⟨ns, ⟨rfl, rfl⟩, q⟩)
          · exact Or.inl q
          · exact Or.inr ⟨rfl, by simpa using q⟩
        · rintro (q | ⟨rfl, q⟩)
          · exact Or.inl q
          · exact Or.inr ⟨_, ⟨rfl, rfl⟩, by simpa using q⟩
  have app : ∀ a b : List (Role × List Name), (∃ ns, (r, ns) ∈ a ++ b ∧ n ∈ ns) ↔
      (∃ ns, (r, ns) ∈ a ∧ n ∈ ns) ∨ (∃ ns, (r, ns) ∈ b ∧ n ∈ ns) := by
    intro a b
    simp only [List.mem_append, or_and_right, exists_or]
  have nd : (∃ ns, (r, ns) ∈ [(Role.coordinates .node, [Name.lon .node, Name.lat .node])] ∧ n ∈ ns) ↔
      r = .coordinates .node ∧ (n = .lon .node ∨ n = .lat .node) := by
    simp only [List.mem_cons, Prod.mk.injEq, List.not_mem_nil, or_false]
    constructor
    · rintro ⟨ns, ⟨rfl, rfl⟩, q⟩; exact ⟨rfl, by simpa using q⟩
    · rintro ⟨rfl, q⟩; exact ⟨_, ⟨rfl, rfl⟩, by simpa using q⟩
  unfold RefersTo meshVar
  simp only
  rw [app, app, app, app, app, nd, two _ _ _ _ _ h2, two _ _ _ _ _ h1, one, one, one]
  simp only [Option.isSome_iff_ne_none, or_assoc]

/-- C188, what holds: everything written is named except coordinates of boundaries (missing: these). -/
theorem C188_all_named_partial (g : UGrid K) (nc : NC K) (h : save g = .ok nc) (m : Var K)
    (hm : (Name.mesh, m) ∈ nc) (n : Name) (hn : n ≠ .mesh) (hv : WrittenAs nc n) :
    (∃ r, RefersTo m r n) ↔ n ≠ .lon .boundary ∧ n ≠ .lat .boundary := by
  simp only [C188_named g nc h m hm]
  rw [C188_written g nc h] at hv
  constructor
  · rintro ⟨r, q⟩
    constructor <;> rintro rfl <;> simp at q
  · rintro ⟨b1, b2⟩
    rcases hv with rfl | ⟨q, rfl⟩ | ⟨q, rfl⟩ | ⟨q, rfl⟩ | ⟨q, rfl | rfl⟩ | ⟨q, rfl | rfl⟩ | ⟨q, rfl | rfl⟩ |
      rfl | rfl
    · exact absurd rfl hn
    · exact ⟨.faceNode, by simp [q]⟩
    · exact ⟨.edgeNode, by simp [q]⟩
    · exact ⟨.boundaryNode, by simp [q]⟩
    · exact ⟨.coordinates .face, by simp [q]⟩
    · exact ⟨.coordinates .face, by simp [q]⟩
    · exact ⟨.coordinates .edge, by simp [q]⟩
    · exact ⟨.coordinates .edge, by simp [q]⟩
    · exact absurd rfl b1
    · exact absurd rfl b2
    · exact ⟨.coordinates .node, by simp⟩
    · exact ⟨.coordinates .node, by simp⟩

/-- C188, what holds: everything named is written except the tables of neighbours and of the edges of
faces (missing: these), which are named whenever the grid has them. -/
theorem C188_all_written_partial (g : UGrid K) (nc : NC K) (h : save g = .ok nc) (m : Var K)
    (hm : (Name.mesh, m) ∈ nc) (r : Role) (n : Name) (hr : RefersTo m r n) :
    WrittenAs nc n ↔ r ≠ .faceFace ∧ r ≠ .faceEdge := by
  rw [C188_named g nc h m hm] at hr
  rw [C188_written g nc h]
  rcases hr with ⟨rfl, rfl | rfl⟩ | ⟨q, rfl, rfl⟩ | ⟨q, rfl, rfl | rfl⟩ | ⟨q, rfl, rfl⟩ |
    ⟨q, rfl, rfl | rfl⟩ | ⟨q, rfl, rfl⟩ | ⟨q, rfl, rfl⟩ | ⟨q, rfl, rfl⟩ <;> simp_all

/-- C188 for grids without tables of neighbours and of the edges of faces and without coordinates of
boundaries. -/
theorem C188_plain_partial (g : UGrid K) (nc : NC K) (h : save g = .ok nc) (m : Var K)
    (hm : (Name.mesh, m) ∈ nc) (h1 : g.faceFace = none) (h2 : g.faceEdge = none)
    (h3 : g.boundaryCoords = none) (n : Name) (hn : n ≠ .mesh) :
    (∃ r, RefersTo m r n) ↔ WrittenAs nc n := by
  constructor
  · rintro ⟨r, q⟩
    refine (C188_all_written_partial g nc h m hm r n q).2 ?_
    rw [C188_named g nc h m hm] at q
    constructor <;> rintro rfl <;> simp [h1, h2] at q
  · intro hv
    refine (C188_all_named_partial g nc h m hm n hn hv).2 ?_
    rw [C188_written g nc h] at hv
    constructor <;> rintro rfl <;> simp [h3] at hv

/-- The coordinates a grid has for its elements of a kind. -/
def placesOf (g : UGrid K) : Loc → Option (List (K × K))
  | .node => some g.nodes
  | .face => g.faceCoords
  | .edge => g.edgeCoords
  | .boundary => g.boundaryCoords

/-- Every variable of a saved file says what it is by its attributes and has the numbers of the grid. -/
theorem C188_content (g : UGrid K) (nc : NC K) (h : save g = .ok nc) (n : Name) (v : Var K) (hv : (n, v) ∈ nc) :
    (n = .mesh ∧ v.cfRole = some "mesh_topology" ∧ v.topologyDimension = some 2) ∨
    (n = .faceNodes ∧ v.cfRole = some "face_node_connectivity" ∧ v.startIndex = some 0 ∧ g.faces = some v.table) ∨
    (n = .edgeNodes ∧ v.cfRole = some "edge_node_connectivity" ∧ v.startIndex = some 0 ∧ g.edges = some v.table) ∨
    (n = .boundaryNodes ∧ v.cfRole = some "boundary_node_connectivity" ∧ v.startIndex = some 0 ∧
      g.boundaries = some v.table) ∨
    (∃ l cs, placesOf g l = some cs ∧ v.cfRole = none ∧
      ((n = .lon l ∧ v.standardName = some "longitude" ∧ v.units = some "degrees_east" ∧
          v.values = cs.map Prod.fst) ∨
       (n = .lat l ∧ v.standardName = some "latitude" ∧ v.units = some "degrees_north" ∧
          v.values = cs.map Prod.snd))) := by
  obtain ⟨rfl, -, -, -⟩ := save_inv h
  have t : ∀ role name x, (n, v) ∈ tableVar role name x →
      n = name ∧ v.cfRole = some role ∧ v.startIndex = some 0 ∧ x = some v.table := by
    intro role name x hx
    cases x with
    | none => simp [tableVar] at hx
    | some rows =>
      simp only [tableVar, List.mem_singleton, Prod.mk.injEq] at hx
      obtain ⟨rfl, rfl⟩ := hx
      exact ⟨rfl, rfl, rfl, rfl⟩
  have c : ∀ l cs, (n, v) ∈ coordVars l cs → v.cfRole = none ∧
      ((n = .lon l ∧ v.standardName = some "longitude" ∧ v.units = some "degrees_east" ∧
          v.values = cs.map Prod.fst) ∨
       (n = .lat l ∧ v.standardName = some "latitude" ∧ v.units = some "degrees_north" ∧
          v.values = cs.map Prod.snd)) := by
    intro l cs hx
    simp only [coordVars, List.mem_cons, Prod.mk.injEq, List.not_mem_nil, or_false] at hx
    rcases hx with ⟨rfl, rfl⟩ | ⟨rfl, rfl⟩
    · exact ⟨rfl, .inr ⟨rfl, rfl, rfl, rfl⟩⟩
    · exact ⟨rfl, .inl ⟨rfl, rfl, rfl, rfl⟩⟩
  have o : ∀ l, (n, v) ∈ optC l (placesOf g l) → ∃ l cs, placesOf g l = some cs ∧ v.cfRole = none ∧
      ((n = .lon l ∧ v.standardName = some "longitude" ∧ v.units = some "degrees_east" ∧
          v.values = cs.map Prod.fst) ∨
       (n = .lat l ∧ v.standardName = some "latitude" ∧ v.units = some "degrees_north" ∧
          v.values = cs.map Prod.snd)) := by
    intro l hx
    cases hp : placesOf g l with
    | none => rw [hp] at hx; simp [optC] at hx
    | some cs =>
      rw [hp] at hx
      exact ⟨l, cs, hp, c l cs hx⟩
  unfold saved at hv
  simp only [List.mem_append, List.mem_singleton, Prod.mk.injEq] at hv
  rcases hv with ((((((hv | hv) | hv) | hv) | hv) | hv) | hv) | hv
  · obtain ⟨rfl, rfl⟩ := hv
    exact .inl ⟨rfl, rfl, rfl⟩
  · exact .inr (.inl (t _ _ _ hv))
  · exact .inr (.inr (.inl (t _ _ _ hv)))
  · exact .inr (.inr (.inr (.inl (t _ _ _ hv))))
  · exact .inr (.inr (.inr (.inr (o .face hv))))
  · exact .inr (.inr (.inr (.inr (o .edge hv))))
  · exact .inr (.inr (.inr (.inr (o .boundary hv))))
  · exact .inr (.inr (.inr (.inr (o .node hv))))

end

example : ∃ nc m, save linkedGrid = .ok nc ∧ (Name.mesh, m) ∈ nc ∧ RefersTo m .faceFace .faceLinks ∧
    RefersTo m .faceNode .faceNodes ∧ WrittenAs nc .faceNodes ∧ ¬ WrittenAs nc .faceLinks :=
  ⟨_, _, rfl, List.mem_cons_self, (C188_named linkedGrid _ rfl _ List.mem_cons_self _ _).2 (by simp [linkedGrid]),
    (C188_named linkedGrid _ rfl _ List.mem_cons_self _ _).2 (by simp [linkedGrid]),
    (C188_written linkedGrid _ rfl _).2 (by simp [linkedGrid]),
    fun q => absurd ((C188_written linkedGrid _ rfl _).1 q) (by simp [linkedGrid])⟩

end Verif
