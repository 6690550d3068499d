import Verif.Model.UConstruct
import Verif.Props.UTopo

/-!
# C174-C175: making unstructured grids
-/

set_option autoImplicit false

namespace Verif
open UConstruct

/-! ## C175: the parts of a new grid -/

section
variable {K : Type}

/-- The arguments give these nodes: as pairs, as two columns, or there are none. -/
def GivesNodes (a : Args K) (ns : List (K × K)) : Prop :=
  (a.nodes = some ns ∧ a.nodeLon = none ∧ a.nodeLat = none) ∨
  (a.nodes = none ∧ a.nodeLon = some (ns.map Prod.fst) ∧ a.nodeLat = some (ns.map Prod.snd)) ∨
  (a.nodes = none ∧ a.nodeLon = none ∧ a.nodeLat = none ∧ ns = [])

/-- The faces a grid of `n` nodes holds for those given: counted from zero. -/
def GivesFaces (n : Nat) : Option Table → Option Table → Prop
  | none, held => held = none
  | some t, held => t.flatten ≠ [] ∧ ((ZeroBased n t ∧ held = some t) ∨
      (OneBased n t ∧ held = some (t.map fun r => r.map fun e => e - 1)))

/-- A table with an entry for every side of every face. -/
def BelongsTo (nv : Nat) (faces : Option Table) (t : Option Table) : Prop :=
  ∀ t', t = some t' → ∃ f, faces = some f ∧ t'.length = f.length ∧ ∀ r ∈ t', r.length = nv

/-- The grid has these parts and no others. -/
def MadeOf (nv : Nat) (a : Args K) (g : UIO.UGrid K) : Prop :=
  GivesNodes a g.nodes ∧ GivesFaces g.nodes.length a.faces g.faces ∧
    g.edges = a.edges ∧ g.boundaries = a.boundaries ∧ g.faceFace = a.faceFace ∧
    g.faceEdge = a.faceEdge ∧ g.edgeCoords = a.edgeCoords ∧ g.faceCoords = a.faceCoords ∧
    g.boundaryCoords = a.boundaryCoords ∧ BelongsTo nv g.faces a.faceFace ∧
    BelongsTo nv g.faces a.faceEdge

/-- All rows of the given faces have `nv` entries. -/
def FacesOf (nv : Nat) (a : Args K) : Prop := ∀ t, a.faces = some t → ∀ r ∈ t, r.length = nv

/-- C175 in full. -/
def C175_statement : Prop :=
  ∀ (nv : Nat) (a : Args ℚ) (g : UIO.UGrid ℚ), FacesOf nv a → (construct a = .ok g ↔ MadeOf nv a g)

/-- C175. Longitudes without latitudes, or the other way round, are accepted and dropped: a grid
without nodes. -/
theorem C175_one_coordinate (a : Args K) (h : a.nodes = none) (hf : a.faces = none)
    (h1 : a.faceFace = none) (h2 : a.faceEdge = none) (hx : a.nodeLon = none ∨ a.nodeLat = none) :
    ∃ g, construct a = .ok g ∧ g.nodes = [] := by
  have hn : nodesOf a = .ok [] := by
    unfold nodesOf
    rw [h]
    rcases hx with hx | hx
    · rw [hx]
    · rw [hx]
      cases a.nodeLon <;> rfl
  unfold construct
  rw [hn, hf, h1, h2]
  exact ⟨_, rfl, rfl⟩

theorem C175_refuted : ¬ C175_statement := by
  intro hst
  obtain ⟨g, hg, -⟩ := C175_one_coordinate (K := ℚ) { nodeLon := some [1, 2] } rfl rfl rfl rfl
    (Or.inr rfl)
  have hm := (hst 3 _ g (by intro t ht; cases ht)).1 hg
  rcases hm.1 with ⟨h, _⟩ | ⟨_, _, h⟩ | ⟨_, h, _⟩ <;> cases h

/-- C175. Nodes given twice are refused. -/
theorem C175_both (a : Args K) (h : a.nodes.isSome) (hx : a.nodeLon.isSome ∨ a.nodeLat.isSome) :
    construct a = .error .typeError := by
  obtain ⟨ns, hn⟩ := Option.isSome_iff_exists.1 h
  have : nodesOf a = .error .typeError := by
    unfold nodesOf
    rw [hn]
    simp only
    rw [if_pos (by simpa using hx)]
  unfold construct
  rw [this]

private theorem zip_columns (ns : List (K × K)) : (ns.map Prod.fst).zip (ns.map Prod.snd) = ns := by
  induction ns with
  | nil => rfl
  | cons p t ih => simp [ih]

private theorem nodesOf_iff (a : Args K) (hx : a.nodeLon.isSome = a.nodeLat.isSome)
    (ns : List (K × K)) : nodesOf a = .ok ns ↔ GivesNodes a ns := by
  unfold nodesOf GivesNodes
  cases h : a.nodes with
  | some ms =>
    cases h1 : a.nodeLon <;> cases h2 : a.nodeLat <;> simp [h1, h2] at hx ⊢
  | none =>
    cases h1 : a.nodeLon with
    | none =>
      cases h2 : a.nodeLat with
      | none => simp [eq_comm]
      | some y => rw [h1, h2] at hx; cases hx
    | some x =>
      cases h2 : a.nodeLat with
      | none => rw [h1, h2] at hx; cases hx
      | some y =>
        simp only [reduceCtorEq, false_and, and_false, or_false, true_and, false_or,
          Option.some.injEq]
        by_cases hl : x.length = y.length
        · rw [if_pos hl]
          simp only [Except.ok.injEq]
          constructor
          · rintro rfl
            rw [List.map_fst_zip (by omega), List.map_snd_zip (by omega)]
            exact ⟨rfl, rfl⟩
          · rintro ⟨rfl, rfl⟩
            exact zip_columns ns
        · rw [if_neg hl]
          simp only [reduceCtorEq, false_iff]
          rintro ⟨rfl, rfl⟩
          simp at hl

private theorem zero_not_one {n : Nat} {t : Table} (h1 : ZeroBased n t) (h2 : OneBased n t) : False := by
  obtain ⟨_, r, hr, hn⟩ := h2
  have := (h1 r hr _ hn).2
  omega

private theorem facesOf_iff (n : Nat) (t : Option Table) (held : Option Table) :
    facesOf n t = .ok held ↔ GivesFaces n t held := by
  unfold facesOf GivesFaces
  cases t with
  | none => simp [eq_comm]
  | some t =>
    simp only
    by_cases hne : t.flatten = []
    · simp [UTopo.setFaces, hne, UTopo.maxL]
    · obtain ⟨h1, h2, h3⟩ := C25_faces_setter n t hne
      by_cases hz : ZeroBased n t
      · rw [h1 hz]
        simp only [Except.ok.injEq, hne, ne_eq, not_false_iff, true_and, hz]
        constructor
        · rintro rfl; exact Or.inl rfl
        · rintro (h | ⟨h, _⟩)
          · exact h.symm
          · exact (zero_not_one hz h).elim
      · by_cases ho : OneBased n t
        · rw [h2 ho]
          simp only [Except.ok.injEq, hne, ne_eq, not_false_iff, true_and, hz, false_and, false_or, ho]
          exact eq_comm
        · rw [h3 hz ho]
          simp [hz, ho]

private theorem cols_eq {nv : Nat} {f : Table} (h : ∀ r ∈ f, r.length = nv) :
    f.map (fun _ => UIO.cols f) = f.map (fun _ => nv) := by
  cases f with
  | nil => rfl
  | cons r t => simp [UIO.cols, h r (by simp)]

private theorem checked_iff {nv : Nat} {faces : Option Table}
    (h : ∀ f, faces = some f → ∀ r ∈ f, r.length = nv) (t held : Option Table) :
    checked faces t = .ok held ↔ held = t ∧ BelongsTo nv faces t := by
  unfold checked BelongsTo UState.shapeCheck
  cases t with
  | none => simp [eq_comm]
  | some t =>
    cases faces with
    | none => simp
    | some f =>
      simp only
      rw [cols_eq (h f rfl)]
      have key : (t.map List.length = f.map (fun _ => nv)) ↔
          t.length = f.length ∧ ∀ r ∈ t, r.length = nv := by
        rw [List.map_const', List.eq_replicate_iff]
        simp
      by_cases hk : t.map List.length = f.map (fun _ => nv)
      · rw [if_pos hk]
        obtain ⟨k1, k2⟩ := key.1 hk
        simp only [Except.ok.injEq]
        constructor
        · rintro rfl
          refine ⟨rfl, ?_⟩
          rintro _ ⟨⟩
          exact ⟨f, rfl, k1, k2⟩
        · rintro ⟨rfl, _⟩; rfl
      · rw [if_neg hk]
        simp only [reduceCtorEq, false_iff, not_and]
        rintro rfl hb
        obtain ⟨_, ⟨⟩, b1, b2⟩ := hb t rfl
        exact hk (key.2 ⟨b1, b2⟩)

private theorem gives_rows {nv n : Nat} {t held : Option Table} (h : GivesFaces n t held)
    (hr : ∀ x, t = some x → ∀ r ∈ x, r.length = nv) : ∀ f, held = some f → ∀ r ∈ f, r.length = nv := by
  rintro f rfl
  unfold GivesFaces at h
  cases t with
  | none => cases h
  | some t =>
    obtain ⟨_, ⟨_, h⟩ | ⟨_, h⟩⟩ := h
    · cases h
      exact hr _ rfl
    · cases h
      intro r hm
      obtain ⟨r', hr', rfl⟩ := List.mem_map.1 hm
      rw [List.length_map]
      exact hr _ rfl r' hr'

/-- C175 when longitudes and latitudes are given together or not at all: a grid is made exactly if the
parts fit together, and holds exactly those parts. What is missing is one coordinate alone. -/
theorem C175_partial (nv : Nat) (a : Args K) (g : UIO.UGrid K) (hr : FacesOf nv a)
    (hx : a.nodeLon.isSome = a.nodeLat.isSome) : construct a = .ok g ↔ MadeOf nv a g := by
  unfold construct MadeOf
  constructor
  · intro h
    cases h1 : nodesOf a with
    | error e => rw [h1] at h; cases h
    | ok ns =>
      rw [h1] at h
      simp only at h
      cases h2 : facesOf ns.length a.faces with
      | error e => rw [h2] at h; cases h
      | ok fs =>
        rw [h2] at h
        simp only at h
        have hg := (facesOf_iff _ _ _).1 h2
        have hrows := gives_rows hg hr
        cases h3 : checked fs a.faceFace with
        | error e => rw [h3] at h; cases h
        | ok ff =>
          rw [h3] at h
          simp only at h
          cases h4 : checked fs a.faceEdge with
          | error e => rw [h4] at h; cases h
          | ok fe =>
            rw [h4] at h
            cases h
            obtain ⟨e3, b3⟩ := (checked_iff hrows _ _).1 h3
            obtain ⟨e4, b4⟩ := (checked_iff hrows _ _).1 h4
            exact ⟨(nodesOf_iff a hx ns).1 h1, hg, rfl, rfl, e3, e4, rfl, rfl, rfl, b3, b4⟩
  · rintro ⟨h1, h2, e1, e2, e3, e4, e5, e6, e7, b3, b4⟩
    have hrows := gives_rows h2 hr
    rw [(nodesOf_iff a hx _).2 h1]
    simp only
    rw [(facesOf_iff _ _ _).2 h2]
    simp only
    rw [(checked_iff hrows a.faceFace a.faceFace).2 ⟨rfl, b3⟩]
    simp only
    rw [(checked_iff hrows a.faceEdge a.faceEdge).2 ⟨rfl, b4⟩]
    cases g
    simp_all

/-- C175. Nodes as two columns give the same grid as nodes as pairs. -/
theorem C175_columns (a : Args K) (ns : List (K × K)) (h : a.nodes = some ns) (h1 : a.nodeLon = none)
    (h2 : a.nodeLat = none) :
    construct { a with nodes := none, nodeLon := some (ns.map Prod.fst),
                       nodeLat := some (ns.map Prod.snd) } = construct a := by
  have e1 : nodesOf a = .ok ns := by
    unfold nodesOf
    rw [h, h1, h2]
    rfl
  have e2 : nodesOf { a with nodes := none, nodeLon := some (ns.map Prod.fst),
                             nodeLat := some (ns.map Prod.snd) } = .ok ns := by
    unfold nodesOf
    simp [zip_columns]
  unfold construct
  rw [e1, e2]

private theorem one_lowered {n : Nat} {t : Table} (h : OneBased n t) :
    ZeroBased n (t.map fun r => r.map fun e => e - 1) := by
  intro r hr e he
  obtain ⟨r', hr', rfl⟩ := List.mem_map.1 hr
  obtain ⟨e', he', rfl⟩ := List.mem_map.1 he
  have := h.1 r' hr' e' he'
  omega

private theorem gives_again {n : Nat} {t held : Option Table} (h : GivesFaces n t held) :
    GivesFaces n held held := by
  unfold GivesFaces at h ⊢
  cases t with
  | none => subst h; rfl
  | some t =>
    obtain ⟨hne, ⟨hz, h⟩ | ⟨ho, h⟩⟩ := h
    · subst h
      exact ⟨hne, Or.inl ⟨hz, rfl⟩⟩
    · subst h
      refine ⟨?_, Or.inl ⟨one_lowered ho, rfl⟩⟩
      rw [← List.map_flatten]
      simpa using hne

/-- C175. A grid made from the parts of a grid is equal to it in every part. -/
theorem C175_copy (a : Args K) (g : UIO.UGrid K) (h : construct a = .ok g) :
    construct (partsOf g) = .ok g := by
  unfold construct at h ⊢
  cases h1 : nodesOf a with
  | error e => rw [h1] at h; cases h
  | ok ns =>
    rw [h1] at h
    simp only at h
    cases h2 : facesOf ns.length a.faces with
    | error e => rw [h2] at h; cases h
    | ok fs =>
      rw [h2] at h
      simp only at h
      have hg := gives_again ((facesOf_iff _ _ _).1 h2)
      cases h3 : checked fs a.faceFace with
      | error e => rw [h3] at h; cases h
      | ok ff =>
        rw [h3] at h
        simp only at h
        cases h4 : checked fs a.faceEdge with
        | error e => rw [h4] at h; cases h
        | ok fe =>
          rw [h4] at h
          cases h
          have key : ∀ t held, checked fs t = .ok held → checked fs held = .ok held := by
            intro t held ht
            unfold checked at ht ⊢
            cases t with
            | none => cases ht; rfl
            | some t =>
              simp only at ht
              cases hs : UState.shapeCheck fs t with
              | error e => rw [hs] at ht; cases ht
              | ok _ =>
                rw [hs] at ht
                cases ht
                simp only [hs]
          simp only [partsOf, nodesOf, Option.isSome_none, Bool.or_self, Bool.false_eq_true, if_false]
          rw [(facesOf_iff _ _ _).2 hg]
          simp only [key _ _ h3, key _ _ h4]

end

/-- Faces counted from one, with neighbours. -/
private def oneTriArgs : Args ℚ where
  nodeLon := some [0, 1, 0]
  nodeLat := some [0, 0, 1]
  faces := some [[1, 2, 3]]
  faceFace := some [[-1, -1, -1]]

example : construct oneTriArgs = .ok { nodes := [(0, 0), (1, 0), (0, 1)], faces := some [[0, 1, 2]],
                                       faceFace := some [[-1, -1, -1]] } := by rfl

example : FacesOf 3 oneTriArgs := by
  rintro t ⟨⟩ r hr
  simp only [List.mem_singleton] at hr
  subst hr
  rfl

/-! ## C174: shared arrays -/

/-- C174 in full: a command changes the faces of no grid other than the one it is about, and no array
there was. -/
def C174_statement : Prop :=
  ∀ (cs : List (Cmd ℚ)) (arrays : List Table) (c : Cmd ℚ),
    let w := run ⟨arrays, []⟩ cs
    (∀ k, k < w.grids.length → (∀ s, c ≠ .setFaces k s) → facesAt (exec w c).1 k = facesAt w k) ∧
    ∀ r, r < w.arrays.length → (exec w c).1.arrays[r]? = w.arrays[r]?

/-- C174 fails: a triangle of a grid of four nodes moves when a grid of three nodes is made from the
same array. -/
theorem C174_refuted : ¬ C174_statement := by
  intro hst
  have h := (hst [.create [(0, 0), (1, 0), (0, 1), (1, 1)] (some (.arr 0)) none] [[[1, 2, 3]]]
    (.create [(0, 0), (1, 0), (0, 1)] (some (.arr 0)) none)).1 0 (by decide +kernel)
    (by intro s h; cases h)
  revert h
  decide +kernel

/-- C174. A construction that is refused may already have changed the array it was given. -/
theorem C174_refused_changes :
    ∃ (w : World ℚ) (c : Cmd ℚ), (exec w c).2 = some .valueError ∧ (exec w c).1.arrays ≠ w.arrays :=
  ⟨⟨[[[1, 2, 3]]], []⟩, .create [(0, 0), (1, 0), (0, 1)] (some (.arr 0)) (some [[-1, -1]]),
    by decide +kernel, by decide +kernel⟩

section
variable {K : Type}

/-- The number of nodes of the grid that a command is about. -/
def nodesFor (w : World K) : Cmd K → Option Nat
  | .create ns _ _ => some ns.length
  | .setFaces k _ => (w.grids[k]?).map fun h => h.nodes.length

/-- The faces given with a command, if any. -/
def givenFaces (w : World K) : Cmd K → Option Table
  | .create _ s _ | .setFaces _ s => match s with
    | none => none
    | some (.values t) => some t
    | some (.arr r) => w.arrays[r]?
    | some (.ofGrid k) => facesAt w k

/-- The faces are given as values, not as an array there is. -/
def FromValues : Cmd K → Prop
  | .create _ s _ | .setFaces _ s => ∀ x, s = some x → ∃ t, x = .values t

private theorem adopt_spec {n : Nat} {arrays arrays' : List Table} {r : Nat}
    (h : adopt n arrays r = .ok arrays') : ∃ t t', arrays[r]? = some t ∧ arrays' = arrays.set r t' ∧
      t.flatten ≠ [] ∧ ((ZeroBased n t ∧ t' = t) ∨
        (OneBased n t ∧ t' = t.map fun r => r.map fun e => e - 1)) := by
  unfold adopt at h
  cases ht : arrays[r]? with
  | none => rw [ht] at h; cases h
  | some t =>
    rw [ht] at h
    simp only at h
    cases hs : UTopo.setFaces n t with
    | error e => rw [hs] at h; cases h
    | ok t' =>
      rw [hs] at h
      cases h
      have : facesOf n (some t) = .ok (some t') := by simp only [facesOf, hs]
      obtain ⟨hne, hh⟩ := (facesOf_iff n (some t) (some t')).1 this
      refine ⟨t, t', rfl, rfl, hne, ?_⟩
      simpa using hh

private theorem set_same {β : Type} {l : List β} {r : Nat} {x : β} (h : l[r]? = some x) : l.set r x = l := by
  obtain ⟨hl, rfl⟩ := List.getElem?_eq_some_iff.1 h
  exact List.set_getElem_self hl

/-- What a command does to the arrays: nothing, one array more, or the array given is lowered. -/
private theorem exec_arrays (w : World K) (c : Cmd K) :
    (exec w c).1.arrays = w.arrays ∨
    (∃ t, (exec w c).1.arrays = w.arrays ++ [t]) ∨
    (¬ FromValues c ∧ ∃ n t r, nodesFor w c = some n ∧ givenFaces w c = some t ∧ w.arrays[r]? = some t ∧
      OneBased n t ∧
      (exec w c).1.arrays = w.arrays.set r (t.map fun r => r.map fun e => e - 1)) := by
  have key : ∀ (n : Nat) (s : Src) (arrays arrays' : List Table) (r : Nat),
      place w s = some (arrays, r) → adopt n arrays r = .ok arrays' →
      arrays' = w.arrays ∨ (∃ t, arrays' = w.arrays ++ [t]) ∨
      ((¬ ∃ t, s = .values t) ∧ ∃ t, (match s with
        | .values t => some t
        | .arr r => w.arrays[r]?
        | .ofGrid k => facesAt w k) = some t ∧ w.arrays[r]? = some t ∧ OneBased n t ∧
        arrays' = w.arrays.set r (t.map fun r => r.map fun e => e - 1)) := by
    intro n s arrays arrays' r hp ha
    obtain ⟨t, t', ht, rfl, _, hh⟩ := adopt_spec ha
    cases s with
    | values x =>
      simp only [place, Option.some.injEq, Prod.mk.injEq] at hp
      obtain ⟨rfl, rfl⟩ := hp
      right; left
      refine ⟨t', ?_⟩
      rw [List.set_append_right _ _ (le_refl _)]
      simp
    | arr r' =>
      simp only [place] at hp
      split at hp
      · cases hp
        rcases hh with ⟨_, rfl⟩ | ⟨ho, rfl⟩
        · left; exact set_same ht
        · right; right
          exact ⟨(by rintro ⟨_, h⟩; cases h), t, ht, ht, ho, rfl⟩
      · cases hp
    | ofGrid k =>
      simp only [place] at hp
      cases hg : w.grids[k]? with
      | none => rw [hg] at hp; cases hp
      | some h =>
        rw [hg] at hp
        simp only at hp
        cases hf : h.faces with
        | none => rw [hf] at hp; cases hp
        | some r' =>
          rw [hf] at hp
          cases hp
          rcases hh with ⟨_, rfl⟩ | ⟨ho, rfl⟩
          · left; exact set_same ht
          · right; right
            exact ⟨(by rintro ⟨_, h⟩; cases h), t, by simp only [facesAt, hg, hf, ht], ht, ho, rfl⟩
  cases c with
  | create ns s ff =>
    cases s with
    | none =>
      left
      simp only [exec]
      split <;> rfl
    | some s =>
      simp only [exec, nodesFor, givenFaces, FromValues]
      cases hp : place w s with
      | none => left; rfl
      | some ar =>
        obtain ⟨arrays, r⟩ := ar
        simp only
        cases ha : adopt ns.length arrays r with
        | error e => left; rfl
        | ok arrays' =>
          have key' := key _ _ _ _ _ hp ha
          simp only
          cases checked arrays'[r]? ff <;>
            (rcases key' with h | h | ⟨h1, t, h2, h3, h4, h5⟩
             · exact Or.inl h
             · exact Or.inr (Or.inl h)
             · refine Or.inr (Or.inr ⟨fun h => h1 (h s rfl), _, t, r, rfl, ?_, h3, h4, h5⟩)
               cases s <;> exact h2)
  | setFaces k s =>
    cases s with
    | none =>
      left
      simp only [exec]
      split <;> rfl
    | some s =>
      simp only [exec, nodesFor, givenFaces, FromValues]
      cases hk : w.grids[k]? with
      | none => left; rfl
      | some h =>
        simp only
        cases hp : place w s with
        | none => left; rfl
        | some ar =>
          obtain ⟨arrays, r⟩ := ar
          simp only
          cases ha : adopt h.nodes.length arrays r with
          | error e => left; rfl
          | ok arrays' =>
            rcases key _ _ _ _ _ hp ha with h | h | ⟨h1, t, h2, h3, h4, h5⟩
            · exact Or.inl h
            · exact Or.inr (Or.inl h)
            · refine Or.inr (Or.inr ⟨fun h => h1 (h s rfl), _, t, r, rfl, ?_, h3, h4, h5⟩)
              cases s <;> exact h2

/-- What a command does to grids other than the one it is about. -/
private theorem exec_grids (w : World K) (c : Cmd K) (k : Nat) (hk : k < w.grids.length)
    (hc : ∀ s, c ≠ .setFaces k s) : (exec w c).1.grids[k]? = w.grids[k]? := by
  cases c with
  | create ns s ff =>
    cases s with
    | none =>
      simp only [exec]
      split
      · rfl
      · simp only [List.getElem?_append_left hk]
    | some s =>
      simp only [exec]
      split
      · rfl
      · split
        · rfl
        · split
          · rfl
          · simp only [List.getElem?_append_left hk]
  | setFaces j s =>
    have hj : j ≠ k := by rintro rfl; exact hc s rfl
    cases s with
    | none =>
      simp only [exec]
      split
      · rfl
      · simp only [List.getElem?_set_ne hj]
    | some s =>
      simp only [exec]
      split
      · rfl
      · split
        · rfl
        · split
          · rfl
          · simp only [List.getElem?_set_ne hj]

/-- All grids hold arrays that exist. -/
private def Sound (w : World K) : Prop :=
  ∀ (k : Nat) (h : Held K) (r : Nat), w.grids[k]? = some h → h.faces = some r → r < w.arrays.length

private theorem length_le (w : World K) (c : Cmd K) :
    w.arrays.length ≤ (exec w c).1.arrays.length := by
  rcases exec_arrays w c with h | ⟨t, h⟩ | ⟨_, _, _, _, _, _, _, _, h⟩ <;> rw [h] <;> simp

private theorem place_lt {w : World K} (hw : Sound w) {s : Src} {arrays : List Table} {r : Nat}
    (h : place w s = some (arrays, r)) : r < arrays.length := by
  cases s with
  | values t =>
    simp only [place, Option.some.injEq, Prod.mk.injEq] at h
    obtain ⟨rfl, rfl⟩ := h
    simp
  | arr r' =>
    simp only [place] at h
    split at h
    · cases h; assumption
    · cases h
  | ofGrid k =>
    simp only [place] at h
    cases hg : w.grids[k]? with
    | none => rw [hg] at h; cases h
    | some g =>
      rw [hg] at h
      simp only at h
      cases hf : g.faces with
      | none => rw [hf] at h; cases h
      | some r' =>
        rw [hf] at h
        cases h
        exact hw k g _ hg hf

/-- The entry of a grid after a command: as before, or new faces from an array adopted for its nodes. -/
private theorem grid_after (w : World K) (hw : Sound w) (c : Cmd K) (k : Nat) (h : Held K)
    (hk : (exec w c).1.grids[k]? = some h) :
    w.grids[k]? = some h ∨ h.faces = none ∨
    ∃ r t, h.faces = some r ∧ (exec w c).1.arrays[r]? = some t ∧ ZeroBased h.nodes.length t := by
  have key : ∀ (n : Nat) (s : Src) (arrays arrays' : List Table) (r : Nat),
      place w s = some (arrays, r) → adopt n arrays r = .ok arrays' →
      ∃ t, arrays'[r]? = some t ∧ ZeroBased n t := by
    intro n s arrays arrays' r hp ha
    have hlt := place_lt hw hp
    obtain ⟨t, t', ht, rfl, _, hh⟩ := adopt_spec ha
    refine ⟨t', by rw [List.getElem?_set_self hlt], ?_⟩
    rcases hh with ⟨hz, rfl⟩ | ⟨ho, rfl⟩
    · exact hz
    · exact one_lowered ho
  cases c with
  | create ns s ff =>
    cases s with
    | none =>
      simp only [exec] at hk
      split at hk
      · exact Or.inl hk
      · simp only [List.getElem?_append] at hk
        split at hk
        · exact Or.inl hk
        · obtain ⟨_, rfl⟩ := List.getElem?_eq_some_iff.1 hk
          right; left
          simp
    | some s =>
      simp only [exec] at hk ⊢
      cases hp : place w s with
      | none => rw [hp] at hk; exact Or.inl hk
      | some ar =>
        obtain ⟨arrays, r⟩ := ar
        rw [hp] at hk
        simp only at hk ⊢
        cases ha : adopt ns.length arrays r with
        | error e => rw [ha] at hk; exact Or.inl hk
        | ok arrays' =>
          rw [ha] at hk
          simp only at hk ⊢
          split at hk
          · exact Or.inl hk
          · rename_i hch
            simp only [List.getElem?_append] at hk
            split at hk
            · exact Or.inl hk
            · obtain ⟨_, rfl⟩ := List.getElem?_eq_some_iff.1 hk
              right; right
              obtain ⟨t, ht, hz⟩ := key _ _ _ _ _ hp ha
              refine ⟨r, t, by simp, ?_, by simpa using hz⟩
              simp only [hch, ht]
  | setFaces j s =>
    cases s with
    | none =>
      simp only [exec] at hk
      split at hk
      · exact Or.inl hk
      · rename_i g hg
        by_cases hj : j = k
        · subst hj
          rw [List.getElem?_set_self (List.getElem?_eq_some_iff.1 hg).1] at hk
          cases hk
          exact Or.inr (Or.inl rfl)
        · rw [List.getElem?_set_ne hj] at hk
          exact Or.inl hk
    | some s =>
      simp only [exec] at hk ⊢
      cases hg : w.grids[j]? with
      | none => rw [hg] at hk; exact Or.inl hk
      | some g =>
        rw [hg] at hk
        simp only at hk ⊢
        cases hp : place w s with
        | none => rw [hp] at hk; exact Or.inl hk
        | some ar =>
          obtain ⟨arrays, r⟩ := ar
          rw [hp] at hk
          simp only at hk ⊢
          cases ha : adopt g.nodes.length arrays r with
          | error e => rw [ha] at hk; exact Or.inl hk
          | ok arrays' =>
            rw [ha] at hk
            simp only at hk ⊢
            by_cases hj : j = k
            · subst hj
              rw [List.getElem?_set_self (List.getElem?_eq_some_iff.1 hg).1] at hk
              cases hk
              obtain ⟨t, ht, hz⟩ := key _ _ _ _ _ hp ha
              exact Or.inr (Or.inr ⟨r, t, rfl, ht, hz⟩)
            · rw [List.getElem?_set_ne hj] at hk
              exact Or.inl hk

/-- Faces lie within the nodes, for every grid. -/
private def InRange (w : World K) : Prop :=
  ∀ (k : Nat) (h : Held K) (r : Nat), w.grids[k]? = some h → h.faces = some r →
    ∃ t, w.arrays[r]? = some t ∧ ZeroBased h.nodes.length t

private theorem InRange.sound {w : World K} (h : InRange w) : Sound w := by
  intro k g r hk hr
  obtain ⟨t, ht, _⟩ := h k g r hk hr
  exact (List.getElem?_eq_some_iff.1 ht).1

private theorem InRange.exec {w : World K} (h : InRange w) (c : Cmd K) : InRange (exec w c).1 := by
  intro k g r hk hr
  rcases grid_after w h.sound c k g hk with h1 | h1 | ⟨r', t, h1, h2, h3⟩
  · obtain ⟨t, ht, hz⟩ := h k g r h1 hr
    have hlt := (List.getElem?_eq_some_iff.1 ht).1
    rcases exec_arrays w c with h | ⟨x, h⟩ | ⟨_, n, x, r', _, _, hx, ho, h⟩
    · rw [h]; exact ⟨t, ht, hz⟩
    · rw [h, List.getElem?_append_left hlt]; exact ⟨t, ht, hz⟩
    · rw [h]
      by_cases hrr : r' = r
      · subst hrr
        rw [List.getElem?_set_self hlt]
        rw [ht] at hx
        cases hx
        refine ⟨_, rfl, ?_⟩
        intro row hrow e he
        obtain ⟨row', hrow', rfl⟩ := List.mem_map.1 hrow
        obtain ⟨e', he', rfl⟩ := List.mem_map.1 he
        have a1 := hz row' hrow' e' he'
        have a2 := ho.1 row' hrow' e' he'
        omega
      · rw [List.getElem?_set_ne hrr]; exact ⟨t, ht, hz⟩
  · rw [h1] at hr; cases hr
  · rw [h1] at hr
    cases hr
    exact ⟨t, h2, h3⟩

private theorem InRange.run {w : World K} (h : InRange w) (cs : List (Cmd K)) : InRange (run w cs) := by
  unfold UConstruct.run
  induction cs generalizing w with
  | nil => exact h
  | cons c cs ih => exact ih (h.exec c)

private theorem inRange_start (arrays : List Table) : InRange (⟨arrays, []⟩ : World K) := by
  intro k h r hk
  simp at hk

/-- C174. Whatever grids are made from whatever shared arrays, the faces of every grid name nodes it
has. -/
theorem C174_in_range (arrays : List Table) (cs : List (Cmd K)) (k : Nat) (h : Held K) (t : Table)
    (hk : (run ⟨arrays, []⟩ cs).grids[k]? = some h) (ht : facesAt (run ⟨arrays, []⟩ cs) k = some t) :
    ZeroBased h.nodes.length t := by
  have hI := (inRange_start (K := K) arrays).run cs
  unfold facesAt at ht
  rw [hk] at ht
  simp only at ht
  cases hf : h.faces with
  | none => rw [hf] at ht; cases ht
  | some r =>
    rw [hf] at ht
    obtain ⟨t', h1, h2⟩ := hI k h r hk hf
    simp only at ht
    rw [h1] at ht
    cases ht
    exact h2

/-- C174 for faces given as values, or counted from zero: no array there was and no other grid changes.
What is missing is arrays counted from one, see `C174_refuted`. -/
theorem C174_partial (arrays : List Table) (cs : List (Cmd K)) (c : Cmd K)
    (hc : FromValues c ∨ ∀ n t, nodesFor (run ⟨arrays, []⟩ cs) c = some n →
      givenFaces (run ⟨arrays, []⟩ cs) c = some t → ¬ OneBased n t) :
    (∀ k, k < (run ⟨arrays, []⟩ cs).grids.length → (∀ s, c ≠ .setFaces k s) →
      facesAt (exec (run ⟨arrays, []⟩ cs) c).1 k = facesAt (run ⟨arrays, []⟩ cs) k) ∧
    ∀ r, r < (run ⟨arrays, []⟩ cs).arrays.length →
      (exec (run ⟨arrays, []⟩ cs) c).1.arrays[r]? = (run ⟨arrays, []⟩ cs).arrays[r]? := by
  have hI := (inRange_start (K := K) arrays).run cs
  generalize run ⟨arrays, []⟩ cs = w at hc hI ⊢
  have harr : ∀ r, r < w.arrays.length → (exec w c).1.arrays[r]? = w.arrays[r]? := by
    intro r hr
    rcases exec_arrays w c with h | ⟨x, h⟩ | ⟨hv, n, x, r', hn, hg, hx, ho, h⟩
    · rw [h]
    · rw [h, List.getElem?_append_left hr]
    · rcases hc with hc | hc
      · exact (hv hc).elim
      · exact (hc n x hn hg ho).elim
  refine ⟨?_, harr⟩
  intro k hk hs
  unfold facesAt
  rw [exec_grids w c k hk hs]
  cases hg : w.grids[k]? with
  | none => rfl
  | some h =>
    simp only
    cases hf : h.faces with
    | none => rfl
    | some r => exact harr r (hI.sound k h r hg hf)

/-- C174. Two grids made one after the other from the same array and equally many nodes have the same
faces, wherever counting starts in the array, and the second changes nothing. -/
theorem C174_twice (w : World K) (ns ns' : List (K × K)) (hl : ns'.length = ns.length) (r : Nat)
    (h : (exec w (.create ns (some (.arr r)) none)).2 = none) (hr : r < w.arrays.length) :
    ∃ t, let w1 := (exec w (.create ns (some (.arr r)) none)).1
      let w2 := (exec w1 (.create ns' (some (.arr r)) none))
      w2.2 = none ∧ w2.1.arrays = w1.arrays ∧ facesAt w2.1 w.grids.length = some t ∧
        facesAt w2.1 (w.grids.length + 1) = some t := by
  have hx : ∀ (w : World K) (ns : List (K × K)), r < w.arrays.length →
      exec w (.create ns (some (.arr r)) none) = match adopt ns.length w.arrays r with
        | .error e => (w, some e)
        | .ok arrays' => (⟨arrays', w.grids ++ [⟨ns, some r⟩]⟩, none) := by
    intro w ns hr
    simp only [exec, place, if_pos hr, checked]
    cases adopt ns.length w.arrays r <;> rfl
  cases ha : adopt ns.length w.arrays r with
  | error e => rw [hx w ns hr, ha] at h; simp at h
  | ok arrays' =>
    obtain ⟨t, t', ht, rfl, hne, hh⟩ := adopt_spec ha
    have hz : ZeroBased ns.length t' ∧ t'.flatten ≠ [] := by
      rcases hh with ⟨hz, rfl⟩ | ⟨ho, rfl⟩
      · exact ⟨hz, hne⟩
      · refine ⟨one_lowered ho, ?_⟩
        rw [← List.map_flatten]
        simpa using hne
    have hr' : r < (w.arrays.set r t').length := by simpa using hr
    have hget : (w.arrays.set r t')[r]? = some t' := List.getElem?_set_self hr
    have hag : adopt ns'.length (w.arrays.set r t') r = .ok (w.arrays.set r t') := by
      unfold adopt
      rw [hget, hl]
      simp only [(C25_faces_setter ns.length t' hz.2).1 hz.1]
      rw [set_same hget]
    refine ⟨t', ?_⟩
    rw [hx w ns hr, ha]
    simp only
    have e2 := hx ⟨w.arrays.set r t', w.grids ++ [(⟨ns, some r⟩ : Held K)]⟩ ns' hr'
    simp only [hag] at e2
    rw [e2]
    refine ⟨rfl, rfl, ?_, ?_⟩
    · simp [facesAt, hget]
    · simp [facesAt, hget]

private theorem place_given (w : World K) (s : Src) (ns : List (K × K)) (ff : Option Table) (t : Table)
    (h : givenFaces w (.create ns (some s) ff) = some t) :
    ∃ arrays r, place w s = some (arrays, r) ∧ arrays[r]? = some t := by
  cases s with
  | values u =>
    simp only [givenFaces, Option.some.injEq] at h
    subst h
    exact ⟨_, _, rfl, by simp⟩
  | arr r =>
    simp only [givenFaces] at h
    have hr := (List.getElem?_eq_some_iff.mp h).1
    exact ⟨w.arrays, r, by simp [place, hr], h⟩
  | ofGrid k =>
    simp only [givenFaces, facesAt] at h
    cases hg : w.grids[k]? with
    | none => simp [hg] at h
    | some x =>
      cases hf : x.faces with
      | none => simp [hg, hf] at h
      | some r =>
        simp only [hg, hf] at h
        exact ⟨w.arrays, r, by simp [place, hg, hf], h⟩

/-- C174. Whatever arrays and grids there are, a grid is made from faces if and only if it is made
from a copy of them, with the same exception if it is not, and has the same nodes and faces. -/
theorem C174_new (w : World K) (ns : List (K × K)) (s : Option Src) (ff : Option Table)
    (hs : s.isSome → (givenFaces w (.create ns s ff)).isSome) :
    match construct { nodes := some ns, faces := givenFaces w (.create ns s ff), faceFace := ff } with
    | .error e => (exec w (.create ns s ff)).2 = some e
    | .ok g => (exec w (.create ns s ff)).2 = none ∧
        facesAt (exec w (.create ns s ff)).1 w.grids.length = g.faces ∧
        ((exec w (.create ns s ff)).1.grids[w.grids.length]?).map Held.nodes = some g.nodes := by
  have cn : ∀ x : Option Table, checked x none = .ok none := fun _ => rfl
  cases s with
  | none =>
    simp only [construct, nodesOf, givenFaces, facesOf, exec, Option.isSome_none, Bool.or_self,
      Bool.false_eq_true, if_false, cn]
    cases hc : checked none ff with
    | error e => simp
    | ok x => simp [facesAt]
  | some s =>
    obtain ⟨t, ht⟩ := Option.isSome_iff_exists.mp (hs rfl)
    obtain ⟨arrays, r, hp, hr⟩ := place_given w s ns ff t ht
    rw [ht]
    simp only [construct, nodesOf, facesOf, exec, hp, adopt, hr, Option.isSome_none, Bool.or_self,
      Bool.false_eq_true, if_false]
    cases hset : UTopo.setFaces ns.length t with
    | error e => simp
    | ok t' =>
      have hget : (arrays.set r t')[r]? = some t' :=
        List.getElem?_set_self (List.getElem?_eq_some_iff.mp hr).1
      simp only [hget, cn]
      cases hc : checked (some t') ff with
      | error e => simp
      | ok x => simp [facesAt, hget]

end

/-- A grid without faces but with a table of neighbours is refused either way. -/
example : (exec (⟨[], []⟩ : World ℚ) (.create [(0, 0)] none (some []))).2 = some .typeError ∧
    construct ({ nodes := some [(0, 0)], faceFace := some [] } : Args ℚ) = .error .typeError := by
  decide +kernel

/-- Two grids from one array counted from one. -/
example : (exec (⟨[[[1, 2, 3]]], []⟩ : World ℚ)
      (.create [(0, 0), (1, 0), (0, 1)] (some (.arr 0)) none)).2 = none ∧
    facesAt (run (⟨[[[1, 2, 3]]], []⟩ : World ℚ) [.create [(0, 0), (1, 0), (0, 1)] (some (.arr 0)) none,
      .create [(0, 0), (1, 0), (0, 1)] (some (.arr 0)) none]) 1 = some [[0, 1, 2]] := by
  decide +kernel

/-- The hypotheses of `C174_partial` can be met with an array counted from zero. -/
example : ∀ n t, nodesFor (run (⟨[[[0, 1, 2]]], []⟩ : World ℚ) []) (.create [(0, 0), (1, 0), (0, 1)]
      (some (.arr 0)) none) = some n →
    givenFaces (run (⟨[[[0, 1, 2]]], []⟩ : World ℚ) []) (.create [(0, 0), (1, 0), (0, 1)]
      (some (.arr 0)) none) = some t → ¬ OneBased n t := by
  intro n t hn ht ho
  cases hn
  cases ht
  have := ho.1 [0, 1, 2] (by simp) 0 (by simp)
  omega

end Verif
