import Verif.Model.Var
import Verif.Model.UTopo
import Verif.Spec.Dataset
import Verif.Lemmas.Dataset
import Mathlib.Data.List.Induction

/-!
# Properties of the state of variables: C87 to C92
-/

set_option autoImplicit false

namespace Verif
open Verif.Spec Verif.Var

section
variable {γ : Type} (infer : γ → Data → Except Err (Option String))

/-! ## C87: time and data -/

/-- The time axis has at most one entry, or as many as the first dimension of the data. -/
def TimeFits (s : State γ) : Prop :=
  ∀ n, s.time = some n → ∃ d m rest, s.data = some d ∧ d.shape = m :: rest ∧ (n = m ∨ n ≤ 1)

theorem setLocation_ok (s s' : State γ) (l : Option String) (h : setLocation s l = .ok s') :
    s' = { s with loc := l } ∧ ∀ x, l = some x → KnownLocation x := by
  unfold setLocation at h
  cases l with
  | none =>
    cases h
    exact ⟨rfl, by simp⟩
  | some x =>
    simp only at h
    split at h
    · next hx =>
      cases h
      refine ⟨rfl, ?_⟩
      rintro y ⟨⟩
      exact (Dataset.known_iff _).1 hx
    · cases h

theorem setData_ok (s s' : State γ) (d : Data) (h : setData infer s d = .ok s') :
    checkLength s.time d = .ok () ∧ ∃ l, s' = { s with loc := l, data := some d } ∧
      ((s.grid = none ∧ l = s.loc) ∨ ((∃ x, s.location = some x) ∧ l = s.loc) ∨
        ∃ g x, s.grid = some g ∧ s.location = none ∧ infer g d = .ok (some x) ∧ l = some x ∧
          KnownLocation x) := by
  unfold setData at h
  cases hc : checkLength s.time d with
  | error e =>
    rw [hc] at h
    cases h
  | ok u =>
    rw [hc] at h
    refine ⟨rfl, ?_⟩
    simp only [bind, Except.bind] at h
    cases hg : s.grid with
    | none =>
      rw [hg] at h
      cases h
      exact ⟨s.loc, by simp [hg], Or.inl ⟨rfl, rfl⟩⟩
    | some g =>
      rw [hg] at h
      simp only at h
      cases hl : s.location with
      | some x =>
        rw [hl] at h
        cases h
        exact ⟨s.loc, by simp [hg], Or.inr (Or.inl ⟨⟨x, rfl⟩, rfl⟩)⟩
      | none =>
        rw [hl] at h
        simp only at h
        cases hi : infer g d with
        | error e =>
          rw [hi] at h
          cases h
        | ok l =>
          rw [hi] at h
          simp only at h
          cases hs : setLocation s l with
          | error e =>
            rw [hs] at h
            cases h
          | ok s1 =>
            rw [hs] at h
            obtain ⟨e1, e2⟩ := setLocation_ok s s1 l hs
            subst e1
            simp only at h
            split at h
            · cases h
            · next x hx =>
              cases h
              refine ⟨l, by simp [hg], Or.inr (Or.inr ?_)⟩
              cases l with
              | none =>
                exfalso
                have hn : s.data.bind Data.location = none := by
                  unfold State.location at hl
                  cases hloc : s.loc with
                  | none => simpa [hloc] using hl
                  | some y => simp [hloc] at hl
                unfold State.location at hx
                simp only at hx
                rw [hn] at hx
                cases hx
              | some y => exact ⟨g, y, rfl, rfl, hi, rfl, e2 y rfl⟩

theorem setTime_ok (s s' : State γ) (t : TimeArg) (h : setTime s t = .ok s') :
    (t = .none ∧ s' = { s with time := none }) ∨
      ∃ n, t = .series n ∧ s' = { s with time := some n } ∧
        (s.data = none ∨ ∃ d m rest, s.data = some d ∧ d.shape = m :: rest ∧ (n = m ∨ n ≤ 1)) := by
  unfold setTime at h
  cases t with
  | none =>
    cases h
    exact Or.inl ⟨rfl, rfl⟩
  | series n =>
    refine Or.inr ⟨n, rfl, ?_⟩
    cases hd : s.data with
    | none =>
      rw [hd] at h
      cases h
      exact ⟨by simp [hd], Or.inl rfl⟩
    | some d =>
      rw [hd] at h
      simp only at h
      cases hs : d.shape with
      | nil =>
        rw [hs] at h
        cases h
      | cons m rest =>
        rw [hs] at h
        simp only at h
        by_cases hn : n ≠ m ∧ 1 < n
        · rw [if_pos hn] at h
          cases h
        · rw [if_neg hn] at h
          cases h
          refine ⟨by simp [hd], Or.inr ⟨d, m, rest, rfl, hs, ?_⟩⟩
          omega
  | refused n =>
    exfalso
    simp only [bind, Except.bind] at h
    split at h <;> cases h
  | unsized =>
    exfalso
    simp only at h
    split at h <;> cases h

theorem make_ok (grid : Option γ) (depth : Bool) (location : Option String) (data : Option Data)
    (time : TimeArg) (s : State γ) (h : make infer grid depth location data time = .ok s) :
    ∃ s1 s2, setLocation ⟨grid, depth, none, none, none, none⟩ location = .ok s1 ∧
      setData infer s1 (data.getD ⟨[], none⟩) = .ok s2 ∧ setTime s2 time = .ok s := by
  unfold make at h
  simp only [bind, Except.bind] at h
  split at h
  · cases h
  · next s1 h1 =>
    split at h
    · cases h
    · next s2 h2 => exact ⟨s1, s2, h1, h2, h⟩

theorem make_data (grid : Option γ) (depth : Bool) (location : Option String) (data : Option Data)
    (time : TimeArg) (s : State γ) (h : make infer grid depth location data time = .ok s) :
    s.data = some (data.getD ⟨[], none⟩) ∧ s.grid = grid ∧ s.depth = depth ∧ s.order = none ∧
      (s.time = none ↔ time = .none) ∧
      (∀ l, location = some l → s.loc = some l ∧ KnownLocation l) ∧
      (location = none → (grid = none ∧ s.loc = none) ∨
        ∃ g x, grid = some g ∧ infer g (data.getD ⟨[], none⟩) = .ok (some x) ∧ s.loc = some x) := by
  obtain ⟨s1, s2, h1, h2, h3⟩ := make_ok infer grid depth location data time s h
  obtain ⟨e1, k1⟩ := setLocation_ok _ _ _ h1
  obtain ⟨-, l, e2, k2⟩ := setData_ok infer _ _ _ h2
  have hs : s.data = some (data.getD ⟨[], none⟩) ∧ s.grid = grid ∧ s.depth = depth ∧
      s.order = none ∧ s.loc = l ∧ (s.time = none ↔ time = .none) := by
    rcases setTime_ok _ _ _ h3 with ⟨ht, e3⟩ | ⟨n, ht, e3, -⟩
    · rw [e3, e2, e1]
      simp [ht]
    · rw [e3, e2, e1]
      simp [ht]
  obtain ⟨a1, a2, a3, a4, a5, a6⟩ := hs
  refine ⟨a1, a2, a3, a4, a6, ?_, ?_⟩
  · intro x hx
    subst hx
    refine ⟨?_, k1 x rfl⟩
    rw [e1] at k2
    rcases k2 with ⟨-, k⟩ | ⟨-, k⟩ | ⟨g, y, -, k, -⟩
    · rw [a5, k]
    · rw [a5, k]
    · simp [State.location] at k
  · intro hx
    subst hx
    rw [e1] at k2
    rcases k2 with ⟨k, k'⟩ | ⟨⟨y, k⟩, -⟩ | ⟨g, y, k, -, k', k2, -⟩
    · exact Or.inl ⟨k, by rw [a5, k']⟩
    · simp [State.location] at k
    · exact Or.inr ⟨g, y, k, k', by rw [a5, k2]⟩

theorem timeFits_setTime (s s' : State γ) (t : TimeArg) (hd : s.data ≠ none)
    (h : setTime s t = .ok s') : TimeFits s' := by
  rcases setTime_ok _ _ _ h with ⟨-, rfl⟩ | ⟨n, -, rfl, hh | hh⟩
  · intro n hn
    cases hn
  · exact absurd hh hd
  · intro m hm
    cases hm
    exact hh

/-- C87: after construction and any assignments, the time axis has at most one entry or as many
as the data. -/
theorem C87_lengths (grid : Option γ) (depth : Bool) (location : Option String)
    (data : Option Data) (time : TimeArg) (s : State γ)
    (h : make infer grid depth location data time = .ok s) (ops : List (Op γ)) :
    TimeFits (ops.foldl (step infer) s) := by
  have key : TimeFits (ops.foldl (step infer) s) ∧ (ops.foldl (step infer) s).data ≠ none := by
    induction ops using List.reverseRecOn with
    | nil =>
      obtain ⟨s1, s2, h1, h2, h3⟩ := make_ok infer grid depth location data time s h
      obtain ⟨-, l, e2, -⟩ := setData_ok infer _ _ _ h2
      refine ⟨timeFits_setTime s2 s time (by simp [e2]) h3, ?_⟩
      simp [(make_data infer grid depth location data time s h).1]
    | append_singleton ops op ih =>
      rw [List.foldl_append]
      simp only [List.foldl_cons, List.foldl_nil]
      generalize ops.foldl (step infer) s = t at ih
      obtain ⟨i1, i2⟩ := ih
      cases op with
      | location l =>
        simp only [step]
        cases hs : setLocation t l with
        | error e => exact ⟨i1, i2⟩
        | ok t' =>
          obtain ⟨rfl, -⟩ := setLocation_ok _ _ _ hs
          exact ⟨i1, i2⟩
      | data d =>
        simp only [step]
        cases hs : setData infer t d with
        | error e => exact ⟨i1, i2⟩
        | ok t' =>
          obtain ⟨hc, l, rfl, -⟩ := setData_ok infer _ _ _ hs
          refine ⟨?_, by simp [keep]⟩
          intro n hn
          simp only [keep] at hn
          unfold checkLength at hc
          rw [hn] at hc
          simp only at hc
          cases hsh : d.shape with
          | nil =>
            rw [hsh] at hc
            cases hc
          | cons m rest =>
            rw [hsh] at hc
            simp only at hc
            split at hc
            · next hm => exact ⟨d, m, rest, rfl, hsh, Or.inl hm.symm⟩
            · cases hc
      | time a =>
        simp only [step]
        cases hs : setTime t a with
        | error e => exact ⟨i1, i2⟩
        | ok t' =>
          refine ⟨timeFits_setTime t t' a i2 hs, ?_⟩
          rcases setTime_ok _ _ _ hs with ⟨-, rfl⟩ | ⟨n, -, rfl, -⟩ <;> exact i2
      | order o => exact ⟨i1, i2⟩
      | grid g => exact ⟨i1, i2⟩
      | depth b => exact ⟨i1, i2⟩
  exact key.1

/-- C87: a time axis of another length is refused. -/
theorem C87_time_refused (s : State γ) (d : Data) (m : Nat) (rest : List Nat) (n : Nat)
    (hd : s.data = some d) (hs : d.shape = m :: rest) (hn : 1 < n) (hm : n ≠ m) :
    setTime s (.series n) = .error .valueError := by
  unfold setTime
  simp [hd, hs, hn, hm, bind, Except.bind]

/-- C87: data of another length than the time axis are refused. -/
theorem C87_data_refused (s : State γ) (d : Data) (m : Nat) (rest : List Nat) (n : Nat)
    (ht : s.time = some n) (hs : d.shape = m :: rest) (hm : m ≠ n) :
    setData infer s d = .error .valueError := by
  unfold setData checkLength
  simp [ht, hs, hm, bind, Except.bind]

/-! ## C88: assigning data again -/

/-- C88: data a variable holds may be assigned to it again. -/
def C88_statement : Prop :=
  ∀ (γ : Type) (infer : γ → Data → Except Err (Option String)) (grid : Option γ) (depth : Bool)
    (location : Option String) (d : Data) (time : TimeArg) (s : State γ),
    make infer grid depth location (some d) time = .ok s → ∃ s', setData infer s d = .ok s'

/-- The code is wrong: with a time axis of one entry the constructor takes data of any length,
assignment does not. -/
theorem C88_refuted : ¬ C88_statement := by
  intro h
  obtain ⟨s', hs⟩ := h Unit (fun _ _ => .ok none) none false none ⟨[3, 3], none⟩ (.series 1)
    ⟨none, false, none, some ⟨[3, 3], none⟩, some 1, none⟩ rfl
  cases hs

/-- C88 without a time axis, or with one as long as the data: then any data of the same length may
be assigned. Time axes of one entry are missing, see `C88_refuted`. -/
theorem C88_partial (grid : Option γ) (depth : Bool) (location : Option String) (d : Data)
    (time : TimeArg) (s : State γ) (h : make infer grid depth location (some d) time = .ok s)
    (d' : Data) (m : Nat) (rest : List Nat) (hd' : d'.shape = m :: rest)
    (ht : s.time = none ∨ s.time = some m) :
    ∃ s', setData infer s d' = .ok s' ∧ s' = { s with data := some d' } := by
  obtain ⟨a1, a2, a3, a4, a5, a6, a7⟩ := make_data infer grid depth location _ time s h
  refine ⟨{ s with data := some d' }, ?_, rfl⟩
  have hc : checkLength s.time d' = .ok () := by
    unfold checkLength
    rcases ht with ht | ht <;> simp [ht, hd']
  unfold setData
  rw [hc]
  simp only [bind, Except.bind]
  cases hg : s.grid with
  | none => rfl
  | some g =>
    have hloc : ∃ x, s.location = some x := by
      unfold State.location
      cases hl : location with
      | some l =>
        rw [(a6 l hl).1]
        exact ⟨l, rfl⟩
      | none =>
        rcases a7 hl with ⟨hn, -⟩ | ⟨g', x, -, -, hx⟩
        · rw [← a2, hg] at hn
          cases hn
        · rw [hx]
          exact ⟨x, rfl⟩
    obtain ⟨x, hx⟩ := hloc
    simp only [hx]

/-! ## C89: data and grid -/

/-- C89: the location of a variable is where its data fit its grid. -/
def C89_statement : Prop :=
  ∀ (γ : Type) (infer : γ → Data → Except Err (Option String)) (g : γ) (depth : Bool) (d : Data)
    (time : TimeArg) (s : State γ), make infer (some g) depth none (some d) time = .ok s →
    ∀ (ops : List Data) (d' : Data),
      ((ops.map Op.data).foldl (step infer) s).data = some d' →
      ∃ l, ((ops.map Op.data).foldl (step infer) s).location = some l ∧ infer g d' = .ok (some l)

/-- The code is wrong: the location found for the first data is kept, and later data are not
compared with the grid. -/
theorem C89_refuted : ¬ C89_statement := by
  intro h
  obtain ⟨l, -, hl⟩ := h Unit (fun _ d => if d.shape = [4] then .ok (some "node") else .ok none) ()
    false ⟨[4], none⟩ .none ⟨some (), false, some "node", some ⟨[4], none⟩, none, none⟩ rfl
    [⟨[9], none⟩] ⟨[9], none⟩ rfl
  cases hl

/-- C89 for new variables, if no location is given; later data are missing, see `C89_refuted`. -/
theorem C89_partial (g : γ) (depth : Bool) (d : Data) (time : TimeArg) (s : State γ)
    (h : make infer (some g) depth none (some d) time = .ok s) :
    ∃ l, s.location = some l ∧ infer g d = .ok (some l) := by
  obtain ⟨-, -, -, -, -, -, a7⟩ := make_data infer _ depth none _ time s h
  rcases a7 rfl with ⟨hn, -⟩ | ⟨g', x, hg, hx, hl⟩
  · cases hn
  · cases hg
    exact ⟨x, by simp [State.location, hl], hx⟩

/-- Data that fit nowhere are refused if no location is given. -/
theorem C89_misfit (g : γ) (depth : Bool) (d : Data) (time : TimeArg)
    (h : infer g d = .ok none) : make infer (some g) depth none (some d) time = .error .valueError := by
  simp [make, setLocation, setData, checkLength, State.location, h, bind, Except.bind]

/-! ## C90: stated locations -/

/-- C90: data that state a known location are there. -/
def C90_statement : Prop :=
  ∀ (γ : Type) (infer : γ → Data → Except Err (Option String)) (g : γ) (depth : Bool) (d : Data)
    (time : TimeArg) (s : State γ) (l : String), KnownLocation l → d.location = some l →
    make infer (some g) depth none (some d) time = .ok s → s.location = some l

/-- The location by size on an unstructured grid, see `UTopo.inferLocation`. -/
def bySize (counts : Nat × Nat) (d : Data) : Except Err (Option String) :=
  .ok ((UTopo.inferLocation counts.1 (some counts.2) none d.shape).map (fun w => match w with
    | .node => "node"
    | .face => "face"
    | .boundary => "boundary"))

/-- The code is wrong: on an unstructured grid with as many nodes as faces, data on the faces are
taken to be on the nodes. -/
theorem C90_refuted : ¬ C90_statement := by
  intro h
  have := h (Nat × Nat) bySize (4, 4) false ⟨[4], some "face"⟩ .none
    ⟨some (4, 4), false, some "node", some ⟨[4], some "face"⟩, none, none⟩ "face"
    (by simp [KnownLocation]) rfl rfl
  revert this
  decide

/-- C90 for variables loaded from a file, if no location is given. -/
theorem C90_file_partial (structured : γ → Bool) (g : γ) (d : Data) (located time : Option Nat)
    (depth : Bool) (s : State γ) (l : String) (hl : d.location = some l)
    (h : fromFile structured infer g d located time depth none = .ok s) :
    s.location = some l ∧ KnownLocation l := by
  unfold fromFile at h
  obtain ⟨-, -, -, -, -, a6, -⟩ := make_data infer _ _ _ _ _ s h
  obtain ⟨b1, b2⟩ := a6 l (by simp [hl])
  exact ⟨by simp [State.location, b1], b2⟩

/-- C90 for variables loaded from a file: a location given by the caller has precedence. -/
theorem C90_file_given (structured : γ → Bool) (g : γ) (d : Data) (located time : Option Nat)
    (depth : Bool) (s : State γ) (l : String)
    (h : fromFile structured infer g d located time depth (some l) = .ok s) :
    s.location = some l ∧ KnownLocation l := by
  unfold fromFile at h
  obtain ⟨-, -, -, -, -, a6, -⟩ := make_data infer _ _ _ _ _ s h
  obtain ⟨b1, b2⟩ := a6 l rfl
  exact ⟨by simp [State.location, b1], b2⟩

/-- C90 for a location given by the caller. -/
theorem C90_given (grid : Option γ) (depth : Bool) (l : String) (data : Option Data)
    (time : TimeArg) (s : State γ) (h : make infer grid depth (some l) data time = .ok s) :
    s.location = some l ∧ KnownLocation l := by
  obtain ⟨-, -, -, -, -, a6, -⟩ := make_data infer _ depth _ _ time s h
  obtain ⟨b1, b2⟩ := a6 l rfl
  exact ⟨by simp [State.location, b1], b2⟩

/-- Unknown locations are refused. -/
theorem C90_unknown (grid : Option γ) (depth : Bool) (l : String) (data : Option Data)
    (time : TimeArg) (h : ¬ KnownLocation l) :
    make infer grid depth (some l) data time = .error .valueError := by
  have hx : l ∉ validLocations := fun hx => h ((Dataset.known_iff l).1 hx)
  simp [make, setLocation, hx, bind, Except.bind]

/-! ## C91: the order of dimensions -/

/-- C91: an order not assigned names a time only if the variable has one, and a depth likewise. -/
def C91_statement : Prop :=
  ∀ (γ : Type) (structured : γ → Bool) (s : State γ) (o : List String), s.order = none →
    ordering structured s = .ok o →
    ("time" ∈ o → s.time ≠ none) ∧ ("depth" ∈ o → s.depth = true)

/-- The code is wrong: of data with all dimensions it is not asked whether there is a depth. -/
theorem C91_refuted : ¬ C91_statement := by
  intro h
  have := (h Unit (fun _ => true) ⟨some (), false, some "node", some ⟨[1, 2, 3, 4], none⟩, none, none⟩
    ["time", "depth", "lon", "lat"] rfl rfl).2 (by simp)
  cases this

theorem generate_cases (structured time depth : Bool) (ndim : Nat) :
    (ndim = (spatial structured).length →
      generate structured time depth ndim = .ok (spatial structured)) ∧
    (ndim = (spatial structured).length + 1 → time = true →
      generate structured time depth ndim = .ok ("time" :: spatial structured)) ∧
    (ndim = (spatial structured).length + 1 → time = false → depth = true →
      generate structured time depth ndim = .ok ("depth" :: spatial structured)) ∧
    (ndim = (spatial structured).length + 1 → time = false → depth = false →
      generate structured time depth ndim = .error .valueError) ∧
    (ndim = (spatial structured).length + 2 →
      generate structured time depth ndim = .ok ("time" :: "depth" :: spatial structured)) ∧
    (ndim < (spatial structured).length ∨ (spatial structured).length + 2 < ndim →
      generate structured time depth ndim = .error .valueError) := by
  refine ⟨?_, ?_, ?_, ?_, ?_, ?_⟩
  · rintro rfl
    cases structured <;> rfl
  · rintro rfl rfl
    cases structured <;> rfl
  · rintro rfl rfl rfl
    cases structured <;> rfl
  · rintro rfl rfl rfl
    cases structured <;> rfl
  · rintro rfl
    cases structured <;> rfl
  · intro h
    have hl : (if structured = true then ["time", "depth", "lon", "lat"]
        else ["time", "depth", "ele"]).length = (spatial structured).length + 2 := by
      cases structured <;> rfl
    unfold generate
    simp only [hl]
    rw [if_neg (by omega), if_neg (by omega), if_neg (by omega)]

/-- C91: the order has one name for each dimension of the data and ends with the horizontal
dimensions. -/
theorem C91_dimensions (structured : γ → Bool) (s : State γ) (d : Data) (o : List String)
    (ho : s.order = none) (hd : s.data = some d) (h : ordering structured s = .ok o) :
    o.length = d.shape.length ∧
      ∃ pre, o = pre ++ spatial ((s.grid.map structured).getD false) ∧
        pre.Sublist ["time", "depth"] := by
  unfold ordering at h
  simp only [ho, hd] at h
  generalize (s.grid.map structured).getD false = b at h
  obtain ⟨c1, c2, c3, c4, c5, c6⟩ := generate_cases b s.time.isSome s.depth d.shape.length
  by_cases h1 : d.shape.length = (spatial b).length
  · rw [c1 h1] at h
    cases h
    exact ⟨h1.symm, [], rfl, by simp⟩
  · by_cases h2 : d.shape.length = (spatial b).length + 1
    · cases ht : s.time.isSome
      · cases hdp : s.depth
        · rw [c4 h2 ht hdp] at h
          cases h
        · rw [c3 h2 ht hdp] at h
          cases h
          exact ⟨by simp [h2], ["depth"], rfl, by simp⟩
      · rw [c2 h2 ht] at h
        cases h
        exact ⟨by simp [h2], ["time"], rfl, by simp⟩
    · by_cases h3 : d.shape.length = (spatial b).length + 2
      · rw [c5 h3] at h
        cases h
        exact ⟨by simp [h3], ["time", "depth"], rfl, by simp⟩
      · rw [c6 (by omega)] at h
        cases h

/-- C91 with at most one dimension besides the horizontal ones: a time is named only if there is
one, a depth likewise. Two more dimensions are missing, see `C91_refuted`. -/
theorem C91_partial (structured : γ → Bool) (s : State γ) (d : Data) (o : List String)
    (ho : s.order = none) (hd : s.data = some d) (h : ordering structured s = .ok o)
    (hn : d.shape.length ≤ (spatial ((s.grid.map structured).getD false)).length + 1) :
    ("time" ∈ o → s.time ≠ none) ∧ ("depth" ∈ o → s.depth = true) := by
  unfold ordering at h
  simp only [ho, hd] at h
  generalize (s.grid.map structured).getD false = b at h hn
  have hsp : "time" ∉ spatial b ∧ "depth" ∉ spatial b := by cases b <;> decide
  obtain ⟨c1, c2, c3, c4, c5, c6⟩ := generate_cases b s.time.isSome s.depth d.shape.length
  by_cases h1 : d.shape.length = (spatial b).length
  · rw [c1 h1] at h
    cases h
    exact ⟨fun hh => absurd hh hsp.1, fun hh => absurd hh hsp.2⟩
  · by_cases h2 : d.shape.length = (spatial b).length + 1
    · cases ht : s.time.isSome
      · cases hdp : s.depth
        · rw [c4 h2 ht hdp] at h
          cases h
        · rw [c3 h2 ht hdp] at h
          cases h
          exact ⟨by simp [hsp.1], fun _ => rfl⟩
      · rw [c2 h2 ht] at h
        cases h
        refine ⟨fun _ hh => ?_, by simp [hsp.2]⟩
        rw [hh] at ht
        cases ht
    · rw [c6 (by omega)] at h
      cases h

/-- C91: with one dimension besides the horizontal ones, a time has precedence over a depth, and
without both `ValueError` is raised. -/
theorem C91_one (structured : γ → Bool) (s : State γ) (d : Data) (ho : s.order = none)
    (hd : s.data = some d)
    (hn : d.shape.length = (spatial ((s.grid.map structured).getD false)).length + 1) :
    (s.time ≠ none → ordering structured s =
      .ok ("time" :: spatial ((s.grid.map structured).getD false))) ∧
    (s.time = none → s.depth = true → ordering structured s =
      .ok ("depth" :: spatial ((s.grid.map structured).getD false))) ∧
    (s.time = none → s.depth = false → ordering structured s = .error .valueError) := by
  unfold ordering
  simp only [ho, hd]
  generalize (s.grid.map structured).getD false = b at hn
  obtain ⟨-, c2, c3, c4, -, -⟩ := generate_cases b s.time.isSome s.depth d.shape.length
  exact ⟨fun h => c2 hn (by simpa [Option.isSome_iff_ne_none] using h),
    fun h h' => c3 hn (by simp [h]) h', fun h h' => c4 hn (by simp [h]) h'⟩

/-- Data of too few or too many dimensions raise `ValueError`. -/
theorem C91_misfit (structured : γ → Bool) (s : State γ) (d : Data) (ho : s.order = none)
    (hd : s.data = some d)
    (hn : d.shape.length < (spatial ((s.grid.map structured).getD false)).length ∨
      (spatial ((s.grid.map structured).getD false)).length + 2 < d.shape.length) :
    ordering structured s = .error .valueError := by
  unfold ordering
  simp only [ho, hd]
  exact (generate_cases _ _ _ _).2.2.2.2.2 hn

/-- An assigned order is used as it is. -/
theorem C91_assigned (structured : γ → Bool) (s : State γ) (o : List String)
    (ho : s.order = some o) : ordering structured s = .ok o := by
  simp [ordering, ho]

/-! ## C92: variables of files -/

/-- C92: a variable of a file, whose data have the horizontal dimensions and perhaps a time and a
depth, has a depth exactly if its data have one, and its dimensions are in the order of the data.
`located` is the time axis found in the file, `time` one given by the caller. -/
def C92_statement : Prop :=
  ∀ (γ : Type) (structured : γ → Bool) (infer : γ → Data → Except Err (Option String)) (g : γ)
    (d : Data) (hasTime hasDepth : Bool) (n : Nat) (time : Option Nat) (location : Option String)
    (s : State γ), d.shape.length = (orderOf (structured g) hasTime hasDepth).length →
    fromFile structured infer g d (if hasTime then some n else none) time false location = .ok s →
    s.depth = hasDepth ∧
      ordering structured s = .ok (orderOf (structured g) hasTime hasDepth)

/-- The code is wrong: data with a depth and without a time are given the time axis `Time()` and
taken for a time series. -/
theorem C92_refuted : ¬ C92_statement := by
  intro h
  have := (h Unit (fun _ => true) (fun _ _ => .ok (some "node")) () ⟨[5, 3, 4], none⟩ false true 0
    none none ⟨some (), true, some "node", some ⟨[5, 3, 4], none⟩, some 1, none⟩ rfl rfl).2
  revert this
  decide

/-- With a time axis given by the caller, data with a depth and without a time get no depth. -/
theorem C92_given_counterexample :
    ∃ s : State Unit, fromFile (fun _ => true) (fun _ _ => .ok (some "node")) () ⟨[5, 3, 4], none⟩ none
      (some 1) false none = .ok s ∧ s.depth = false :=
  ⟨⟨some (), false, some "node", some ⟨[5, 3, 4], none⟩, some 1, none⟩, rfl, rfl⟩

theorem fromFile_depth (structured : γ → Bool) (g : γ) (d : Data) (located time : Option Nat)
    (depth : Bool) (location : Option String) (s : State γ)
    (h : fromFile structured infer g d located time depth location = .ok s) :
    s.depth = (fileParts (structured g) d.shape.length located time depth).2 ∧
      s.data = some d ∧ s.grid = some g ∧ s.order = none ∧ s.time ≠ none := by
  unfold fromFile at h
  obtain ⟨a1, a2, a3, a4, a5, -, -⟩ := make_data infer _ _ _ _ _ s h
  exact ⟨a3, a1, a2, a4, fun hn => by simpa using a5.1 hn⟩

/-- C92 for the depth, if no time is given or the data have a time. -/
theorem C92_depth_partial (structured : γ → Bool) (g : γ) (d : Data) (hasTime hasDepth : Bool)
    (n : Nat) (time : Option Nat) (location : Option String) (s : State γ)
    (hd : d.shape.length = (orderOf (structured g) hasTime hasDepth).length)
    (ht : time = none ∨ hasTime = true)
    (h : fromFile structured infer g d (if hasTime then some n else none) time false location =
      .ok s) : s.depth = hasDepth := by
  rw [(fromFile_depth infer structured g d _ _ _ _ s h).1]
  unfold fileParts
  rw [hd]
  generalize structured g = b
  rcases ht with rfl | rfl
  · cases b <;> cases hasTime <;> cases hasDepth <;> rfl
  · cases time <;> cases b <;> cases hasDepth <;> rfl

/-- C92 for the order, if the data have a time or no depth. Data with a depth and without a time
are missing, see `C92_refuted`. -/
theorem C92_order_partial (structured : γ → Bool) (g : γ) (d : Data) (hasTime hasDepth : Bool)
    (n : Nat) (time : Option Nat) (location : Option String) (s : State γ)
    (hd : d.shape.length = (orderOf (structured g) hasTime hasDepth).length)
    (ht : hasTime = true ∨ hasDepth = false)
    (h : fromFile structured infer g d (if hasTime then some n else none) time false location =
      .ok s) : ordering structured s = .ok (orderOf (structured g) hasTime hasDepth) := by
  obtain ⟨-, a2, a3, a4, a5⟩ := fromFile_depth infer structured g d _ _ _ _ s h
  unfold ordering
  simp only [a4, a2, a3, Option.map_some, Option.getD_some]
  have htm : s.time.isSome = true := by simpa [Option.isSome_iff_ne_none] using a5
  rw [htm, hd]
  generalize structured g = b
  cases b <;> cases hasTime <;> cases hasDepth <;> cases s.depth <;> simp at ht <;> decide

end

/-- A variable on an unstructured grid, with a time axis, survives an assignment of new data of
the same length and refuses others. -/
example :
    let s : State (Nat × Nat) := ⟨some (4, 6), false, some "face", some ⟨[3, 6], none⟩, some 3, none⟩
    make bySize (some (4, 6)) false none (some ⟨[3, 6], none⟩) (.series 3) = .ok s ∧
      (setData bySize s ⟨[3, 6], none⟩).toOption.isSome = true ∧
      (step bySize (step bySize s (.data ⟨[2, 6], none⟩)) (.time (.series 2))).time = some 3 ∧
      (ordering (fun _ => false) s) = .ok ["time", "ele"] :=
  ⟨rfl, rfl, rfl, rfl⟩

/-- A variable of a file with time and depth. -/
example : ∃ s : State Unit, fromFile (fun _ => true) (fun _ _ => .ok (some "node")) ()
    ⟨[2, 5, 3, 4], some "center"⟩ (some 2) none false none = .ok s ∧ s.depth = true ∧
    s.location = some "center" ∧ ordering (fun _ => true) s = .ok ["time", "depth", "lon", "lat"] :=
  ⟨⟨some (), true, some "center", some ⟨[2, 5, 3, 4], some "center"⟩, some 2, none⟩, rfl, rfl, rfl, rfl⟩

end Verif
