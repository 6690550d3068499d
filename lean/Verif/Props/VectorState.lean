import Verif.Model.VectorState
import Verif.Props.Vector

/-!
# C136-C138: assignments to vector variables, vector variables of files
-/

set_option autoImplicit false

namespace Verif
open Verif.Vector

section
variable {τ γ : Type} (len : τ → Nat)

/-! ## C136 -/

/-- A time of this length fits the data of a component. -/
def LengthFits (c : Comp τ) (n : Nat) : Prop :=
  match c.shape with
  | none => True
  | some [] => False
  | some (m :: _) => n = m ∨ n ≤ 1

/-- C136 in full: assigning a time sets it for the vector and every component, if it fits them all,
and otherwise raises an exception and changes nothing. -/
def C136_statement : Prop :=
  ∀ (τ : Type) (len : τ → Nat) (v : VState τ) (g : TimeGiven τ) (t : τ),
    g = .object t ∨ g = .series t →
    ((∀ c ∈ v.comps, LengthFits c (len t)) → ∃ v', setVectorTime len v g = (v', .ok ()) ∧
      v'.time = some t ∧ ∀ c ∈ v'.comps, c.time = some t) ∧
    ((∃ c ∈ v.comps, ¬ LengthFits c (len t)) → ∃ e, setVectorTime len v g = (v, .error e))

/-- C136 fails for a series of datetimes that fits: the components get it, then an exception is raised
and the vector keeps its time. -/
theorem C136_refuted : ¬ C136_statement := by
  intro h
  obtain ⟨v', hv, _⟩ := (h Nat id ⟨[⟨some [2, 5], none, .missing⟩, ⟨some [2, 5], none, .missing⟩], none,
    .missing⟩ (.series 2) 2 (Or.inr rfl)).1 (by simp [LengthFits])
  have := congrArg (fun r => r.2) hv
  exact absurd this (by simp [setVectorTime, eachSetTime, compSetTime, lengthFits])

/-- C136 fails for a `Time` that fits the first component only: the first component gets it and the
second does not. -/
theorem C136_refuted_halfway : ∃ (v : VState Nat) (e : Err),
    (setVectorTime id v (.object 2)).2 = .error e ∧
    (setVectorTime id v (.object 2)).1.comps.map (fun c => c.time) = [some 2, some 3] ∧
    v.comps.map (fun c => c.time) = [none, some 3] :=
  ⟨⟨[⟨some [2, 5], none, .missing⟩, ⟨some [3, 5], some 3, .missing⟩], none, .missing⟩, .valueError,
    rfl, rfl, rfl⟩

theorem lengthFits_iff (c : Comp τ) (n : Nat) : lengthFits c n = .ok () ↔ LengthFits c n := by
  unfold lengthFits LengthFits
  rcases c.shape with _ | _ | ⟨m, r⟩
  · simp
  · simp
  · simp only
    constructor
    · intro h
      split_ifs at h with hc
      omega
    · intro h
      rw [if_neg (by omega)]

theorem each_fits (g : TimeGiven τ) (t : τ) (hg : g = .object t ∨ g = .series t) (cs : List (Comp τ))
    (h : ∀ c ∈ cs, LengthFits c (len t)) :
    eachSetTime len g cs = (cs.map fun c => { c with time := some t }, .ok ()) := by
  induction cs with
  | nil => rfl
  | cons c cs ih =>
    have hc := (lengthFits_iff c (len t)).mpr (h c (List.mem_cons_self ..))
    have := ih fun d hd => h d (List.mem_cons_of_mem _ hd)
    rcases hg with rfl | rfl <;> simp [eachSetTime, compSetTime, hc, this]

/-- C136 for a `Time` and components whose data have the same first dimension: it is set everywhere if
it fits, and refused without a change if it does not. Missing: series of datetimes (`C136_refuted`) and
components of different lengths (`C136_refuted_halfway`). -/
theorem C136_partial (v : VState τ) (t : τ)
    (hs : ∀ c ∈ v.comps, ∀ d ∈ v.comps, LengthFits c (len t) ↔ LengthFits d (len t)) :
    ((∀ c ∈ v.comps, LengthFits c (len t)) →
      setVectorTime len v (.object t) =
        ({ v with time := some t, comps := v.comps.map fun c => { c with time := some t } }, .ok ())) ∧
    ((∃ c ∈ v.comps, ¬ LengthFits c (len t)) → ∃ e, setVectorTime len v (.object t) = (v, .error e)) := by
  constructor
  · intro h
    simp [setVectorTime, each_fits len (.object t) t (Or.inl rfl) v.comps h]
  · rintro ⟨c, hc, hn⟩
    obtain ⟨comps, time, units⟩ := v
    cases comps with
    | nil => cases hc
    | cons d ds =>
      have hd : ¬ LengthFits d (len t) := fun hd => hn ((hs d (List.mem_cons_self ..) c hc).mp hd)
      have : ∃ e, lengthFits d (len t) = .error e := by
        rcases h : lengthFits d (len t) with e | ⟨⟩
        · exact ⟨e, rfl⟩
        · exact absurd ((lengthFits_iff d (len t)).mp h) hd
      obtain ⟨e, he⟩ := this
      exact ⟨reraised e, by simp [setVectorTime, eachSetTime, compSetTime, he]⟩

/-- C136: whatever is assigned and whatever happens, the components stay the same in number, shape and
units, and each has the time it had or the one assigned. -/
theorem C136_components (v : VState τ) (g : TimeGiven τ) :
    List.Forall₂ (fun c c' => c'.shape = c.shape ∧ c'.units = c.units ∧
      (c'.time = c.time ∨ (g = .none ∧ c'.time = none) ∨
        ∃ t, (g = .object t ∨ g = .series t) ∧ c'.time = some t ∧ LengthFits c (len t)))
      v.comps (setVectorTime len v g).1.comps := by
  have h1 : (setVectorTime len v g).1.comps = (eachSetTime len g v.comps).1 := by
    unfold setVectorTime
    rcases eachSetTime len g v.comps with ⟨cs, e | ⟨⟩⟩
    · rfl
    · cases g <;> rfl
  rw [h1]
  have hrefl : ∀ cs : List (Comp τ), List.Forall₂ (fun c c' => c'.shape = c.shape ∧ c'.units = c.units ∧
      (c'.time = c.time ∨ (g = .none ∧ c'.time = none) ∨
        ∃ t, (g = .object t ∨ g = .series t) ∧ c'.time = some t ∧ LengthFits c (len t))) cs cs :=
    fun cs => List.forall₂_same.mpr fun c _ => ⟨rfl, rfl, Or.inl rfl⟩
  induction v.comps with
  | nil => exact List.Forall₂.nil
  | cons c cs ih =>
    unfold eachSetTime
    rcases hc : compSetTime len c g with e | c'
    · exact hrefl _
    · refine List.Forall₂.cons ?_ ih
      unfold compSetTime at hc
      cases g with
      | none => cases hc; exact ⟨rfl, rfl, Or.inr (Or.inl ⟨rfl, rfl⟩)⟩
      | object t =>
        simp only at hc
        rcases hl : lengthFits c (len t) with e | ⟨⟩
        · rw [hl] at hc; cases hc
        · rw [hl] at hc
          cases hc
          exact ⟨rfl, rfl, Or.inr (Or.inr ⟨t, Or.inl rfl, rfl, (lengthFits_iff _ _).mp hl⟩)⟩
      | series t =>
        simp only at hc
        rcases hl : lengthFits c (len t) with e | ⟨⟩
        · rw [hl] at hc; cases hc
        · rw [hl] at hc
          cases hc
          exact ⟨rfl, rfl, Or.inr (Or.inr ⟨t, Or.inr rfl, rfl, (lengthFits_iff _ _).mp hl⟩)⟩
      | refused n =>
        simp only at hc
        rcases hl : lengthFits c n with e | ⟨⟩ <;> rw [hl] at hc <;> cases hc
      | unsized =>
        simp only at hc
        split_ifs at hc

/-- C136: only a `Time` is ever accepted. -/
theorem C136_only_objects (v : VState τ) (g : TimeGiven τ) (h : (setVectorTime len v g).2 = .ok ()) :
    ∃ t, g = .object t := by
  unfold setVectorTime at h
  simp only at h
  rcases hr : (eachSetTime len g v.comps).2 with e | ⟨⟩
  · simp [hr] at h
  · simp only [hr] at h
    cases g with
    | object t => exact ⟨t, rfl⟩
    | _ => simp at h

/-- C136: a series that is no time series (not ascending, with duplicates) is refused with `ValueError`,
as far as callers can tell whatever the component raised, and nothing changes. -/
theorem C136_refused (v : VState τ) (n : Nat) (c : Comp τ) (cs : List (Comp τ)) (hv : v.comps = c :: cs)
    (h : c.shape ≠ some []) : setVectorTime len v (.refused n) = (v, .error .valueError) := by
  obtain ⟨comps, time, units⟩ := v
  subst hv
  have : ∀ e, lengthFits c n = .error e → e = .valueError := by
    intro e he
    unfold lengthFits at he
    rcases hc : c.shape with _ | _ | ⟨m, r⟩
    · simp [hc] at he
    · exact absurd hc h
    · simp only [hc] at he
      split_ifs at he
      exact (Except.error.inj he).symm
  rcases hl : lengthFits c n with e | ⟨⟩
  · rw [this e hl] at hl
    simp [setVectorTime, eachSetTime, compSetTime, hl, reraised]
  · simp [setVectorTime, eachSetTime, compSetTime, hl, reraised]

/-- Its hypotheses hold for a component with and one without data. -/
example : setVectorTime id (⟨[⟨some [2, 5], none, .missing⟩, ⟨none, none, .missing⟩], none, .missing⟩ : VState Nat)
    (.refused 2) = (⟨[⟨some [2, 5], none, .missing⟩, ⟨none, none, .missing⟩], none, .missing⟩,
      .error .valueError) :=
  C136_refused id _ 2 _ _ rfl (by simp)

/-- C136: something without a length (a single datetime) is refused, with `TypeError` if the first component
has data and with `ValueError` if it has none, and nothing changes. -/
theorem C136_unsized (v : VState τ) (c : Comp τ) (cs : List (Comp τ)) (hv : v.comps = c :: cs) :
    setVectorTime len v .unsized =
      (v, .error (match c.shape with
        | some _ => .typeError
        | none => .valueError)) := by
  obtain ⟨comps, time, units⟩ := v
  subst hv
  rcases hc : c.shape with _ | sh <;> simp [setVectorTime, eachSetTime, compSetTime, hc, reraised]

/-- The hypotheses of the theorem hold with two components of one length and two kinds of times. -/
example : let v : VState Nat := ⟨[⟨some [2, 5], none, .missing⟩, ⟨some [2, 7], none, .missing⟩], none,
      .missing⟩
    (∀ c ∈ v.comps, LengthFits c (id 2)) ∧ (∃ c ∈ v.comps, ¬ LengthFits c (id 3)) ∧
    ∀ n, ∀ c ∈ v.comps, ∀ d ∈ v.comps, LengthFits c (id n) ↔ LengthFits d (id n) := by
  simp [LengthFits]

/-! ## C137 -/

/-- C137 in full: after units are assigned, the vector has them and each component has its own: the
text, or its entry of the list. -/
def C137_statement : Prop :=
  ∀ (τ : Type) (v : VState τ) (u : Units), (setVectorUnits v u).units = u ∧
    ∀ (i : Nat) (c : Comp τ), (setVectorUnits v u).comps[i]? = some c →
      match u with
      | .each us => us[i]? = some none ∧ c.units = .missing ∨ ∃ s, us[i]? = some (some s) ∧
          c.units = .text s
      | _ => c.units = u

/-- C137 fails for a list: every component gets the whole list. -/
theorem C137_refuted : ¬ C137_statement := by
  intro h
  have := (h Nat ⟨[⟨none, none, .missing⟩, ⟨none, none, .missing⟩], none, .missing⟩
    (.each [some "m/s", some "knots"])).2 0 _ rfl
  simp at this

/-- C137 for a text or no units; times and data stay. Missing: lists. -/
theorem C137_partial (v : VState τ) (u : Units) (hu : ∀ us, u ≠ .each us) :
    (setVectorUnits v u).units = u ∧ (setVectorUnits v u).time = v.time ∧
      List.Forall₂ (fun c c' => c'.units = u ∧ c'.time = c.time ∧ c'.shape = c.shape) v.comps
        (setVectorUnits v u).comps := by
  refine ⟨rfl, rfl, ?_⟩
  unfold setVectorUnits
  rw [List.forall₂_map_right_iff]
  exact List.forall₂_same.mpr fun c _ => ⟨rfl, rfl, rfl⟩

/-- C137: with a list, each component gets all of it. -/
theorem C137_list_fails (v : VState τ) (us : List (Option String)) :
    ∀ c ∈ (setVectorUnits v (.each us)).comps, c.units = .each us := by
  simp [setVectorUnits]

example : ∀ us, Units.text "m/s" ≠ .each us := by simp

/-! ## C138 -/

variable (order : List String) (structured : γ → Bool)
  (infer : γ → Var.Data → Except Err (Option String)) (g : γ) (find : String → Option FileVar)

/-- What loading a single variable of the file gives. -/
def alone (time : Option Nat) (depth : Bool) (v : FileVar) : Except Err (Var.State γ) :=
  Var.fromFile structured infer g v.data v.located time depth none

/-- C138 in full: a vector variable of a file has, under the names of its class and in order, what
loading the variables of these names one by one gives. -/
def C138_statement : Prop :=
  ∀ (γ : Type) (order : List String) (structured : γ → Bool)
    (infer : γ → Var.Data → Except Err (Option String)) (g : γ) (find : String → Option FileVar)
    (found : List (Option String)) (time : Option Nat) (depth : Bool) (ss : List (Var.State γ)),
    2 ≤ order.length → found.length = order.length →
    List.Forall₂ (fun n s => ∃ m v, n = some m ∧ find m = some v ∧
      alone structured infer g time depth v = .ok s) found ss →
    loadVector order structured infer g find none found time depth = .ok (ss, order.zip ss)

/-- A component without a time beside one with a time cannot be loaded, since it gets the time of the
first. -/
theorem C138_refuted : ¬ C138_statement := by
  intro h
  have := h Unit ["u", "w"] (fun _ => true) (fun _ _ => .ok (some "node")) ()
    (fun n => if n = "u" then some ⟨⟨[4, 3, 3], none⟩, some 4⟩ else some ⟨⟨[3, 3], none⟩, none⟩)
    [some "u", some "w"] none false
    [⟨some (), false, some "node", some ⟨[4, 3, 3], none⟩, some 4, none⟩,
     ⟨some (), false, some "node", some ⟨[3, 3], none⟩, some 1, none⟩] (by simp) (by simp)
    (.cons ⟨"u", _, rfl, rfl, rfl⟩ (.cons ⟨"w", _, rfl, rfl, rfl⟩ .nil))
  revert this
  have : loadVector (γ := Unit) ["u", "w"] (fun _ => true) (fun _ _ => .ok (some "node")) ()
    (fun n => if n = "u" then some ⟨⟨[4, 3, 3], none⟩, some 4⟩ else some ⟨⟨[3, 3], none⟩, none⟩)
    none [some "u", some "w"] none false = .error .valueError := rfl
  rw [this]
  simp

/-- Components with a vertical dimension and a time dimension that is not recognised have a depth in a
vector variable and none by themselves. -/
theorem C138_refuted_depth : ∃ (v : FileVar) (a b : Var.State Unit),
    alone (fun _ => true) (fun _ _ => .ok (some "node")) () none false v = .ok a ∧ a.depth = false ∧
    loadVector ["u", "v"] (fun _ => true) (fun _ _ => .ok (some "node")) () (fun _ => some v) none
      [some "u", some "v"] none false = .ok ([b, b], [("u", b), ("v", b)]) ∧ b.depth = true :=
  ⟨⟨⟨[4, 5, 3, 3], none⟩, none⟩,
    ⟨some (), false, some "node", some ⟨[4, 5, 3, 3], none⟩, some 1, none⟩,
    ⟨some (), true, some "node", some ⟨[4, 5, 3, 3], none⟩, some 1, none⟩, rfl, rfl, rfl, rfl⟩

theorem loadParts_all (time : Nat) (depth : Bool) : ∀ (names : List (Option String))
    (ss : List (Var.State γ)), List.Forall₂ (fun n s => ∃ m v, n = some m ∧ find m = some v ∧
      Var.fromFile structured infer g v.data v.located (some time) depth none = .ok s) names ss →
    loadParts structured infer g find time depth names = .ok ss
  | [], _, .nil => rfl
  | n :: ns, s :: ss, .cons ⟨m, v, hn, hv, hs⟩ h => by
    subst hn
    simp [loadParts, hv, hs, loadParts_all time depth ns ss h]

/-- The variables of a file agree in their number of dimensions and time axis; and not without a time
and yet with one dimension more than a vertical one accounts for. -/
def Alike (structured : Bool) (time : Option Nat) (v w : FileVar) : Prop :=
  w.data.shape.length = v.data.shape.length ∧ w.located = v.located ∧
    (time = none → v.located = none → v.data.shape.length ≠ (if structured then 4 else 3))

/-- C138 for variables that agree in their dimensions: the vector loads exactly as its components do.
Missing: variables with different dimensions (`C138_refuted`) and with a time dimension that is not
recognised (`C138_refuted_depth`). -/
theorem C138_partial (found : List (Option String)) (given : Bool) (time : Option Nat) (depth : Bool)
    (ss : List (Var.State γ)) (h2 : 2 ≤ order.length) (hl : found.length = order.length)
    (v0 : FileVar) (halike : ∀ m v, some m ∈ found → find m = some v → Alike (structured g) time v0 v)
    (h : List.Forall₂ (fun n s => ∃ m v, n = some m ∧ find m = some v ∧
      alone structured infer g time depth v = .ok s) found ss) :
    loadVector order structured infer g find (if given then some found else none)
      (if given then [] else found) time depth = .ok (ss, order.zip ss) := by
  have hlen := h.length_eq
  obtain ⟨n1, ns, hf⟩ : ∃ n ns, found = n :: ns := by
    cases found with
    | nil => simp at hl; omega
    | cons n ns => exact ⟨n, ns, rfl⟩
  have hh := h
  rw [hf] at hh
  obtain ⟨s1, sr, ⟨m, v, rfl, hv, hs⟩, hr, rfl⟩ := List.forall₂_cons_left_iff.mp hh
  obtain ⟨a1, a2, a3⟩ := halike m v (by simp [hf]) hv
  have hload := loadParts_all structured infer g find
    (Var.fileParts (structured g) v.data.shape.length v.located time depth).1
    (Var.fileParts (structured g) v.data.shape.length v.located time depth).2 found (s1 :: sr) (by
      refine (List.forall₂_iff_get.mpr ⟨h.length_eq, fun i h1 h2 => ?_⟩)
      obtain ⟨k, w, hk, hw, hs'⟩ := (List.forall₂_iff_get.mp h).2 i h1 h2
      refine ⟨k, w, hk, hw, ?_⟩
      rw [← hs']
      obtain ⟨b1, b2, _⟩ := halike k w (by rw [← hk]; exact List.get_mem ..) hw
      unfold alone Var.fromFile
      simp only
      have : Var.fileParts (structured g) w.data.shape.length w.located
          (some (Var.fileParts (structured g) v.data.shape.length v.located time depth).1)
          (Var.fileParts (structured g) v.data.shape.length v.located time depth).2 =
          Var.fileParts (structured g) w.data.shape.length w.located time depth := by
        rw [a1, a2, b1, b2]
        unfold Var.fileParts
        rcases time with _ | t
        · rcases hlo : v0.located with _ | l
          · have h4 := a3 rfl hlo
            revert h4
            cases structured g <;> cases depth <;> simp <;> omega
          · cases structured g <;> cases depth <;> simp
        · cases structured g <;> cases depth <;> simp
      rw [this])
  have hss : ¬ (s1 :: sr).length < 2 := by omega
  have hso : ¬ (s1 :: sr).length < order.length := by omega
  unfold loadVector
  cases given
  · simp only [Bool.false_eq_true, if_false, Option.getD_none]
    rw [if_neg (by simp [hf])]
    rw [hf] at hload ⊢
    simp only [hv, hload]
    rw [if_neg hss, if_neg hso]
  · simp only [if_true, Option.getD_some]
    rw [if_neg (by simp)]
    rw [hf] at hload ⊢
    simp only [hv, hload]
    rw [if_neg hss, if_neg hso]

theorem loadParts_length (time : Nat) (depth : Bool) : ∀ (names : List (Option String))
    (ss : List (Var.State γ)), loadParts structured infer g find time depth names = .ok ss →
    ss.length ≤ names.length ∧ (ss.length = names.length → ∀ n ∈ names, n ≠ none)
  | [], ss, h => by
    simp only [loadParts, Except.ok.injEq] at h
    subst h
    simp
  | none :: ns, ss, h => by
    have := loadParts_length time depth ns ss h
    exact ⟨by simp; omega, fun he => by simp at he; omega⟩
  | some n :: ns, ss, h => by
    unfold loadParts at h
    rcases hf : find n with _ | v
    · rw [hf] at h; cases h
    · simp only [hf] at h
      rcases hs : Var.fromFile structured infer g v.data v.located (some time) depth none with e | s
      · rw [hs] at h; cases h
      · simp only [hs] at h
        rcases hr : loadParts structured infer g find time depth ns with e | r
        · rw [hr] at h; cases h
        · simp only [hr, Except.ok.injEq] at h
          subst h
          have := loadParts_length time depth ns r hr
          refine ⟨by simpa using this.1, fun he k hk => ?_⟩
          rcases List.mem_cons.mp hk with rfl | hk
          · simp
          · exact this.2 (by simpa using he) k hk

/-- C138: a vector variable whose class names its components is loaded only if a variable was found for
each; then each name has its component. -/
theorem C138_all_found (found : List (Option String)) (time : Option Nat) (depth : Bool)
    (vs : List (Var.State γ)) (nd : List (String × Var.State γ)) (hl : found.length = order.length)
    (h : loadVector order structured infer g find none found time depth = .ok (vs, nd)) :
    (∀ n ∈ found, n ≠ none) ∧ vs.length = order.length ∧ 2 ≤ vs.length ∧ nd = order.zip vs := by
  unfold loadVector at h
  simp only [Option.getD_none] at h
  split_ifs at h with ha
  split at h
  · cases h
  · cases h
  · rename_i n ns
    rcases hf : find n with _ | v
    · rw [hf] at h; cases h
    · simp only [hf] at h
      split at h
      · cases h
      · rename_i ss hss
        split_ifs at h with h2 h3
        simp only [Except.ok.injEq, Prod.mk.injEq] at h
        obtain ⟨rfl, rfl⟩ := h
        obtain ⟨l1, l2⟩ := loadParts_length structured infer g find _ _ _ _ hss
        have : ss.length = (some n :: ns).length := by omega
        exact ⟨l2 this, by omega, by omega, rfl⟩

/-- The hypotheses hold for two components on four times, five levels and three by three nodes. -/
example : let find := fun _ : String => some (⟨⟨[4, 5, 3, 3], none⟩, some 4⟩ : FileVar)
    let s : Var.State Unit := ⟨some (), true, some "node", some ⟨[4, 5, 3, 3], none⟩, some 4, none⟩
    loadVector ["u", "v"] (fun _ => true) (fun _ _ => .ok (some "node")) () find none
      [some "water_u", some "water_v"] none false = .ok ([s, s], [("u", s), ("v", s)]) := by
  intro find s
  exact C138_partial ["u", "v"] (fun _ => true) (fun _ _ => .ok (some "node")) () find
    [some "water_u", some "water_v"] false none false [s, s] (by simp) (by simp)
    ⟨⟨[4, 5, 3, 3], none⟩, some 4⟩ (by
      intro m v _ hv
      simp only [find, Option.some.injEq] at hv
      subst hv
      exact ⟨rfl, rfl, by simp⟩)
    (.cons ⟨_, _, rfl, rfl, rfl⟩ (.cons ⟨_, _, rfl, rfl, rfl⟩ .nil))

end

end Verif
