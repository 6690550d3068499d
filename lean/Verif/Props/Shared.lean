import Verif.Model.Shared
import Verif.Props.Files

/-!
# Properties of shared arguments and of searches: C178, C179, C180
-/

set_option autoImplicit false

namespace Verif
open Verif.Util Verif.Shared

/-! ## C178 -/

/-- The value of a keyword; one that is not given counts as `None`. -/
def valueOf {α : Type} (x : Option (Option α)) : Option α := match x with
  | some (some a) => some a
  | _ => none

/-- What the function should get for its dataset: the one given, or one opened from the file name or from
the data file. -/
def DatasetFor (k : Kws) (s : Opened) (h : Nat) : Prop :=
  (∀ d, valueOf k.dataset = some d → h = d) ∧
  (valueOf k.dataset = none → ∃ x, (valueOf k.filename).or (valueOf k.dataFile) = some x ∧ ReadsSrc s h x)

/-- What it should get for its grid: the one given, or one read from the file name, from the grid file or
from the dataset. -/
def GridFor (k : Kws) (s : Opened) (g : GridArg) : Prop :=
  (∀ g', valueOf k.grid = some g' → g = g') ∧
  (valueOf k.grid = none → ∃ h, g = .read h ∧
    (∀ x, (valueOf k.filename).or (valueOf k.gridFile) = some x → ReadsSrc s h x) ∧
    ((valueOf k.filename).or (valueOf k.gridFile) = none → valueOf k.dataset = some h))

/-- The caller gives something for the data and something for the grid. -/
def Enough (k : Kws) : Prop :=
  (valueOf k.dataset ≠ none ∨ valueOf k.filename ≠ none ∨ valueOf k.dataFile ≠ none) ∧
  (valueOf k.grid ≠ none ∨ valueOf k.filename ≠ none ∨ valueOf k.gridFile ≠ none ∨
    valueOf k.dataset ≠ none)

/-- A source that can be opened. -/
def Opens (readable : List String → Bool) : Src → Prop
  | .text n => readable [n] = true
  | .path n => readable [n] = true
  | .files ns => ns ≠ [] ∧ readable ns = true
  | .handle _ => True

/-- C178 as stated: a caller who gives enough gets the function called with the dataset and the grid
that belong to these arguments. -/
def C178_statement : Prop :=
  ∀ (readable : List String → Bool) (k : Kws) (s : Opened), Enough k →
    (∀ x, valueOf k.filename = some x ∨ valueOf k.dataFile = some x ∨ valueOf k.gridFile = some x →
      Opens readable x) →
    ∃ k' s' h g, shared readable (fun _ => .ok ()) true true k s = (.ok k', s') ∧
      k'.dataset = some (some h) ∧ DatasetFor k s' h ∧ k'.grid = some (some g) ∧ GridFor k s' g

/-- C178 fails for a data file and a grid file without a file name: `KeyError`. -/
theorem C178_refuted : ¬ C178_statement := by
  intro h
  obtain ⟨k', s', -, -, e, -⟩ := h (fun _ => true)
    { dataFile := some (some (.text "d.nc")), gridFile := some (some (.text "g.nc")) } ⟨0, []⟩
    ⟨by simp [valueOf], by simp [valueOf]⟩ (by rintro (n | n | n | n) <;> simp [valueOf, Opens])
  exact absurd e (by
    have : shared (fun _ => true) (fun _ => .ok ()) true true
        { dataFile := some (some (.text "d.nc")), gridFile := some (some (.text "g.nc")) } ⟨0, []⟩ =
        (.error .keyError, ⟨2, [(1, ["g.nc"]), (0, ["d.nc"])]⟩) := by decide +kernel
    rw [this]; simp)

/-- C178 fails for a dataset alone. -/
theorem C178_refuted_dataset : ¬ C178_statement := by
  intro h
  obtain ⟨k', s', -, -, e, -⟩ := h (fun _ => true) { dataset := some (some 3) } ⟨4, []⟩
    ⟨by simp [valueOf], by simp [valueOf]⟩ (by simp [valueOf])
  exact absurd e (by
    have : shared (fun _ => true) (fun _ => .ok ()) true true { dataset := some (some 3) } ⟨4, []⟩ =
        (.error .keyError, ⟨4, []⟩) := by decide +kernel
    rw [this]; simp)

/-- C178 fails for a data file and a grid: the data file is not opened. -/
theorem C178_refuted_data_file : ¬ C178_statement := by
  intro h
  obtain ⟨k', s', hh, -, e, e', -⟩ := h (fun _ => true)
    { dataFile := some (some (.text "d.nc")), grid := some (some (.given 1)) } ⟨0, []⟩
    ⟨by simp [valueOf], by simp [valueOf]⟩ (by rintro (n | n | n | n) <;> simp [valueOf, Opens])
  have : shared (fun _ => true) (fun _ => .ok ()) true true
      { dataFile := some (some (.text "d.nc")), grid := some (some (.given 1)) } ⟨0, []⟩ =
      (.ok { dataFile := some (some (.text "d.nc")), grid := some (some (.given 1)),
             dataset := some none }, ⟨0, []⟩) := by decide +kernel
  rw [this] at e
  cases e
  simp at e'

private theorem missing_iff {α : Type} (x : Option (Option α)) :
    missing x = true ↔ valueOf x = none := by
  rcases x with _ | _ | a <;> simp [missing, valueOf]

private theorem valueOf_some {α : Type} {x : Option (Option α)} {a : α} (h : valueOf x = some a) :
    x = some (some a) := by
  rcases x with _ | _ | b <;> simp [valueOf] at h
  rw [h]

private theorem spread_file (k : Kws) :
    (spread k).filename = k.filename ∧ (spread k).dataset = k.dataset ∧ (spread k).grid = k.grid ∧
      valueOf (spread k).dataFile = (valueOf k.filename).or (valueOf k.dataFile) ∧
      valueOf (spread k).gridFile = (valueOf k.filename).or (valueOf k.gridFile) ∧
      ((spread k).dataFile = none → k.dataFile = none ∧ valueOf k.filename = none) ∧
      ((spread k).gridFile = none → k.gridFile = none ∧ valueOf k.filename = none) := by
  unfold spread
  rcases h : k.filename with _ | _ | f <;> simp [valueOf, h]

/-- The datasets that are found. -/
private theorem datasets_spec (readable : List String → Bool) (k k' : Kws) (s s' : Opened)
    (dg : Option Nat) (h : datasets readable true k s = (.ok (dg, k'), s')) :
    k'.filename = k.filename ∧ k'.grid = k.grid ∧ (∀ y ∈ s.log, y ∈ s'.log) ∧
    (∀ d, valueOf k.dataset = some d → k'.dataset = some (some d)) ∧
    (valueOf k.dataset = none → k.dataFile ≠ none → k.gridFile ≠ none →
      ∃ h x, k'.dataset = some (some h) ∧ valueOf k.dataFile = some x ∧ ReadsSrc s' h x) ∧
    (valueOf k.dataset = none → k.dataFile = none ∨ k.gridFile = none → k'.dataset = some none ∧ dg = none) ∧
    (∀ g, dg = some g →
      (∀ x, valueOf k.gridFile = some x → ReadsSrc s' g x) ∧
      (valueOf k.gridFile = none → valueOf k.dataset = some g)) := by
  unfold datasets at h
  by_cases hm : missing k.dataset = true
  · rw [if_pos (by simpa using hm)] at h
    have hv := (missing_iff _).1 hm
    rcases hg : k.gridFile with _ | g
    · rw [hg] at h
      cases h
      simp [hv, hg]
    rcases hd : k.dataFile with _ | d
    · rw [hg, hd] at h
      cases h
      simp [hv, hg, hd]
    rw [hg, hd] at h
    simp only at h
    split_ifs at h with hgd
    · subst hgd
      split at h
      · cases h
      · rename_i n t e
        cases h
        obtain ⟨⟨x, hx, hr⟩, hmono, -⟩ := getDataset_reads e
        subst hx
        refine ⟨rfl, rfl, hmono, by simp [hv], fun _ _ _ => ⟨n, x, rfl, rfl, hr⟩, by simp, ?_⟩
        intro g' hg'
        cases hg'
        refine ⟨?_, by simp [valueOf]⟩
        intro y hy
        simp only [valueOf, Option.some.injEq] at hy
        exact hy ▸ hr
    · split at h
      · cases h
      · rename_i n t e
        split at h
        · cases h
        · rename_i n' t' e'
          cases h
          obtain ⟨⟨x, hx, hr⟩, hmono, -⟩ := getDataset_reads e
          obtain ⟨⟨x', hx', hr'⟩, hmono', -⟩ := getDataset_reads e'
          subst hx hx'
          refine ⟨rfl, rfl, fun y hy => hmono' _ (hmono _ hy), by simp [hv],
            fun _ _ _ => ⟨n, x, rfl, rfl, reads_mono hmono' hr⟩, by simp, ?_⟩
          intro g' hg'
          cases hg'
          refine ⟨?_, by simp [valueOf]⟩
          intro y hy
          simp only [valueOf, Option.some.injEq] at hy
          exact hy ▸ hr'
  · rw [if_neg (by simpa using hm)] at h
    have hv : valueOf k.dataset ≠ none := fun e => hm ((missing_iff _).2 e)
    obtain ⟨d, hd⟩ := Option.ne_none_iff_exists'.1 hv
    have hk := valueOf_some hd
    rcases hg : k.gridFile with _ | _ | g
    · rw [hg] at h
      simp only [hk] at h
      cases h
      simp [hd, hk, valueOf]
    · rw [hg] at h
      simp only [hk] at h
      cases h
      simp [hd, hk, valueOf]
    · rw [hg] at h
      simp only [hk] at h
      split at h
      · cases h
      · rename_i n t e
        cases h
        obtain ⟨⟨x, hx, hr⟩, hmono, -⟩ := getDataset_reads e
        cases hx
        refine ⟨rfl, rfl, hmono, ?_, by simp [hd], by simp [hd], ?_⟩
        · intro d' hd'
          rw [hd] at hd'
          cases hd'
          exact hk
        · intro g' hg'
          cases hg'
          refine ⟨?_, by simp [valueOf]⟩
          intro y hy
          simp only [valueOf, Option.some.injEq] at hy
          exact hy ▸ hr

/-- C178, whenever the function is called: what it gets for the dataset and for the grid is right, but for
a dataset that stays `None` when there is neither a file name nor both of data file and grid file. Missing:
the calls that end in an exception. -/
theorem C178_partial (readable : List String → Bool) (makes : Nat → Except Err Unit) (k k' : Kws)
    (s s' : Opened) (h : shared readable makes true true k s = (.ok k', s')) :
    ((∃ d, k'.dataset = some (some d) ∧ DatasetFor k s' d) ∨
      (k'.dataset = some none ∧ valueOf k.dataset = none ∧ valueOf k.filename = none ∧
        (k.dataFile = none ∨ k.gridFile = none))) ∧
    (∃ g, k'.grid = some (some g) ∧ GridFor k s' g) := by
  obtain ⟨sf, sd, sg, sdf, sgf, sdn, sgn⟩ := spread_file k
  unfold shared at h
  split at h
  · cases h
  rename_i dg k1 s1 e1
  obtain ⟨a1, a2, a3, a4, a5, a6, a7⟩ := datasets_spec readable _ _ _ _ _ e1
  rw [sd] at a4 a5 a6
  have ds : ∀ t : Opened, (∀ y ∈ s1.log, y ∈ t.log) →
      ((∃ d, k1.dataset = some (some d) ∧ DatasetFor k t d) ∨
      (k1.dataset = some none ∧ valueOf k.dataset = none ∧ valueOf k.filename = none ∧
        (k.dataFile = none ∨ k.gridFile = none))) := by
    intro t ht
    cases hv : valueOf k.dataset with
    | some d => exact Or.inl ⟨d, a4 d hv, by intro d' hd'; rw [hv] at hd'; exact Option.some.inj hd',
        by simp [hv]⟩
    | none =>
      by_cases hn : (spread k).dataFile = none ∨ (spread k).gridFile = none
      · refine Or.inr ⟨(a6 hv hn).1, rfl, ?_⟩
        rcases hn with hn | hn
        · exact ⟨(sdn hn).2, Or.inl (sdn hn).1⟩
        · exact ⟨(sgn hn).2, Or.inr (sgn hn).1⟩
      · push Not at hn
        obtain ⟨d, x, h1, h2, h3⟩ := a5 hv hn.1 hn.2
        exact Or.inl ⟨d, h1, by simp [hv], fun _ => ⟨x, by rw [← sdf]; exact h2, reads_mono ht h3⟩⟩
  split at h
  · rename_i hm
    rw [Bool.true_and, a2, sg, missing_iff] at hm
    split at h
    · cases h
    · rename_i f hf
      split at h
      · cases h
      · rename_i x hh s2 e2
        split at h
        · cases h
        · cases h
          have mono : ∀ y ∈ s1.log, y ∈ s'.log := by
            intro y hy
            unfold parseArgs at e2
            cases f with
            | none =>
              cases dg with
              | none => simp [getDataset] at e2
              | some d => simp only at e2; cases e2; exact hy
            | some f =>
              simp only [if_true] at e2
              cases dg with
              | none =>
                simp only at e2
                split at e2
                · cases e2
                · rename_i e3
                  cases e2
                  exact (getDataset_reads e3).2.1 y hy
              | some d =>
                simp only at e2
                split at e2
                · cases e2
                · rename_i e3
                  cases e2
                  exact (getDataset_reads e3).2.1 y hy
          obtain ⟨-, -, p3, p4, -⟩ := C120_sources readable f dg none none s1 s' x hh e2
          refine ⟨ds _ mono, .read hh, rfl, by simp [hm], fun _ => ⟨hh, rfl, ?_⟩⟩
          rw [a1, sf] at hf
          cases f with
          | some f =>
            have hv : valueOf k.filename = some f := by rw [hf]; rfl
            rw [hv]
            refine ⟨?_, by simp⟩
            intro y hy
            exact p3 y (by simpa using hy)
          | none =>
            have hv : valueOf k.filename = none := by rw [hf]; rfl
            have hdg : dg = some hh := p4 rfl
            obtain ⟨q1, q2⟩ := a7 hh hdg
            rw [sgf] at q1 q2
            rw [sd] at q2
            refine ⟨fun y hy => ?_, q2⟩
            exact reads_mono mono (q1 y hy)
  · rename_i hm
    cases h
    rw [Bool.true_and, a2, sg, missing_iff] at hm
    obtain ⟨g, hg⟩ := Option.ne_none_iff_exists'.1 hm
    refine ⟨ds _ (fun _ h => h), g, ?_, ?_, by simp [hg]⟩
    · rw [a2, sg]; exact valueOf_some hg
    · intro g' hg'
      rw [hg] at hg'
      exact Option.some.inj hg'

private theorem opens_ok {readable : List String → Bool} {x : Src} (h : Opens readable x) (s : Opened) :
    ∃ n s', getDataset readable (some x) s = (.ok n, s') := by
  cases x with
  | text n => exact ⟨_, _, by simp only [getDataset, openFiles]; rw [if_pos ⟨h, by simp⟩]⟩
  | path n => exact ⟨_, _, by simp only [getDataset, openFiles]; rw [if_pos ⟨h, by simp⟩]⟩
  | files ns => exact ⟨_, _, by simp only [getDataset, openFiles]; rw [if_pos ⟨h.2, h.1⟩]⟩
  | handle n => exact ⟨_, _, rfl⟩

private theorem datasets_ok {readable : List String → Bool} (k : Kws) (s : Opened)
    (hd : valueOf k.dataset ≠ none ∨ (valueOf k.dataFile ≠ none ∧ valueOf k.gridFile ≠ none))
    (ho : ∀ x, valueOf k.dataFile = some x ∨ valueOf k.gridFile = some x → Opens readable x) :
    ∃ h k' s', datasets readable true k s = (.ok (some h, k'), s') := by
  unfold datasets
  by_cases hm : missing k.dataset = true
  · rw [if_pos (by simpa using hm)]
    have hv := (missing_iff _).1 hm
    rcases hd with hd | ⟨h1, h2⟩
    · exact absurd hv hd
    obtain ⟨x, hx⟩ := Option.ne_none_iff_exists'.1 h1
    obtain ⟨y, hy⟩ := Option.ne_none_iff_exists'.1 h2
    rw [valueOf_some hx, valueOf_some hy]
    simp only
    obtain ⟨n, s1, e1⟩ := opens_ok (ho x (Or.inl hx)) s
    obtain ⟨m, s2, e2⟩ := opens_ok (ho y (Or.inr hy)) s
    obtain ⟨l, s3, e3⟩ := opens_ok (ho y (Or.inr hy)) s1
    split_ifs with hxy
    · rw [e2]; exact ⟨_, _, _, rfl⟩
    · rw [e1]; simp only; rw [e3]; exact ⟨_, _, _, rfl⟩
  · rw [if_neg (by simpa using hm)]
    have hv : valueOf k.dataset ≠ none := fun e => hm ((missing_iff _).2 e)
    obtain ⟨d, hd⟩ := Option.ne_none_iff_exists'.1 hv
    rw [valueOf_some hd]
    rcases hg : k.gridFile with _ | _ | g
    · exact ⟨_, _, _, rfl⟩
    · exact ⟨_, _, _, rfl⟩
    · obtain ⟨n, s1, e1⟩ := opens_ok (ho g (Or.inr (by rw [hg]; rfl))) s
      simp only
      rw [e1]
      exact ⟨_, _, _, rfl⟩

/-- C178. The function is called when the keyword for the file name is given, even as `None`, or a grid is,
and the dataset is given or follows from the file name or from both files. -/
theorem C178_called_partial (readable : List String → Bool) (makes : Nat → Except Err Unit)
    (hm : ∀ h, makes h = .ok ()) (k : Kws) (s : Opened)
    (hg : valueOf k.grid ≠ none ∨ k.filename ≠ none)
    (hd : valueOf k.dataset ≠ none ∨ valueOf k.filename ≠ none ∨
      (valueOf k.dataFile ≠ none ∧ valueOf k.gridFile ≠ none))
    (ho : ∀ x, valueOf k.filename = some x ∨ valueOf k.dataFile = some x ∨ valueOf k.gridFile = some x →
      Opens readable x) :
    ∃ k' s', shared readable makes true true k s = (.ok k', s') := by
  obtain ⟨sf, sd, sg, sdf, sgf, -, -⟩ := spread_file k
  obtain ⟨h, k1, s1, e1⟩ := datasets_ok (readable := readable) (spread k) s (by
      rw [sd, sdf, sgf]
      cases hf : valueOf k.filename with
      | some f => right; simp
      | none =>
        rcases hd with hd | hd | hd
        · exact Or.inl hd
        · exact absurd hf hd
        · exact Or.inr (by simpa using hd)) (by
      rw [sdf, sgf]
      intro x hx
      cases hf : valueOf k.filename with
      | some f =>
        rw [hf] at hx
        simp only [Option.some_or, or_self] at hx
        exact ho x (Or.inl (hf.trans hx))
      | none =>
        rw [hf] at hx
        exact ho x (Or.inr (by simpa using hx)))
  obtain ⟨a1, a2, -⟩ := datasets_spec readable _ _ _ _ _ e1
  unfold shared
  rw [e1]
  simp only
  split_ifs with hc
  · rw [Bool.true_and, a2, sg, missing_iff] at hc
    have hf : k.filename ≠ none := by
      rcases hg with hg | hg
      · exact absurd hc hg
      · exact hg
    rw [a1, sf]
    obtain ⟨f, hf⟩ := Option.ne_none_iff_exists'.1 hf
    rw [hf]
    simp only
    cases f with
    | none =>
      simp only [parseArgs, hm]
      exact ⟨_, _, rfl⟩
    | some f =>
      obtain ⟨n, s2, e2⟩ := opens_ok (readable := readable) (x := fspath f)
        (by
          have := ho f (Or.inl (by rw [hf]; rfl))
          cases f <;> exact this) s1
      simp only [parseArgs, e2, hm]
      exact ⟨_, _, rfl⟩
  · exact ⟨_, _, rfl⟩

/-- C178. A file name by itself is opened twice: the dataset of the function and the dataset of its grid
are different objects. -/
theorem C178_opened_twice (readable : List String → Bool) (makes : Nat → Except Err Unit)
    (hm : ∀ h, makes h = .ok ()) (n : String) (hn : readable [n] = true) (s : Opened) :
    shared readable makes true true { filename := some (some (.text n)) } s =
      (.ok { filename := some (some (.text n)), dataFile := some (some (.text n)),
             gridFile := some (some (.text n)), dataset := some (some s.next),
             grid := some (some (.read (s.next + 1))) },
        ⟨s.next + 2, (s.next + 1, [n]) :: (s.next, [n]) :: s.log⟩) := by
  simp [shared, spread, datasets, missing, getDataset, openFiles, parseArgs, fspath, hn, hm]

/-- A data and a grid file with the keyword for the file name given as `None`: the grid is read from the
grid file. -/
example : shared (fun _ => true) (fun _ => .ok ()) true true
      { filename := some none, dataFile := some (some (.text "d.nc")),
        gridFile := some (some (.text "g.nc")) } ⟨0, []⟩ =
    (.ok { filename := some none, dataFile := some (some (.text "d.nc")),
           gridFile := some (some (.text "g.nc")), dataset := some (some 0),
           grid := some (some (.read 1)) }, ⟨2, [(1, ["g.nc"]), (0, ["d.nc"])]⟩) := by
  decide +kernel

/-! ## C179 -/

/-- C179 as stated: the first of the names that is a variable of the dataset; without one, the name of a
variable described by one of the standard names. -/
def C179_statement : Prop :=
  ∀ (names stdNames : List String) (ds : List FVar),
    (∀ (i : Nat) (n : String), names[i]? = some n → (∃ v ∈ ds, v.name = n) →
      (∀ (j : Nat) (m : String), j < i → names[j]? = some m → ∀ v ∈ ds, v.name ≠ m) →
      genDepthName names stdNames ds = .ok n) ∧
    ((∀ n ∈ names, ∀ v ∈ ds, v.name ≠ n) →
      (∃ v ∈ ds, ∃ n ∈ stdNames, v.standardName = some n ∨ v.longName = some n) →
      ∃ v ∈ ds, genDepthName names stdNames ds = .ok v.name ∧
        ∃ n ∈ stdNames, v.standardName = some n ∨ v.longName = some n)

/-- C179 fails: a variable with the standard name asked for is not found under another name. -/
theorem C179_refuted : ¬ C179_statement := by
  intro h
  obtain ⟨v, -, e, -⟩ := (h ["lev"] ["depth"] [{ name := "z", standardName := some "depth" }]).2
    (by simp) ⟨_, List.mem_singleton.2 rfl, "depth", by simp, Or.inl rfl⟩
  exact absurd e (by
    have : genDepthName ["lev"] ["depth"] [{ name := "z", standardName := some "depth" }] =
      .error .keyError := by decide +kernel
    rw [this]; simp)

private theorem find_at {p : String → Bool} {l : List String} {i : Nat} {n : String}
    (h : l[i]? = some n) (hp : p n = true)
    (hb : ∀ (j : Nat) (m : String), j < i → l[j]? = some m → p m = false) : l.find? p = some n := by
  induction l generalizing i with
  | nil => simp at h
  | cons a l ih =>
    cases i with
    | zero => simp only [List.getElem?_cons_zero, Option.some.injEq] at h; subst h; simp [hp]
    | succ i =>
      rw [List.find?_cons, hb 0 a (by omega) rfl]
      exact ih (by simpa using h) (fun j m hj hm => hb (j + 1) m (by omega) (by simpa using hm))

/-- C179. The first of the names that is a variable is found, and a result is always the name of a
variable of the dataset that was asked for; nothing is found only with `KeyError`, when no variable has one
of the names. Missing: the search by standard names, which compares names of variables. -/
theorem C179_partial (names stdNames : List String) (ds : List FVar) :
    (∀ (i : Nat) (n : String), names[i]? = some n → (∃ v ∈ ds, v.name = n) →
      (∀ (j : Nat) (m : String), j < i → names[j]? = some m → ∀ v ∈ ds, v.name ≠ m) →
      genDepthName names stdNames ds = .ok n) ∧
    (∀ n, genDepthName names stdNames ds = .ok n → n ∈ names ++ stdNames ∧ ∃ v ∈ ds, v.name = n) ∧
    (∀ e, genDepthName names stdNames ds = .error e → e = .keyError ∧ ∀ n ∈ names, ∀ v ∈ ds, v.name ≠ n) := by
  refine ⟨?_, ?_, ?_⟩
  · rintro i n hi ⟨v, hv, rfl⟩ hb
    unfold genDepthName
    rw [find_at (p := fun n => ds.any fun v => v.name == n) hi (by simpa using ⟨v, hv, rfl⟩) (by
      intro j m hj hm
      rw [List.any_eq_false]
      intro w hw
      simpa using hb j m hj hm w hw)]
  · intro n h
    unfold genDepthName at h
    split at h
    · rename_i m hm
      cases h
      have h1 := List.mem_of_find?_eq_some hm
      have h2 := List.find?_some hm
      simp only [List.any_eq_true, beq_iff_eq] at h2
      exact ⟨List.mem_append_left _ h1, h2⟩
    · split at h
      · rename_i m hm
        cases h
        have h1 := List.mem_of_find?_eq_some hm
        have h2 := List.find?_some hm
        simp only [List.any_eq_true, Bool.and_eq_true, beq_iff_eq] at h2
        obtain ⟨v, hv, -, e⟩ := h2
        exact ⟨List.mem_append_right _ h1, v, hv, e⟩
      · cases h
  · intro e h
    unfold genDepthName at h
    split at h
    · cases h
    · rename_i hn
      split at h
      · cases h
      · cases h
        refine ⟨rfl, ?_⟩
        intro n hn' v hv hvn
        have := List.find?_eq_none.1 hn n hn'
        simp only [List.any_eq_true, not_exists, not_and, beq_iff_eq] at this
        exact this v hv hvn

/-- C179. By standard names, a variable is found only if it is *named* by one of them. -/
theorem C179_std_exact (names stdNames : List String) (ds : List FVar)
    (hn : ∀ n ∈ names, ∀ v ∈ ds, v.name ≠ n) :
    (∃ n, genDepthName names stdNames ds = .ok n) ↔
      ∃ v ∈ ds, v.name ∈ stdNames ∧ (v.standardName ≠ none ∨ v.longName ≠ none) := by
  have h0 : names.find? (fun n => ds.any (fun v => v.name == n)) = none := by
    rw [List.find?_eq_none]
    intro n h
    simp only [List.any_eq_true, not_exists, not_and, beq_iff_eq]
    exact fun v hv => hn n h v hv
  unfold genDepthName
  rw [h0]
  simp only
  constructor
  · rintro ⟨n, h⟩
    split at h
    · rename_i m hm
      have h1 := List.mem_of_find?_eq_some hm
      have h2 := List.find?_some hm
      simp only [List.any_eq_true, Bool.and_eq_true, beq_iff_eq, Bool.or_eq_true] at h2
      obtain ⟨v, hv, hd, e⟩ := h2
      refine ⟨v, hv, e ▸ h1, ?_⟩
      rw [← Option.isSome_iff_ne_none, ← Option.isSome_iff_ne_none]
      exact hd
    · cases h
  · rintro ⟨v, hv, h1, h2⟩
    split
    · exact ⟨_, rfl⟩
    · rename_i hnone
      exfalso
      have := List.find?_eq_none.1 hnone v.name h1
      rw [← Option.isSome_iff_ne_none, ← Option.isSome_iff_ne_none] at h2
      simp only [List.any_eq_true, not_exists, not_and, beq_iff_eq, Bool.and_eq_true,
        Bool.or_eq_true] at this
      exact this v hv h2 rfl

example : genDepthName ["lev", "depth"] [] [{ name := "depth" }, { name := "lev" }] = .ok "lev" ∧
    genDepthName ["lev"] ["depth"] [{ name := "depth", longName := some "model depth" }] = .ok "depth" :=
  by decide +kernel

/-! ## C180 -/

/-- The variable carries the name as its long name or its standard name. -/
def Carries (v : FVar) (n : String) : Prop := v.longName = some n ∨ v.standardName = some n

private theorem byAttr_mem (ds : List FVar) (n : String) (v : FVar) :
    v ∈ byAttr ds n ↔ v ∈ ds ∧ Carries v n := by
  simp only [byAttr, List.mem_append, List.mem_filter, beq_iff_eq, Carries]
  tauto

/-- C180. The search answers with all variables that carry the first name that any variable carries, and
with nothing exactly when no variable carries one of the names. -/
theorem C180_list (ds : List FVar) (names : List String) :
    (anyLongName ds names = none ↔ ∀ n ∈ names, ∀ v ∈ ds, ¬ Carries v n) ∧
    (∀ vs, anyLongName ds names = some vs → vs ≠ [] ∧
      ∃ (i : Nat) (n : String), names[i]? = some n ∧ (∀ v, v ∈ vs ↔ v ∈ ds ∧ Carries v n) ∧
        ∀ (j : Nat) (m : String), j < i → names[j]? = some m → ∀ v ∈ ds, ¬ Carries v m) := by
  induction names with
  | nil => simp [anyLongName]
  | cons n ns ih =>
    unfold anyLongName
    cases hb : byAttr ds n with
    | nil =>
      have h0 : ∀ v ∈ ds, ¬ Carries v n := by
        intro v hv hc
        have := (byAttr_mem ds n v).2 ⟨hv, hc⟩
        rw [hb] at this
        simp at this
      refine ⟨?_, ?_⟩
      · rw [ih.1]
        simp only [List.mem_cons, forall_eq_or_imp]
        exact ⟨fun h => ⟨h0, h⟩, fun h => h.2⟩
      · intro vs hvs
        obtain ⟨h1, i, m, h2, h3, h4⟩ := ih.2 vs hvs
        refine ⟨h1, i + 1, m, by simpa using h2, h3, ?_⟩
        intro j l hj hl
        cases j with
        | zero => simp only [List.getElem?_cons_zero, Option.some.injEq] at hl; subst hl; exact h0
        | succ j => exact h4 j l (by omega) (by simpa using hl)
    | cons w ws =>
      refine ⟨?_, ?_⟩
      · simp only [reduceCtorEq, List.mem_cons, forall_eq_or_imp, false_iff, not_and]
        intro h
        have := (byAttr_mem ds n w).1 (by rw [hb]; simp)
        exact absurd this.2 (h w this.1)
      · intro vs hvs
        cases hvs
        refine ⟨by simp, 0, n, rfl, ?_, by omega⟩
        intro v
        rw [← hb]
        exact byAttr_mem ds n v

private theorem flat_lists (table : List (String × List String)) :
    flatNames (table.map fun kv => (kv.1, .list kv.2)) = .ok (table.flatMap fun kv => kv.2) := by
  induction table with
  | nil => rfl
  | cons a t ih => simp [flatNames, ih]

/-- C180 for a table of lists: the same as for all its names in order. -/
theorem C180_table (ds : List FVar) (table : List (String × List String)) :
    anyLongNameOf ds (table.map fun kv => (kv.1, .list kv.2)) =
      .ok (anyLongName ds (table.flatMap fun kv => kv.2)) := by
  unfold anyLongNameOf
  rw [flat_lists]

/-- C180. A table with a single text for some key, such as the names of the level depths, is refused. -/
theorem C180_text_refused (ds : List FVar) (table : List (String × NamesFor)) (k n : String)
    (h : (k, .text n) ∈ table) : anyLongNameOf ds table = .error .typeError := by
  have : flatNames table = .error .typeError := by
    induction table with
    | nil => simp at h
    | cons a t ih =>
      obtain ⟨k', x⟩ := a
      cases x with
      | text m => rfl
      | list ns =>
        have h' : (k, NamesFor.text n) ∈ t := by simpa using h
        simp [flatNames, ih h']
  unfold anyLongNameOf
  rw [this]

example : anyLongName [{ name := "a", longName := some "x" }, { name := "b", standardName := some "y" },
      { name := "c", longName := some "y" }] ["z", "y", "x"] =
    some [{ name := "c", longName := some "y" }, { name := "b", standardName := some "y" }] := by
  decide +kernel

end Verif
