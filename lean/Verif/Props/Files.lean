import Verif.Model.Files
import Verif.Lemmas.Util
import Mathlib.Algebra.Order.Ring.Rat
import Mathlib.Tactic.Tauto

/-!
# Properties of results and of datasets named by arguments: C119, C120, C121
-/

set_option autoImplicit false

namespace Verif
open Verif.Spec Verif.Util

/-! ## C119 -/

/-- Results with `m` numbers for each of `N` points, `f n j` being number `j` of point `n`: as rows, or
with one number per point as a plain list. -/
def ResultOf {K : Type*} (a : Arr K) (N m : Nat) (f : Nat → Nat → K) : Prop :=
  Holds a N m f ∨ (m = 1 ∧ a.shape = [N] ∧ a.data.length = N ∧ ∀ n, n < N → a.data[n]? = some (f n 0))

/-- C119 as stated: results come back by rows for points by rows and by columns for points by
columns. -/
def C119_statement : Prop :=
  ∀ (r p : Arr ℚ) (N k m : Nat) (f g : Nat → Nat → ℚ), 4 ≤ N → (k = 2 ∨ k = 3) → ResultOf r N m f →
    (Holds p N k g → ∃ c, align r p = .ok c ∧ Holds c N m f) ∧
    (Holds p k N (fun j i => g i j) → ∃ c, align r p = .ok c ∧ Holds c m N (fun j i => f i j))

/-- C119 fails for a plain list of results and points by columns: the list comes back as it is. -/
theorem C119_refuted : ¬ C119_statement := by
  intro h
  obtain ⟨c, h1, h2, -⟩ := (h ⟨[4], [1, 2, 3, 4]⟩ ⟨[2, 4], [0, 0, 0, 0, 0, 0, 0, 0]⟩ 4 2 1
    (fun n _ => (n : ℚ) + 1) (fun _ _ => 0) (by omega) (by omega)
    (Or.inr ⟨rfl, rfl, rfl, by
      intro n hn
      have : n = 0 ∨ n = 1 ∨ n = 2 ∨ n = 3 := by omega
      rcases this with rfl | rfl | rfl | rfl <;> decide +kernel⟩)).2
    ⟨rfl, rfl, by
      intro i j hi hj
      have h1 : i = 0 ∨ i = 1 := by omega
      have h2 : j = 0 ∨ j = 1 ∨ j = 2 ∨ j = 3 := by omega
      rcases h1 with rfl | rfl <;> rcases h2 with rfl | rfl | rfl | rfl <;> decide +kernel⟩
  have e : align (⟨[4], [1, 2, 3, 4]⟩ : Arr ℚ) ⟨[2, 4], [0, 0, 0, 0, 0, 0, 0, 0]⟩ =
      .ok ⟨[4], [1, 2, 3, 4]⟩ := by decide +kernel
  rw [e] at h1
  cases h1
  revert h2
  decide

section
variable {K : Type*}

private theorem squeeze_shape (p q : Arr K) (h : WithUnitAxes p q) :
    (squeeze p).shape = (squeeze q).shape := h.2

private theorem align_padded (r p q : Arr K) (h : WithUnitAxes p q) : align r p = align r q := by
  unfold align
  simp only [squeeze_shape p q h]

/-- C119 for points by rows, with any additional axes of length one. -/
theorem C119_rows (r p q : Arr K) (N k m : Nat) (f g : Nat → Nat → K) (hN : 4 ≤ N)
    (hk : k = 2 ∨ k = 3) (hr : ResultOf r N m f) (hp : Holds p N k g) (hq : WithUnitAxes q p) :
    ∃ c, align r q = .ok c ∧ Holds c N m f := by
  rw [align_padded r q p hq]
  have n1 : N ≠ 1 := by omega
  have k1 : k ≠ 1 := by omega
  unfold align squeeze
  rw [hp.1]
  simp only [ne_eq, decide_not, List.filter_cons, n1, k1, decide_false, Bool.not_false, if_true,
    List.filter_nil]
  rw [if_neg (by omega), if_neg (by omega)]
  rcases hr with hr | ⟨rfl, h1, h2, h3⟩
  · rw [hr.1]
    simp only [List.cons_ne_nil, and_false, if_false]
    rw [if_neg (by omega)]
    exact ⟨r, rfl, hr⟩
  · rw [h1]
    simp only [and_true, if_true]
    rw [if_neg (by omega)]
    refine ⟨_, rfl, rfl, by simp [h2], ?_⟩
    intro i j hi hj
    have : j = 0 := by omega
    subst this
    simpa using h3 i hi

/-- C119 for points by columns, with any additional axes of length one. Missing: results given as a
plain list, see `C119_refuted`. -/
theorem C119_columns_partial (r p q : Arr K) (N k m : Nat) (f g : Nat → Nat → K) (hN : 4 ≤ N)
    (hk : k = 2 ∨ k = 3) (hr : Holds r N m f) (hp : Holds p k N (fun j i => g i j))
    (hq : WithUnitAxes q p) :
    ∃ c, align r q = .ok c ∧ Holds c m N (fun j i => f i j) := by
  rw [align_padded r q p hq]
  have n1 : N ≠ 1 := by omega
  have k1 : k ≠ 1 := by omega
  unfold align squeeze
  rw [hp.1]
  simp only [ne_eq, decide_not, List.filter_cons, n1, k1, decide_false, Bool.not_false, if_true,
    List.filter_nil]
  rw [if_neg (by omega), if_neg (by omega), hr.1]
  simp only [and_true]
  rw [if_pos (by omega)]
  exact ⟨⟨[m, N], transposeData N m r.data⟩, by simp only [transposed, hr.1],
    holds_transpose N m r f hr⟩

/-- C119. Results with another number of rows than there are points are returned unchanged. -/
theorem C119_not_aligned (r p : Arr K) (N k n : Nat) (more : List Nat) (hN : 4 ≤ N)
    (hk : k = 2 ∨ k = 3) (hr : r.shape = n :: more) (hn : n ≠ N)
    (hp : p.shape = [N, k] ∨ (p.shape = [k, N] ∧ (n ≠ k ∨ more ≠ []))) : align r p = .ok r := by
  have n1 : N ≠ 1 := by omega
  have k1 : k ≠ 1 := by omega
  unfold align squeeze
  rcases hp with hp | ⟨hp, hnk⟩
  · rw [hp]
    simp only [ne_eq, decide_not, List.filter_cons, n1, k1, decide_false, Bool.not_false, if_true,
      List.filter_nil]
    rw [if_neg (by omega), if_neg (by omega), hr]
    simp only
    rw [if_neg (by omega), if_neg (by tauto)]
  · rw [hp]
    simp only [ne_eq, decide_not, List.filter_cons, n1, k1, decide_false, Bool.not_false, if_true,
      List.filter_nil]
    rw [if_neg (by omega), if_neg (by omega), hr]
    simp only
    rw [if_neg (by omega), if_neg (by rintro ⟨h1, h2⟩; rcases hnk with h | h; exact h h1.symm; exact h h2)]

/-- C119 leaves results for two or three points alone, whatever the result, as rows and columns cannot be
told apart; the documentation says so too. -/
theorem C119_few (r p : Arr K) (n k : Nat) (hn : n = 2 ∨ n = 3) (hk : k = 2 ∨ k = 3)
    (hp : p.shape.filter (· ≠ 1) = [n, k]) : align r p = .ok r := by
  unfold align squeeze
  simp only
  rw [hp]
  simp only
  rw [if_pos ⟨trivial, hn, hk⟩]

/-- C119. The result for a single point, with or without depth, comes back as it is; other single
axes and points with more than three coordinates are refused. -/
theorem C119_single (r p : Arr K) (n : Nat) (hp : p.shape.filter (· ≠ 1) = [n]) :
    align r p = if n = 2 ∨ n = 3 then .ok r else .error .valueError := by
  unfold align squeeze
  simp only
  rw [hp]

theorem C119_refuses (r p : Arr K) (n k : Nat) (more : List Nat) (hn : 4 ≤ n) (hk : 4 ≤ k)
    (hp : p.shape.filter (· ≠ 1) = n :: k :: more) : align r p = .error .valueError := by
  unfold align squeeze
  simp only
  rw [hp]
  simp only
  rw [if_neg (by omega), if_pos ⟨by omega, by omega⟩]

example : align (⟨[3], [5, 6, 7]⟩ : Arr ℚ) ⟨[3, 1, 2], [0, 0, 1, 1, 2, 2]⟩ = .ok ⟨[3], [5, 6, 7]⟩ :=
  C119_few _ _ 3 2 (Or.inr rfl) (Or.inl rfl) (by decide)

/-- C119 together with C54: whatever is computed from the normalised points, row by row, comes back
arranged like the points. -/
theorem C119_round_trip (p : Arr K) (N k m : Nat) (g : Nat → Nat → K) (F : List K → Nat → K)
    (hN : 4 ≤ N) (hk : k = 2 ∨ k = 3) (byRows : Bool)
    (hp : if byRows then Holds p N k g else Holds p k N (fun j i => g i j)) :
    ∃ c, reorganize p = .ok c ∧ Holds c N k g ∧
      ∀ r : Arr K, Holds r N m (fun n => F ((List.range k).map (g n))) →
        ∃ out, align r p = .ok out ∧
          if byRows then Holds out N m (fun n => F ((List.range k).map (g n)))
          else Holds out m N (fun j n => F ((List.range k).map (g n)) j) := by
  have hre : ∃ c, reorganize p = .ok c ∧ Holds c N k g := by
    have k1 : k ≠ 1 := by omega
    have n1 : N ≠ 1 := by omega
    cases byRows with
    | true =>
      simp only [if_true] at hp
      refine ⟨p, ?_, hp⟩
      have e : p = ⟨[N, k], p.data⟩ := by rw [← hp.1]
      unfold reorganize squeeze
      rw [hp.1]
      simp only [ne_eq, decide_not, List.filter_cons, n1, k1, decide_false, Bool.not_false,
        if_true, List.filter_nil]
      rw [if_neg (by omega), if_neg (by omega), if_pos (by omega), ← e]
    | false =>
      simp only [Bool.false_eq_true, if_false] at hp
      refine ⟨⟨[N, k], transposeData k N p.data⟩, ?_, holds_transpose k N p _ hp⟩
      unfold reorganize squeeze
      rw [hp.1]
      simp only [ne_eq, decide_not, List.filter_cons, n1, k1, decide_false, Bool.not_false,
        if_true, List.filter_nil]
      rw [if_neg (by omega), if_neg (by omega), if_neg (by omega)]
  obtain ⟨c, hc1, hc2⟩ := hre
  refine ⟨c, hc1, hc2, ?_⟩
  intro r hr
  cases byRows with
  | true =>
    simp only [if_true] at hp ⊢
    exact C119_rows r p p N k m _ g hN hk (Or.inl hr) hp ⟨rfl, rfl⟩
  | false =>
    simp only [Bool.false_eq_true, if_false] at hp ⊢
    exact C119_columns_partial r p p N k m _ g hN hk hr hp ⟨rfl, rfl⟩

end

/-- Four points by columns in an array with an additional axis, two numbers per point. -/
example : align (⟨[4, 2], [1, 5, 2, 6, 3, 7, 4, 8]⟩ : Arr ℚ)
    ⟨[1, 3, 4], [0, 0, 0, 0, 1, 1, 1, 1, 2, 2, 2, 2]⟩ =
    .ok ⟨[2, 4], [1, 2, 3, 4, 5, 6, 7, 8]⟩ := by decide +kernel

/-! ## C120 -/

/-- The open dataset `h` reads what the caller named. -/
def ReadsSrc (s : Opened) (h : Nat) : Src → Prop
  | .text n => (h, [n]) ∈ s.log
  | .path n => (h, [n]) ∈ s.log
  | .files ns => (h, ns) ∈ s.log
  | .handle k => h = k

theorem getDataset_reads {readable : List String → Bool} {src : Option Src} {s s' : Opened}
    {h : Nat} (e : getDataset readable src s = (.ok h, s')) :
    (∃ x, src = some x ∧ ReadsSrc s' h x) ∧ (∀ y ∈ s.log, y ∈ s'.log) ∧
      s'.log.length ≤ s.log.length + 1 := by
  rcases src with _ | (n | n | ns | k)
  · simp [getDataset] at e
  · simp only [getDataset, openFiles] at e
    split_ifs at e
    · cases e; exact ⟨⟨_, rfl, by simp [ReadsSrc]⟩, by simp +contextual, by simp⟩
    · cases e
  · simp only [getDataset, openFiles] at e
    split_ifs at e
    · cases e; exact ⟨⟨_, rfl, by simp [ReadsSrc]⟩, by simp +contextual, by simp⟩
    · cases e
  · simp only [getDataset, openFiles] at e
    split_ifs at e
    · cases e; exact ⟨⟨_, rfl, by simp [ReadsSrc]⟩, by simp +contextual, by simp⟩
    · cases e
  · simp only [getDataset] at e
    cases e; exact ⟨⟨_, rfl, rfl⟩, by simp, by simp⟩

theorem reads_mono {s s' : Opened} (h : ∀ y ∈ s.log, y ∈ s'.log) {k : Nat} {x : Src}
    (hr : ReadsSrc s k x) : ReadsSrc s' k x := by
  cases x <;> simp only [ReadsSrc] at * <;> first | exact h _ hr | exact hr

/-- C120. The data come from the dataset if one is given, else from the file name, else from the data
file; the grid from the file name, else the grid file, else the dataset. At most two datasets are
opened. -/
theorem C120_sources (readable : List String → Bool) (filename : Option Src) (dataset : Option Nat)
    (dataFile gridFile : Option Src) (s s' : Opened) (d g : Nat)
    (h : parseArgs readable filename dataset dataFile gridFile s = (.ok (d, g), s')) :
    (∀ x, dataset = some x → d = x) ∧
    (dataset = none → ∃ x, filename.or dataFile = some x ∧ ReadsSrc s' d x) ∧
    (∀ x, filename.or gridFile = some x → ReadsSrc s' g x) ∧
    (filename.or gridFile = none → dataset = some g) ∧
    s'.log.length ≤ s.log.length + 2 := by
  have fs : ∀ (t : Opened) (k : Nat) (f : Src), ReadsSrc t k (fspath f) → ReadsSrc t k f := by
    intro t k f; cases f <;> simp [fspath, ReadsSrc]
  unfold parseArgs at h
  cases dataset with
  | some x =>
    simp only [Option.some.injEq, reduceCtorEq, false_implies, true_and]
    cases filename with
    | none =>
      simp only at h
      cases gridFile with
      | none => simp only at h; cases h; simp
      | some y =>
        simp only at h
        split at h
        · cases h
        · rename_i k t e
          cases h
          obtain ⟨⟨z, hz, hr⟩, hm, hl⟩ := getDataset_reads e
          cases hz
          refine ⟨fun _ h => h, ?_, by simp, by omega⟩
          intro w hw; cases hw; exact hr
    | some f =>
      simp only at h
      split at h
      · cases h
      · rename_i k t e
        cases h
        obtain ⟨⟨z, hz, hr⟩, hm, hl⟩ := getDataset_reads e
        cases hz
        refine ⟨fun _ h => h, ?_, by simp, by omega⟩
        intro w hw; cases hw; exact fs _ _ _ hr
  | none =>
    simp only [reduceCtorEq, false_implies, implies_true, true_and, imp_false, forall_const]
    cases filename with
    | some f =>
      simp only [if_true] at h
      split at h
      · cases h
      · rename_i k t e
        cases h
        obtain ⟨⟨z, hz, hr⟩, hm, hl⟩ := getDataset_reads e
        cases hz
        refine ⟨⟨f, rfl, fs _ _ _ hr⟩, ?_, by simp, by omega⟩
        intro w hw; cases hw; exact fs _ _ _ hr
    | none =>
      simp only [Option.none_or] at h ⊢
      split_ifs at h with hc
      · subst hc
        split at h
        · cases h
        · rename_i k t e
          cases h
          obtain ⟨⟨z, hz, hr⟩, hm, hl⟩ := getDataset_reads e
          refine ⟨⟨z, hz, hr⟩, ?_, by simp [hz], by omega⟩
          intro w hw; rw [hz] at hw; cases hw; exact hr
      · split at h
        · cases h
        · rename_i k t e
          split at h
          · cases h
          · rename_i k' t' e'
            cases h
            obtain ⟨⟨z, hz, hr⟩, hm, hl⟩ := getDataset_reads e
            obtain ⟨⟨z', hz', hr'⟩, hm', hl'⟩ := getDataset_reads e'
            refine ⟨⟨z, hz, reads_mono hm' hr⟩, ?_, by simp [hz'], by omega⟩
            intro w hw; rw [hz'] at hw; cases hw; exact hr'

/-- C120 as stated: datasets of the same file are the same object. -/
def C120_statement : Prop :=
  ∀ (readable : List String → Bool) (filename : Option Src) (dataset : Option Nat)
    (dataFile gridFile : Option Src) (s s' : Opened) (d g : Nat) (names : List String),
    (∀ k l, (k, l) ∈ s.log → k < s.next) → (s.log.map Prod.fst).Nodup →
    parseArgs readable filename dataset dataFile gridFile s = (.ok (d, g), s') →
    (d, names) ∈ s'.log → (g, names) ∈ s'.log → d = g

/-- C120 fails when the same file is given once as a text and once as a path. -/
theorem C120_refuted : ¬ C120_statement := by
  intro h
  exact absurd (h (fun _ => true) none none (some (.text "a.nc")) (some (.path "a.nc")) ⟨0, []⟩
    ⟨2, [(1, ["a.nc"]), (0, ["a.nc"])]⟩ 0 1 ["a.nc"] (by simp) (by simp) rfl (by simp) (by simp))
    (by decide)

/-- C120 fails when the file of the given dataset is given again as the grid file. -/
theorem C120_refuted_dataset : ¬ C120_statement := by
  intro h
  exact absurd (h (fun _ => true) none (some 0) none (some (.text "a.nc")) ⟨1, [(0, ["a.nc"])]⟩
    ⟨2, [(1, ["a.nc"]), (0, ["a.nc"])]⟩ 0 1 ["a.nc"] (by simp) (by simp) rfl (by simp) (by simp))
    (by decide)

/-- C120 for one file name, for a data and a grid file given alike, and for a dataset alone: one object
for both, opened at most once, and not at all if an open dataset was given. Missing: the same file given
in two ways. -/
theorem C120_same_partial (readable : List String → Bool) (filename : Option Src) (dataset : Option Nat)
    (dataFile gridFile : Option Src) (s s' : Opened) (d g : Nat)
    (h : parseArgs readable filename dataset dataFile gridFile s = (.ok (d, g), s'))
    (hc : (dataset = none ∧ (filename ≠ none ∨ dataFile = gridFile)) ∨
      (dataset ≠ none ∧ filename = none ∧ gridFile = none)) :
    d = g ∧ s'.log.length ≤ s.log.length + 1 ∧
      (dataset ≠ none ∨ (∃ k, filename.or dataFile = some (.handle k)) → s' = s) := by
  unfold parseArgs at h
  rcases hc with ⟨rfl, hc⟩ | ⟨hd, rfl, rfl⟩
  · have key : ∀ (src : Option Src), (match getDataset readable src s with
        | (.error e, s) => ((.error e, s) : Except Err (Nat × Nat) × Opened)
        | (.ok h, s) => (.ok (h, h), s)) = (.ok (d, g), s') →
        d = g ∧ s'.log.length ≤ s.log.length + 1 ∧ ((∃ k, src = some (.handle k)) → s' = s) := by
      intro src h
      split at h
      · cases h
      · rename_i k t e
        cases h
        refine ⟨rfl, (getDataset_reads e).2.2, ?_⟩
        rintro ⟨k, rfl⟩
        simp only [getDataset] at e
        cases e; rfl
    cases filename with
    | some f =>
      simp only [if_true] at h
      obtain ⟨h1, h2, h3⟩ := key _ h
      refine ⟨h1, h2, ?_⟩
      rintro (hh | ⟨k, hk⟩)
      · exact absurd rfl hh
      · simp only [Option.some_or, Option.some.injEq] at hk
        subst hk
        exact h3 ⟨k, rfl⟩
    | none =>
      have hc' : dataFile = gridFile := by rcases hc with h | h; exact absurd rfl h; exact h
      subst hc'
      simp only [if_true] at h
      obtain ⟨h1, h2, h3⟩ := key _ h
      refine ⟨h1, h2, ?_⟩
      rintro (hh | hk)
      · exact absurd rfl hh
      · simpa using h3 hk
  · cases dataset with
    | none => exact absurd rfl hd
    | some x =>
      simp only at h
      cases h
      exact ⟨rfl, by omega, fun _ => rfl⟩

/-- Two different files are opened once each; one name for both is opened once. -/
example : parseArgs (fun _ => true) none none (some (.text "d.nc")) (some (.path "g.nc")) ⟨7, []⟩ =
      (.ok (7, 8), ⟨9, [(8, ["g.nc"]), (7, ["d.nc"])]⟩) ∧
    parseArgs (fun _ => true) (some (.path "d.nc")) none none none ⟨7, []⟩ =
      (.ok (7, 7), ⟨8, [(7, ["d.nc"])]⟩) ∧
    parseArgs (fun _ => true) none (some 3) none (some (.files ["a.nc", "b.nc"])) ⟨7, []⟩ =
      (.ok (3, 7), ⟨8, [(7, ["a.nc", "b.nc"])]⟩) := by decide

/-! ## C121 -/

/-- C121 as stated: a file name has the lowest priority; what is given for the data or for the grid comes
before it. -/
def C121_statement : Prop :=
  ∀ (readable : List String → Bool) (filename : Option Src) (dataset : Option Nat)
    (dataFile gridFile : Option Src) (s s' : Opened) (d g : Nat),
    parseArgs readable filename dataset dataFile gridFile s = (.ok (d, g), s') →
    (∀ x, dataset = some x → d = x) ∧
    (∀ x, dataset = none → dataFile = some x → ReadsSrc s' d x) ∧
    (∀ x, gridFile = some x → ReadsSrc s' g x)

/-- C121 fails: with a file name, the data file and the grid file are ignored. -/
theorem C121_refuted : ¬ C121_statement := by
  intro h
  have := (h (fun _ => true) (some (.text "a.nc")) none (some (.text "d.nc")) none ⟨0, []⟩
    ⟨1, [(0, ["a.nc"])]⟩ 0 0 rfl).2.1 (.text "d.nc") rfl rfl
  simp [ReadsSrc] at this

/-- C121 fails for the grid file as well. -/
theorem C121_refuted_grid : ¬ C121_statement := by
  intro h
  have := (h (fun _ => true) (some (.text "a.nc")) (some 5) none (some (.text "g.nc")) ⟨6, []⟩
    ⟨7, [(6, ["a.nc"])]⟩ 5 6 rfl).2.2 (.text "g.nc") rfl
  simp [ReadsSrc] at this

/-- C121 without a file name, and for a given dataset. Missing: a file name given together with a data
or grid file. -/
theorem C121_partial (readable : List String → Bool) (filename : Option Src) (dataset : Option Nat)
    (dataFile gridFile : Option Src) (s s' : Opened) (d g : Nat)
    (h : parseArgs readable filename dataset dataFile gridFile s = (.ok (d, g), s')) :
    (∀ x, dataset = some x → d = x) ∧
    (filename = none → (∀ x, dataset = none → dataFile = some x → ReadsSrc s' d x) ∧
      (∀ x, gridFile = some x → ReadsSrc s' g x)) := by
  obtain ⟨h1, h2, h3, h4, -⟩ := C120_sources readable filename dataset dataFile gridFile s s' d g h
  refine ⟨h1, ?_⟩
  rintro rfl
  refine ⟨?_, ?_⟩
  · rintro x hd hx
    obtain ⟨y, hy, hr⟩ := h2 hd
    rw [Option.none_or, hx] at hy
    cases hy
    exact hr
  · intro x hx
    exact h3 x (by rw [Option.none_or, hx])

example : ∃ s', parseArgs (fun _ => true) none none (some (.text "d.nc")) (some (.text "g.nc"))
    ⟨0, []⟩ = (.ok (0, 1), s') ∧ ReadsSrc s' 0 (.text "d.nc") ∧ ReadsSrc s' 1 (.text "g.nc") :=
  ⟨_, rfl, by simp [ReadsSrc], by simp [ReadsSrc]⟩

end Verif
