import Verif.Model.TimeFile
import Verif.Lemmas.TimeHeap
import Verif.Lemmas.SText
import Verif.Props.Time
import Verif.Model.At
import Mathlib.Tactic.Ring

/-!
# C133, C134: time axes of files and constant times
-/

set_option autoImplicit false

namespace Verif
open TimeM Spec

section
variable {H : Type} (td : H → Int) (zero : H) (iso : H → String)

/-! ## C133 -/

/-- The file has a variable of this name. -/
def HasVar (f : TFile H) (n : String) : Prop := ∃ w ∈ f.vars, w.name = n

/-- The name of the time axis a file states for a variable: the variable its attribute `time` names;
if it names none, the coordinate variable of the first dimension, if that has `time` in its name. -/
def StatesTime (f : TFile H) (v : TVar H) (n : String) : Prop :=
  (v.timeAttr = some n ∧ HasVar f n) ∨
  ((∀ m, v.timeAttr = some m → ¬ HasVar f m) ∧ v.dims.head? = some n ∧
    (∃ pre post : List Char, n.toList = pre ++ "time".toList ++ post) ∧ HasVar f n)

/-- C133 in full: a variable gets the times of the axis its file states, and is constant in time if it
states none. -/
def C133_statement (td : Int → Int) (iso : Int → String) : Prop :=
  ∀ (f : TFile Int) (v : TVar Int) (now : Int),
    (∀ n w ts z, StatesTime f v n → f.find n = some w → w.times = .ok ts → w.zone = .ok z →
      StrictIncr ts → ∃ t, axisOf td 0 iso now f v {} = .ok t ∧ t.data = ts) ∧
    ((∀ n, ¬ StatesTime f v n) → ∃ t, axisOf td 0 iso now f v {} = .ok t ∧ t.data = [now])

/-- C133 fails for a time dimension without a coordinate variable: such a file cannot be loaded. -/
theorem C133_refuted : ¬ C133_statement (fun h => h * 3600000000) (fun _ => "") := by
  intro h
  obtain ⟨t, ht, _⟩ := (h ⟨["time", "node"], []⟩
    ⟨"u", ["time", "node"], none, .error .attributeError, .error .attributeError⟩ 0).2 (by
      rintro n (⟨h, _⟩ | ⟨_, _, _, w, hw, _⟩)
      · cases h
      · cases hw)
  have : axisOf (fun h : Int => h * 3600000000) 0 (fun _ => "") 0 ⟨["time", "node"], []⟩
    ⟨"u", ["time", "node"], none, .error .attributeError, .error .attributeError⟩ {} =
      .error .keyError := by rfl
  rw [this] at ht
  cases ht

/-- C133 fails for a variable without dimensions. -/
theorem C133_refuted_scalar (td : H → Int) (now : Int) (f : TFile H) (v : TVar H) (a : LoadArgs H)
    (hv : v.dims = []) (ht : v.timeAttr = none) :
    axisOf td zero iso now f v a = .error .indexError := by
  simp [axisOf, locateTime, hv, ht]

/-- C133 fails for an attribute that names a time variable which is not called like its dimension: the
attribute is passed over, and the variable is taken to be constant. -/
theorem C133_refuted_attribute :
    ∃ (f : TFile Int) (v : TVar Int) (w : TVar Int), f.find "t" = some w ∧ w.times = .ok [5, 10] ∧
      w.zone = .ok (some 0, none) ∧ StatesTime f v "t" ∧ ∀ now,
      axisOf (fun h : Int => h * 3600000000) 0 (fun _ => "") now f v {} =
        .ok ⟨[now], none, none⟩ := by
  refine ⟨⟨["record", "node"], [⟨"t", ["record"], none, .ok [5, 10], .ok (some 0, none)⟩]⟩,
    ⟨"u", ["record", "node"], some "t", .error .attributeError, .error .attributeError⟩, _, rfl, rfl,
    rfl, Or.inl ⟨rfl, _, List.mem_singleton.mpr rfl, rfl⟩, fun now => ?_⟩
  have h : locateTime (H := Int)
      ⟨["record", "node"], [⟨"t", ["record"], none, .ok [5, 10], .ok (some 0, none)⟩]⟩
      ⟨"u", ["record", "node"], some "t", .error .attributeError, .error .attributeError⟩ =
      .ok none := rfl
  unfold axisOf
  rw [h]
  simp [construct_eq, shift]

/-- Dimensions and variables of the time go together: the name in the attribute, and the name of the
first dimension if it has `time` in it, are those of a dimension exactly if they are those of a
variable. -/
def TimeCoordinates (f : TFile H) (v : TVar H) : Prop :=
  v.dims ≠ [] ∧ (∀ d ∈ v.dims, d ∈ f.dims) ∧
  ∀ n, (v.timeAttr = some n ∨ (v.dims.head? = some n ∧
    ∃ pre post : List Char, n.toList = pre ++ "time".toList ++ post)) → (n ∈ f.dims ↔ HasVar f n)

theorem find_hasVar (f : TFile H) (n : String) : (∃ w, f.find n = some w) ↔ HasVar f n := by
  unfold TFile.find HasVar
  constructor
  · rintro ⟨w, hw⟩
    exact ⟨w, List.mem_of_find?_eq_some hw, by simpa using List.find?_some hw⟩
  · rintro ⟨w, hw, rfl⟩
    rcases h : f.vars.find? (fun x => x.name == w.name) with _ | x
    · have := List.find?_eq_none.mp h w hw
      simp at this
    · exact ⟨x, h⟩

/-- The search finds exactly the axis stated. -/
theorem locate_spec (f : TFile H) (v : TVar H) (h : TimeCoordinates f v) :
    (∀ n, StatesTime f v n → locateTime f v = .ok (some n)) ∧
    ((∀ n, ¬ StatesTime f v n) → locateTime f v = .ok none) := by
  obtain ⟨hne, hd, hc⟩ := h
  obtain ⟨d, ds, hdims⟩ : ∃ d ds, v.dims = d :: ds := by
    cases hv : v.dims with
    | nil => exact absurd hv hne
    | cons d ds => exact ⟨d, ds, rfl⟩
  have hdf : d ∈ f.dims := hd d (by simp [hdims])
  constructor
  · rintro n (⟨ha, hv⟩ | ⟨ha, hh, htime, hv⟩)
    · unfold locateTime
      rw [ha]
      simp only
      rw [if_pos ((hc n (Or.inl ha)).mpr hv)]
    · rw [hdims] at hh
      cases hh
      have hcont : SText.contains "time".toList d.toList = true :=
        (SText.contains_iff _ _).mpr htime
      unfold locateTime
      rw [hdims]
      simp only [hcont, if_true]
      cases hta : v.timeAttr with
      | none => rfl
      | some m =>
        simp only
        rw [if_neg]
        intro hm
        exact ha m hta ((hc m (Or.inl hta)).mp hm)
  · intro hno
    have hb : SText.contains "time".toList d.toList = false ∨ ∃ m, v.timeAttr = some m ∧ HasVar f m := by
      by_contra hcon
      rw [not_or] at hcon
      obtain ⟨h1, h2⟩ := hcon
      have h1' := (SText.contains_iff _ _).mp (by simpa using h1)
      apply hno d
      right
      refine ⟨fun m hm hv => h2 ⟨m, hm, hv⟩, by simp [hdims], h1', ?_⟩
      exact (hc d (Or.inr ⟨by simp [hdims], h1'⟩)).mp hdf
    unfold locateTime
    rw [hdims]
    rcases hta : v.timeAttr with _ | m
    · rcases hb with hb | ⟨m, hm, _⟩
      · simp only [hb, Bool.false_eq_true, if_false]
      · rw [hta] at hm; cases hm
    · have hm : ¬ HasVar f m := fun hv => hno m (Or.inl ⟨hta, hv⟩)
      have hb : SText.contains "time".toList d.toList = false := by
        rcases hb with hb | ⟨k, hk, hv⟩
        · exact hb
        · rw [hta] at hk
          cases hk
          exact absurd hv hm
      simp only [hb, Bool.false_eq_true, if_false, ite_eq_right_iff]
      intro hmd
      exact absurd ((hc m (Or.inl hta)).mp hmd) hm

/-- C133, for variables with a dimension, in files where dimensions and variables of the time go
together. Missing: the cases of `C133_refuted`, `C133_refuted_scalar` and `C133_refuted_attribute`. -/
theorem C133_partial (f : TFile H) (v : TVar H) (now : Int) (h : TimeCoordinates f v) :
    (∀ n w ts z, StatesTime f v n → f.find n = some w → w.times = .ok ts → w.zone = .ok z →
      StrictIncr ts → ∃ t, axisOf td zero iso now f v {} = .ok t ∧ t.data = ts ∧
        t.tz = some (z.1.getD zero)) ∧
    ((∀ n, ¬ StatesTime f v n) →
      ∃ t, axisOf td zero iso now f v {} = .ok t ∧ t.data = [now] ∧ t.tz = none) := by
  obtain ⟨h1, h2⟩ := locate_spec f v h
  constructor
  · intro n w ts z hn hw hts hz hinc
    unfold axisOf timeFromFile
    rw [h1 n hn]
    simp only [hw]
    unfold loadTime
    simp only [hz, hts]
    unfold fromNetCDF resolveTz
    rcases hz1 : z.1 with _ | o <;>
    · simp only [construct_eq]
      rw [if_neg (by simp), if_neg (by simp), if_pos (show ts.Pairwise (· < ·) from hinc)]
      exact ⟨_, rfl, by simp [shift], by simp⟩
  · intro hno
    unfold axisOf
    rw [h2 hno]
    simp only [construct_eq]
    rw [if_neg (by simp), if_neg (by simp), if_pos (by simp)]
    exact ⟨_, rfl, by simp [shift], rfl⟩

/-- C133: asking for the time of a data variable gives the constant time exactly if loading the
variable would take it to be constant, and otherwise the time loading it would give. -/
theorem C133_datavar (now : Int) (f : TFile H) (v : TVar H) (a : LoadArgs H) :
    match timeFromFile td zero iso f none (some (.inr v)) a with
    | .error e => axisOf td zero iso now f v a = .error e
    | .ok .constant => ∃ t, axisOf td zero iso now f v a = .ok t ∧ t.data = [now]
    | .ok (.read t _) => axisOf td zero iso now f v a = .ok t := by
  unfold axisOf timeFromFile
  simp only
  rcases hl : locateTime f v with e | _ | n
  · rfl
  · simp only [construct_eq]
    rw [if_neg (by simp), if_neg (by simp), if_pos (by simp)]
    exact ⟨_, rfl, by simp [shift]⟩
  · simp only
    rcases hf : f.find n with _ | w
    · simp only
    · rcases hr : loadTime td zero iso w a with e | r
      · simp only [Except.map, hr]
      · simp only [Except.map, hr]

/-- C133: naming the time variable gives its times, and a name the file does not have raises
`KeyError`; without a name and a variable `TypeError` is raised. -/
theorem C133_named (f : TFile H) (n : String) (d : Option (String ⊕ TVar H)) (a : LoadArgs H) :
    (∀ w, f.find n = some w → timeFromFile td zero iso f (some (.text n)) d a =
      (loadTime td zero iso w a).map fun r => .read r.1 r.2) ∧
    (¬ HasVar f n → timeFromFile td zero iso f (some (.text n)) d a = .error .keyError) ∧
    timeFromFile td zero iso f none none a = .error .typeError := by
  refine ⟨fun w hw => ?_, fun hn => ?_, rfl⟩
  · unfold timeFromFile
    cases d <;> simp [hw]
  · have hf : f.find n = none := by
      rcases h : f.find n with _ | w
      · rfl
      · exact absurd ((find_hasVar f n).mp ⟨w, h⟩) hn
    unfold timeFromFile
    cases d <;> simp [hf]

/-- C133: an offset given by the caller, or `naive`, is taken for the zone whatever the units say about
one, also if what they say cannot be understood; the times are those of the file. -/
theorem C133_offset (w : TVar H) (ts : List Int) (hts : w.times = .ok ts) (hinc : StrictIncr ts) :
    (∀ h : H, ∃ t, loadTime td zero iso w { tz := .given h } = .ok (t, some (iso h)) ∧ t.data = ts ∧
      t.tz = some h) ∧
    ∃ t, loadTime td zero iso w { tz := .naive } = .ok (t, some "No Timezone Specified") ∧
      t.data = ts ∧ t.tz = none := by
  constructor
  · intro h
    unfold loadTime
    simp only [hts]
    unfold fromNetCDF resolveTz
    simp only [construct_eq]
    rw [if_neg (by simp), if_neg (by simp), if_pos (show ts.Pairwise (· < ·) from hinc)]
    exact ⟨_, rfl, by simp [shift], by simp⟩
  · unfold loadTime
    simp only [hts]
    unfold fromNetCDF resolveTz
    simp only [construct_eq]
    rw [if_neg (by simp), if_neg (by simp), if_pos (show ts.Pairwise (· < ·) from hinc)]
    exact ⟨_, rfl, by simp [shift], by simp⟩

/-- A file as ROMS writes it: the attribute names the coordinate variable of the first dimension. -/
private def romsFile : TFile Int :=
  ⟨["ocean_time", "eta", "xi"],
    [⟨"ocean_time", ["ocean_time"], none, .ok [100, 200], .ok (some (-7), some "-07:00")⟩,
     ⟨"zeta", ["ocean_time", "eta", "xi"], some "ocean_time", .error .attributeError,
      .error .attributeError⟩,
     ⟨"h", ["eta", "xi"], none, .error .attributeError, .error .attributeError⟩]⟩

example : TimeCoordinates romsFile ⟨"zeta", ["ocean_time", "eta", "xi"], some "ocean_time",
    .error .attributeError, .error .attributeError⟩ ∧
    StatesTime romsFile ⟨"zeta", ["ocean_time", "eta", "xi"], some "ocean_time",
    .error .attributeError, .error .attributeError⟩ "ocean_time" := by
  have hv : HasVar romsFile "ocean_time" := ⟨_, by unfold romsFile; exact List.mem_cons_self .., rfl⟩
  refine ⟨⟨by simp, by simp [romsFile], ?_⟩, Or.inl ⟨rfl, hv⟩⟩
  rintro n (h | ⟨h, _⟩) <;>
  · simp only [Option.some.injEq, List.head?_cons] at h
    subst h
    exact ⟨fun _ => hv, fun _ => by simp [romsFile]⟩

example : ∀ n, ¬ StatesTime romsFile ⟨"h", ["eta", "xi"], none, .error .attributeError,
    .error .attributeError⟩ n := by
  rintro n (⟨h, _⟩ | ⟨_, h, h', _⟩)
  · cases h
  · simp only [List.head?_cons, Option.some.injEq] at h
    subst h
    have := (SText.contains_iff _ _).mpr h'
    revert this
    decide

/-! ## C134 -/

/-- An array of one entry stays one, and an object keeps its array. -/
private theorem initInPlace_length (data : List Int) (a : Args H) :
    (initInPlace td data a).1.length = data.length := by
  unfold initInPlace originShift
  rcases a.origin with _ | o
  · rcases a.newTz with _ | n
    · rcases a.disp with _ | d <;> simp only [] <;> split_ifs <;> simp [shift]
    · rcases a.tz with _ | z
      · simp [shift]
      · rcases a.disp with _ | d <;> simp only [] <;> split_ifs <;> simp [shift]
  · rcases data with _ | ⟨x, xs⟩
    · simp [shift]
    · rcases a.newTz with _ | n
      · rcases a.disp with _ | d <;> simp only [shift, List.map_cons] <;> split_ifs <;> simp
      · rcases a.tz with _ | z
        · simp [shift]
        · rcases a.disp with _ | d <;> simp only [shift, List.map_cons] <;> split_ifs <;> simp

/-- What no statement changes: the lengths of arrays, and which array an object has. -/
private def Extends (w w' : World H) : Prop :=
  (∀ (r : Nat) (l : List Int), w.arrays[r]? = some l → ∃ l' : List Int, w'.arrays[r]? = some l' ∧ l'.length = l.length) ∧
  ∀ (k : Nat) (o : ObjRef H), w.objs[k]? = some o → ∃ o' : ObjRef H, w'.objs[k]? = some o' ∧ o'.ref = o.ref

private theorem extends_set (w : World H) (r : Nat) (l l' : List Int) (hr : w.arrays[r]? = some l)
    (hl : l'.length = l.length) (i : Nat) (m : List Int) (hi : w.arrays[i]? = some m) :
    ∃ m', (w.arrays.set r l')[i]? = some m' ∧ m'.length = m.length := by
  rw [List.getElem?_set]
  by_cases h : r = i
  · subst h
    rw [hr] at hi
    cases hi
    rw [if_pos rfl, if_pos (List.getElem?_eq_some_iff.mp hr).1]
    exact ⟨l', rfl, hl⟩
  · rw [if_neg h]
    exact ⟨m, hi, rfl⟩

private theorem extends_obj (w : World H) (k : Nat) (o n : ObjRef H) (hk : w.objs[k]? = some o)
    (hn : n.ref = o.ref) (i : Nat) (p : ObjRef H) (hi : w.objs[i]? = some p) :
    ∃ p', (w.objs.set k n)[i]? = some p' ∧ p'.ref = p.ref := by
  rw [List.getElem?_set]
  by_cases h : k = i
  · subst h
    rw [hk] at hi
    cases hi
    rw [if_pos rfl, if_pos (List.getElem?_eq_some_iff.mp hk).1]
    exact ⟨n, rfl, hn⟩
  · rw [if_neg h]
    exact ⟨p, hi, rfl⟩

private theorem extends_initAt (w : World H) (r : Nat) (a : Args H) : Extends w (initAt td w r a) := by
  unfold initAt
  rcases hr : w.arrays[r]? with _ | l
  · exact ⟨fun _ l h => ⟨l, h, rfl⟩, fun _ o h => ⟨o, h, rfl⟩⟩
  · simp only
    have hl := initInPlace_length td l a
    rcases hi : initInPlace td l a with ⟨d, e | ⟨tz, dp⟩⟩
    · rw [hi] at hl
      exact ⟨extends_set w r l d hr hl, fun _ o h => ⟨o, h, rfl⟩⟩
    · rw [hi] at hl
      refine ⟨extends_set w r l d hr hl, fun k o h => ⟨o, ?_, rfl⟩⟩
      simp only
      rw [List.getElem?_append_left (List.getElem?_eq_some_iff.mp h).1]
      exact h

private theorem extends_exec (w : World H) (c : Cmd H) : Extends w (exec td w c) := by
  have hrefl : Extends w w := ⟨fun _ l h => ⟨l, h, rfl⟩, fun _ o h => ⟨o, h, rfl⟩⟩
  cases c with
  | mkArray xs =>
    refine ⟨fun r l h => ⟨l, ?_, rfl⟩, fun _ o h => ⟨o, h, rfl⟩⟩
    simp only [exec]
    rw [List.getElem?_append_left (List.getElem?_eq_some_iff.mp h).1]
    exact h
  | timeFromList xs a =>
    obtain ⟨h1, h2⟩ := extends_initAt td { w with arrays := w.arrays ++ [xs] } w.arrays.length a
    refine ⟨fun r l h => h1 r l ?_, h2⟩
    simp only
    rw [List.getElem?_append_left (List.getElem?_eq_some_iff.mp h).1]
    exact h
  | timeFromArray r a =>
    simp only [exec]
    split_ifs
    · exact extends_initAt td w r a
    · exact hrefl
  | timeFromTime k a =>
    simp only [exec]
    split
    · exact hrefl
    · exact extends_initAt td w _ a
  | setTz k o =>
    simp only [exec]
    split
    · exact hrefl
    · rename_i ob hob
      split
      · exact hrefl
      · rename_i data hdata
        refine ⟨extends_set w _ data _ hdata ?_, extends_obj w k ob _ hob rfl⟩
        unfold TimeM.setTz
        split <;> simp [shift]
  | setDisp k d =>
    simp only [exec]
    split
    · exact hrefl
    · rename_i ob hob
      split
      · exact hrefl
      · rename_i data hdata
        split
        · exact hrefl
        · rename_i t ht
          refine ⟨extends_set w _ data _ hdata ?_, extends_obj w k ob _ hob rfl⟩
          unfold TimeM.setDisp at ht
          simp only at ht
          split at ht
          · split at ht <;> cases ht <;> simp [shift]
          · cases ht

/-- The constant time, once made, is an object with one time. -/
private def ConstOk (w : CWorld H) : Prop :=
  ∀ k, w.const = some k → ∃ o x, w.world.objs[k]? = some o ∧ w.world.arrays[o.ref]? = some [x]

private theorem constOk_step (w : CWorld H) (c : CCmd H) (h : ConstOk w) : ConstOk (cexec td w c) := by
  intro k hk
  cases c with
  | base c =>
    obtain ⟨o, x, h1, h2⟩ := h k hk
    obtain ⟨e1, e2⟩ := extends_exec td w.world c
    obtain ⟨o', h1', hr⟩ := e2 k o h1
    obtain ⟨l, h2', hl⟩ := e1 _ _ h2
    obtain ⟨y, rfl⟩ := List.length_eq_one_iff.mp hl
    exact ⟨o', y, h1', by rw [hr]; exact h2'⟩
  | constant now =>
    simp only [cexec] at hk ⊢
    rcases hc : w.const with _ | j
    · rw [hc] at hk
      simp only [Option.some.injEq] at hk
      subst hk
      refine ⟨⟨w.world.arrays.length, none, none⟩, now, ?_⟩
      have hi : initInPlace td [now] ({} : Args H) = ([now], .ok (none, none)) := by
        simp [initInPlace, originShift, shift, isAscending, hasDuplicates, Np.sort, Np.unique, Np.insertSorted]
      simp [exec, initAt, hi]
    · rw [hc] at hk
      simp only at hk ⊢
      exact h k hk

private theorem constOk_all (p : List (CCmd H)) : ∀ w : CWorld H, ConstOk w → ConstOk (cexecAll td w p) := by
  induction p with
  | nil => exact fun w h => h
  | cons c p ih => exact fun w h => ih _ (constOk_step td w c h)

/-- C134. Whatever a program does, also to the constant time itself, the constant time serves every
query, inside and outside of its one time, with the first index and no weight on a neighbour. -/
theorem C134_serves {K : Type} [Field K] [DecidableEq K] (rnd : K → K) (p : List (CCmd H)) (k : Nat)
    (hk : (cexecAll td {} p).const = some k) :
    ∃ x, (cexecAll td {} p).world.dataOf k = some [x] ∧
      ∀ t e, indexOf [x] t e = .ok 0 ∧ interpAlpha rnd [x] t e = .ok 0 := by
  obtain ⟨o, x, h1, h2⟩ := constOk_all td p {} (by intro k h; cases h) k hk
  refine ⟨x, by simp [World.dataOf, h1, h2], fun t e => ⟨?_, ?_⟩⟩
  · simp [indexOf]
  · simp [interpAlpha, indexOf, alphaFrom]

/-- C134. The constant time is one object: asked for again, at whatever time and whatever happened in
between, it is the same one, and nothing else is changed by asking. -/
theorem C134_same (p : List (CCmd H)) (w : CWorld H) (k : Nat) (now : Int) (hk : w.const = some k) :
    cexec td (cexecAll td w p) (.constant now) = cexecAll td w p ∧
      (cexecAll td w p).const = some k := by
  have h : (cexecAll td w p).const = some k := by
    induction p generalizing w with
    | nil => exact hk
    | cons c p ih =>
      apply ih
      cases c with
      | base c => exact hk
      | constant now => simp only [cexec, hk]
  refine ⟨?_, h⟩
  simp only [cexec, h]

/-- C134: a variable with the constant time has one and the same value at all times. -/
theorem C134_one_value {K : Type} [Field K] [DecidableEq K] (x : Int)
    (val : Int → Except Err (List (DepthM.Cell K))) (cs : List (DepthM.Cell K)) (h0 : val 0 = .ok cs)
    (h1 : val (-1) = .ok cs) (t : Int) (e : Bool) : At.timeStage [x] val t e = .ok cs := by
  have hmix : List.zipWith (fun a b => At.mixCell a b (some (0 : K))) cs cs = cs := by
    rw [List.zipWith_self]
    conv_rhs => rw [← List.map_id cs]
    apply List.map_congr_left
    rintro ⟨v, m⟩ _
    cases v <;> simp [At.mixCell]
  have hmin : minTime [x] = .ok x := rfl
  have hmax : maxTime [x] = .ok x := rfl
  have hi : indexOf [x] t false = .ok 0 := by simp [indexOf]
  have ha : interpAlpha (fun y : K => y) [x] t e = .ok 0 := by simp [interpAlpha, indexOf, alphaFrom]
  unfold At.timeStage
  rw [hmin, hmax, hi, ha]
  simp only
  split_ifs
  · exact h0
  · exact h1
  · simp only [Nat.cast_zero, zero_sub, h0, h1, hmix]

/-- The hypotheses hold in a program that displaces the constant time and asks for it again. -/
example : (cexecAll (fun h : Int => h) {}
      [.constant 7, .base (.timeFromTime 0 {}), .base (.setDisp 1 (some (.delta 5))), .constant 9]).const
      = some 0 ∧
    (cexecAll (fun h : Int => h) {} [.constant 7, .base (.timeFromTime 0 {}),
      .base (.setDisp 1 (some (.delta 5))), .constant 9]).world.dataOf 0 = some [12] := by
  decide

end

end Verif
