import Verif.Model.TimeText
import Verif.Props.TimeFile
import Verif.Spec.Rounded
import Verif.Lemmas.Binary64
import Verif.Props.OffsetName
import Mathlib.Algebra.Order.Round
import Mathlib.Tactic.Linarith
import Mathlib.Tactic.NormNum

/-!
# C205: instants of a file whose time units state an offset
-/

set_option autoImplicit false

namespace Verif
open TimeM Spec TimeText

namespace TimeTextSpec

/-- Units `<word>since<ref>`: numbers count steps of `step` microseconds from the reference, whose
clock shows `loc` (microseconds) in the zone `offset` seconds ahead of UTC; without an offset it is
UTC. -/
structure Units where
  word : List Char
  ref : List Char
  step : Int
  loc : Int
  offset : Option Int

/-- The text of the attribute. -/
def Units.text (u : Units) : List Char := u.word ++ "since".toList ++ u.ref

/-- The instant, in UTC, that a number of the file means. -/
def Units.instant (u : Units) (v : Int) : Int := u.loc - 1000000 * u.offset.getD 0 + v * u.step

/-- The word `since` is in the text once, after `word`, and the offset is less than a day. -/
structure Proper (u : Units) : Prop where
  first : ∀ a b, u.text = a ++ "since".toList ++ b → u.word.length ≤ a.length
  once : ∀ a b, u.ref ≠ a ++ "since".toList ++ b
  day : ∀ s, u.offset = some s → -86400 < s ∧ s < 86400

/-- The libraries understand the units: `parse` finds the offset, and `num2date` returns, as it is
documented, times in UTC whatever the offset is. -/
structure Understood (lib : Library) (u : Units) (vals : List Int) (name : Option String) : Prop where
  parse : lib.parse u.ref = some ⟨u.offset, name⟩
  num2date : lib.num2date u.text vals = .ok (vals.map u.instant)

end TimeTextSpec
open TimeTextSpec

/-- C205 as stated: the times of the axis, taken in the zone it states, are the instants of the
file. -/
def C205_statement : Prop :=
  ∀ (lib : Library) (u : Units) (vals : List Int) (name : Option String) (n : String)
    (dims : List String), Proper u → Understood lib u vals name → StrictIncr (vals.map u.instant) →
    ∃ t nm h, load rnd64 lib (timeVar rnd64 lib n dims (some u.text) vals) {} = .ok (t, nm) ∧
      t.tz = some h ∧ t.data.map (· - deltaHours rnd64 h) = vals.map u.instant

/-! ## Texts -/

theorem cut_some (w : List Char) (hw : w ≠ []) : ∀ (s a b : List Char), cut w s = some (a, b) →
    s = a ++ w ++ b ∧ ∀ a' b', s = a' ++ w ++ b' → a.length ≤ a'.length
  | [], a, b, h => by
    cases w with
    | nil => exact absurd rfl hw
    | cons x w => simp [cut, SText.lit] at h
  | c :: s, a, b, h => by
    unfold cut at h
    rcases hl : SText.lit w (c :: s) with _ | r
    · simp only [hl] at h
      rcases hc : cut w s with _ | ⟨a1, b1⟩
      · simp [hc] at h
      · simp only [hc, Option.map_some, Option.some.injEq, Prod.mk.injEq] at h
        obtain ⟨rfl, rfl⟩ := h
        obtain ⟨e, hm⟩ := cut_some w hw s a1 b1 hc
        refine ⟨by rw [e]; simp, ?_⟩
        intro a' b' he
        cases a' with
        | nil =>
          rw [List.nil_append] at he
          rw [he, SText.lit_append] at hl
          cases hl
        | cons x a' =>
          simp only [List.cons_append, List.cons.injEq] at he
          have := hm a' b' (by rw [he.2])
          simp only [List.length_cons]
          omega
    · simp only [hl, Option.some.injEq, Prod.mk.injEq] at h
      obtain ⟨rfl, rfl⟩ := h
      exact ⟨by rw [SText.lit_some _ _ _ hl]; simp, fun _ _ _ => Nat.zero_le _⟩

theorem cut_none (w : List Char) (hw : w ≠ []) : ∀ (s : List Char), cut w s = none →
    ∀ a b, s ≠ a ++ w ++ b
  | [], _, a, b, e => by
    have := congrArg List.length e
    simp only [List.length_nil, List.length_append] at this
    exact hw (List.length_eq_zero_iff.mp (by omega))
  | c :: s, h, a, b, e => by
    unfold cut at h
    rcases hl : SText.lit w (c :: s) with _ | r
    · simp only [hl, Option.map_eq_none_iff] at h
      cases a with
      | nil =>
        rw [List.nil_append] at e
        rw [e, SText.lit_append] at hl
        cases hl
      | cons x a =>
        simp only [List.cons_append, List.cons.injEq] at e
        exact cut_none w hw s h a b e.2
    · simp [hl] at h

theorem reference_proper (u : Units) (h : Proper u) : reference u.text = .ok u.ref := by
  have hw : "since".toList ≠ [] := by decide
  have h2 : cut "since".toList u.ref = none := by
    rcases hc : cut "since".toList u.ref with _ | ⟨a, b⟩
    · rfl
    · exact absurd (cut_some _ hw _ _ _ hc).1 (h.once a b)
  rcases hc : cut "since".toList u.text with _ | ⟨a, b⟩
  · exact absurd rfl (cut_none _ hw _ hc u.word u.ref)
  · obtain ⟨e, hm⟩ := cut_some _ hw _ _ _ hc
    have l1 := hm u.word u.ref rfl
    have l2 := h.first a b e
    have e' : u.word ++ ("since".toList ++ u.ref) = a ++ ("since".toList ++ b) := by
      have : u.text = a ++ "since".toList ++ b := e
      unfold Units.text at this
      rw [List.append_assoc, List.append_assoc] at this
      exact this
    obtain ⟨-, e3⟩ := List.append_inj e' (by omega)
    have e4 : u.ref = b := List.append_cancel_left e3
    unfold reference
    simp only [hc, ← e4, h2]

/-- C205. Units without the word `since` cannot be loaded unless the caller states the offset. -/
theorem C205_no_since (rnd : ℚ → ℚ) (lib : Library) (units : List Char) (vals : List Int) (n : String)
    (dims : List String) (h : ∀ a b, units ≠ a ++ "since".toList ++ b) :
    load rnd lib (timeVar rnd lib n dims (some units) vals) {} = .error .indexError := by
  have hc : cut "since".toList units = none := by
    rcases hc : cut "since".toList units with _ | ⟨a, b⟩
    · rfl
    · exact absurd (cut_some _ (by decide) _ _ _ hc).1 (h a b)
  have hr : reference units = .error .indexError := by
    unfold reference
    rw [hc]
  simp [load, loadTime, timeVar, parseOffset, hr]

/-! ## Offsets -/

/-- A whole number of seconds below a day is the same offset in hours, in spite of rounding. -/
theorem deltaHours_seconds (rnd : ℚ → ℚ) (e : ℚ) (h : Accurate rnd e) (he : e ≤ 1 / 10 ^ 13) (s : Int)
    (h1 : -86400 < s) (h2 : s < 86400) : deltaHours rnd (rnd ((s : ℚ) / 3600)) = 1000000 * s := by
  have he0 : 0 ≤ e := by
    have := h 1
    have h3 : (0 : ℚ) ≤ e * |1| := le_trans (abs_nonneg _) this
    simpa using h3
  generalize hg : rnd ((s : ℚ) / 3600) = g
  have a1 : |g - (s : ℚ) / 3600| ≤ 24 / 10 ^ 13 := by
    rw [← hg]
    refine le_trans (h _) ?_
    have : |(s : ℚ) / 3600| ≤ 24 := by
      rw [abs_le]
      have l1 : (-86400 : ℚ) < s := by exact_mod_cast h1
      have l2 : (s : ℚ) < 86400 := by exact_mod_cast h2
      constructor <;> linarith
    calc e * |(s : ℚ) / 3600| ≤ 1 / 10 ^ 13 * 24 :=
          mul_le_mul he this (abs_nonneg _) (by positivity)
      _ = 24 / 10 ^ 13 := by ring
  unfold deltaHours
  simp only
  generalize hi : (if 0 ≤ g then ⌊g⌋ else ⌈g⌉) = w
  have aw : |g - w| ≤ 1 := by
    rw [← hi, abs_le]
    by_cases hg0 : 0 ≤ g
    · rw [if_pos hg0]
      have := Int.floor_le g
      have := Int.lt_floor_add_one g
      constructor <;> linarith
    · rw [if_neg hg0]
      have := Int.le_ceil g
      have := Int.ceil_lt_add_one g
      constructor <;> linarith
  have a2 : |rnd ((g - w) * 3600000000) - (g - w) * 3600000000| ≤ 1 / 1000 := by
    refine le_trans (h _) ?_
    rw [abs_mul, abs_of_pos (by norm_num : (0 : ℚ) < 3600000000)]
    calc e * (|g - w| * 3600000000) ≤ 1 / 10 ^ 13 * (1 * 3600000000) :=
          mul_le_mul he (mul_le_mul_of_nonneg_right aw (by norm_num))
            (mul_nonneg (abs_nonneg _) (by norm_num)) (by positivity)
      _ ≤ 1 / 1000 := by norm_num
  have key : round (rnd ((g - w) * 3600000000)) = 1000000 * s - w * 3600000000 := by
    rw [round_eq, Int.floor_eq_iff]
    push_cast
    rw [abs_le] at a1 a2
    constructor <;> linarith [a1.1, a1.2, a2.1, a2.2]
  rw [key]
  ring

theorem accurate_rnd64 : Accurate rnd64 (1 / 10 ^ 13) := by
  intro x
  refine le_trans (rnd64_err x) (mul_le_mul_of_nonneg_right ?_ (abs_nonneg _))
  norm_num

/-! ## The axis -/

/-- C205, what happens instead: whatever the offset, the axis holds the instants in UTC but states
the offset of the units as its zone, so that in its zone every time is wrong by the offset; a new
zone asked for keeps the error. -/
theorem C205_shift (rnd : ℚ → ℚ) (e : ℚ) (ha : Accurate rnd e) (he : e ≤ 1 / 10 ^ 13) (lib : Library)
    (u : Units) (vals : List Int) (name : Option String) (n : String) (dims : List String)
    (new : Option ℚ) (hp : Proper u) (hu : Understood lib u vals name)
    (hi : StrictIncr (vals.map u.instant)) :
    ∃ t nm h, load rnd lib (timeVar rnd lib n dims (some u.text) vals) { newTz := new } = .ok (t, nm) ∧
      t.tz = some h ∧ (∀ h', new = some h' → h = h') ∧
      (new = none → deltaHours rnd h = 1000000 * u.offset.getD 0 ∧ t.data = vals.map u.instant) ∧
      t.data.map (· - deltaHours rnd h) = vals.map fun v => u.instant v - 1000000 * u.offset.getD 0 := by
  have hr0 : rnd 0 = 0 := by
    have := ha 0
    simpa using this
  have hd0 : deltaHours rnd 0 = 0 := by
    simp [deltaHours, hr0]
  obtain ⟨z, hz, hzt⟩ : ∃ z, parseOffset rnd lib u.text = .ok z ∧
      deltaHours rnd (z.1.getD 0) = 1000000 * u.offset.getD 0 := by
    unfold parseOffset
    simp only [reference_proper u hp, hu.parse]
    rcases ho : u.offset with _ | s
    · exact ⟨_, rfl, by simpa using hd0⟩
    · obtain ⟨h1, h2⟩ := hp.day s ho
      exact ⟨_, rfl, by simpa using deltaHours_seconds rnd e ha he s h1 h2⟩
  have hpw : (vals.map u.instant).Pairwise (· < ·) := hi
  obtain ⟨nm, hres⟩ : ∃ nm, resolveTz 0 (fun h => String.ofList (OffsetName.isoString rnd h)) .absent z
      none = (some (z.1.getD 0), nm) := by
    unfold resolveTz
    rcases hz1 : z.1 with _ | h <;> exact ⟨_, rfl⟩
  unfold load loadTime timeVar
  simp only [hz, hu.num2date]
  unfold fromNetCDF
  simp only [hres, construct_eq]
  rcases new with _ | h'
  · rw [if_neg (by simp), if_neg (by simp), if_pos hpw]
    refine ⟨_, _, _, rfl, rfl, by simp, fun _ => ⟨hzt, by simp [shift]⟩, ?_⟩
    simp [shift, hzt]
  · rw [if_neg (by simp), if_neg (by simp), if_pos hpw]
    refine ⟨_, _, _, rfl, rfl, by simp, by simp, ?_⟩
    simp only [shift, List.map_map]
    apply List.map_congr_left
    intro v _
    simp only [Function.comp, hzt]
    ring

/-- C205 for units without an offset or with the offset zero; other offsets are missing, see
`C205_refuted`. -/
theorem C205_partial (rnd : ℚ → ℚ) (e : ℚ) (ha : Accurate rnd e) (he : e ≤ 1 / 10 ^ 13) (lib : Library)
    (u : Units) (vals : List Int) (name : Option String) (n : String) (dims : List String)
    (hp : Proper u) (hu : Understood lib u vals name) (hi : StrictIncr (vals.map u.instant))
    (h0 : ∀ s, u.offset = some s → s = 0) :
    ∃ t nm h, load rnd lib (timeVar rnd lib n dims (some u.text) vals) {} = .ok (t, nm) ∧
      t.tz = some h ∧ t.data.map (· - deltaHours rnd h) = vals.map u.instant := by
  obtain ⟨t, nm, h, h1, h2, -, -, h3⟩ := C205_shift rnd e ha he lib u vals name n dims none hp hu hi
  have : u.offset.getD 0 = 0 := by
    rcases ho : u.offset with _ | s
    · rfl
    · exact h0 s ho
  exact ⟨t, nm, h, h1, h2, by simpa [this] using h3⟩

/-- C205 holds for all offsets in the units if the caller states that the data are in UTC. -/
theorem C205_stated_utc (rnd : ℚ → ℚ) (hr0 : rnd 0 = 0) (lib : Library) (u : Units) (vals : List Int)
    (name : Option String) (n : String) (dims : List String) (hu : Understood lib u vals name)
    (hi : StrictIncr (vals.map u.instant)) :
    ∃ t nm, load rnd lib (timeVar rnd lib n dims (some u.text) vals) { tz := .given 0 } = .ok (t, nm) ∧
      t.tz = some 0 ∧ t.data.map (· - deltaHours rnd 0) = vals.map u.instant := by
  have hd0 : deltaHours rnd 0 = 0 := by simp [deltaHours, hr0]
  have hpw : (vals.map u.instant).Pairwise (· < ·) := hi
  unfold load loadTime timeVar
  simp only [hu.num2date]
  unfold fromNetCDF resolveTz
  simp only [construct_eq]
  rw [if_neg (by simp), if_neg (by simp), if_pos hpw]
  exact ⟨_, _, rfl, rfl, by simp [shift, hd0]⟩

/-- C205, what a user sees: with a zone west of Greenwich in the units, the time of the first record
on the clock of the zone the axis states is refused as outside the axis. -/
theorem C205_first_record_refused (rnd : ℚ → ℚ) (e : ℚ) (ha : Accurate rnd e) (he : e ≤ 1 / 10 ^ 13)
    (lib : Library) (u : Units) (v : Int) (vals : List Int) (name : Option String) (n : String)
    (dims : List String) (hp : Proper u) (hu : Understood lib u (v :: vals) name)
    (hi : StrictIncr ((v :: vals).map u.instant)) (s : Int) (hs : u.offset = some s) (hw : s < 0) :
    ∃ t nm h, load rnd lib (timeVar rnd lib n dims (some u.text) (v :: vals)) {} = .ok (t, nm) ∧
      t.tz = some h ∧ validTime t.data (u.instant v + deltaHours rnd h) = .error .outOfTimeRange := by
  obtain ⟨t, nm, h, h1, h2, -, h3, -⟩ :=
    C205_shift rnd e ha he lib u (v :: vals) name n dims none hp hu hi
  obtain ⟨h4, h5⟩ := h3 rfl
  refine ⟨t, nm, h, h1, h2, ?_⟩
  rw [h5, h4, hs]
  have : minTime ((v :: vals).map u.instant) = .ok (u.instant v) := by
    simp [minTime, Np.pyGet]
  unfold validTime timeInBounds
  rw [this]
  simp only [Option.getD_some]
  rw [if_pos (by omega)]

theorem rnd64_quarter (q : Int) (h1 : -96 < q) (h2 : q < 96) : rnd64 ((q : ℚ) / 4) = q / 4 := by
  have h := rnd64_scale (q : ℚ) (-2)
  rw [rnd64_int q (by rw [abs_le]; constructor <;> omega)] at h
  have e : (2 : ℚ) ^ (-2 : ℤ) = 1 / 4 := by norm_num
  rw [e] at h
  rw [div_eq_mul_one_div]
  exact h

/-- C205. The zone has the name the date has, if it has one, and otherwise a text that denotes the
offset, for offsets of whole quarter hours (see C09 for others); without an offset it is UTC. -/
theorem C205_name (lib : Library) (u : Units) (vals : List Int) (name : Option String)
    (n : String) (dims : List String) (hp : Proper u) (hu : Understood lib u vals name)
    (hi : StrictIncr (vals.map u.instant)) :
    ∃ t nm, load rnd64 lib (timeVar rnd64 lib n dims (some u.text) vals) {} = .ok (t, nm) ∧
      (u.offset = none → nm = some "UTC") ∧
      ∀ s, u.offset = some s → (∀ z, name = some z → nm = some z) ∧
        (name = none → ∀ q : Int, s = 900 * q →
          ∃ w, nm = some (String.ofList w) ∧ DenotesMinutes w (15 * q)) := by
  have hpw : (vals.map u.instant).Pairwise (· < ·) := hi
  unfold load loadTime timeVar parseOffset
  simp only [reference_proper u hp, hu.parse, hu.num2date]
  unfold fromNetCDF resolveTz
  rcases ho : u.offset with _ | s
  · simp only [construct_eq]
    rw [if_neg (by simp), if_neg (by simp), if_pos hpw]
    exact ⟨_, _, rfl, fun _ => rfl, by intro s hs; cases hs⟩
  · simp only [construct_eq]
    rw [if_neg (by simp), if_neg (by simp), if_pos hpw]
    refine ⟨_, _, rfl, (fun hs => by cases hs), ?_⟩
    intro s' hs
    cases hs
    refine ⟨?_, ?_⟩
    · rintro z rfl
      rfl
    · rintro rfl q rfl
      refine ⟨_, rfl, ?_⟩
      obtain ⟨d1, d2⟩ := hp.day _ ho
      have e : rnd64 (((900 * q : Int) : ℚ) / 3600) = ((15 * q : Int) : ℚ) / 60 := by
        have e1 : ((900 * q : Int) : ℚ) / 3600 = (q : ℚ) / 4 := by push_cast; ring
        rw [e1, rnd64_quarter q (by omega) (by omega)]
        push_cast
        ring
      rw [e]
      exact C09_quarter_hours_partial q

/-! ## Instances -/

/-- The units `days since 2024-1-1T00:00:00-7:00`; the clock starts at the reference. -/
def exUnits : Units := ⟨"days ".toList, " 2024-1-1T00:00:00-7:00".toList, 86400000000, 0, some (-25200)⟩

/-- Libraries for texts of this kind. -/
def exLibrary (u : Units) (name : Option String) : Library :=
  ⟨fun _ => some ⟨u.offset, name⟩, fun _ vals => .ok (vals.map u.instant)⟩

theorem exUnits_proper : Proper exUnits where
  first := (cut_some "since".toList (by decide) exUnits.text "days ".toList exUnits.ref (by decide +kernel)).2
  once := cut_none "since".toList (by decide) exUnits.ref (by decide +kernel)
  day := by
    intro s hs
    cases hs
    decide

theorem exUnits_understood (vals : List Int) :
    Understood (exLibrary exUnits none) exUnits vals none := ⟨rfl, rfl⟩

theorem C205_refuted : ¬ C205_statement := by
  intro h
  have hi : StrictIncr ([0, 1].map exUnits.instant) := by
    unfold StrictIncr
    decide +kernel
  obtain ⟨t, nm, k, h1, h2, h3⟩ := h (exLibrary exUnits none) exUnits [0, 1] none "time" ["time"]
    exUnits_proper (exUnits_understood _) hi
  obtain ⟨t', nm', k', h1', h2', -, -, h3'⟩ := C205_shift rnd64 _ accurate_rnd64 le_rfl
    (exLibrary exUnits none) exUnits [0, 1] none "time" ["time"] none exUnits_proper
    (exUnits_understood _) hi
  have e := h1.symm.trans h1'
  cases e
  rw [h2] at h2'
  cases h2'
  rw [h3] at h3'
  revert h3'
  decide +kernel

/-- The hypotheses of `C205_partial` hold of units without an offset. -/
example : ∃ t nm h, load rnd64 (exLibrary { exUnits with offset := none } none)
    (timeVar rnd64 (exLibrary { exUnits with offset := none } none) "time" ["time"]
      (some ({ exUnits with offset := none } : Units).text) [3, 4, 9]) {} = .ok (t, nm) ∧
      t.tz = some h ∧ t.data.map (· - deltaHours rnd64 h) = [259200000000, 345600000000, 777600000000] :=
  C205_partial rnd64 _ accurate_rnd64 le_rfl _ { exUnits with offset := none } [3, 4, 9] none _ _
    ⟨exUnits_proper.first, exUnits_proper.once, by intro s hs; cases hs⟩ ⟨rfl, rfl⟩
    (by unfold StrictIncr; decide +kernel) (by intro s hs; cases hs)

/-- And the axis of the example: midnight of the first day in the zone, seven hours late. -/
example : (load rnd64 (exLibrary exUnits none)
    (timeVar rnd64 (exLibrary exUnits none) "time" ["time"] (some exUnits.text) [0, 1]) {}).toOption.map
      (fun r => (r.1.data, r.1.tz, r.2)) =
    some ([25200000000, 111600000000], some (-7), some "-07:00") := by decide +kernel

end Verif
