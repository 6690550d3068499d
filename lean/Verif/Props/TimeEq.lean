import Verif.Model.Time

/-!
# Equality of time series: C181
-/

set_option autoImplicit false

namespace Verif
open Verif.TimeM

section
variable {H : Type} [DecidableEq H] (td : H → Int)

private theorem eqTime_iff (a b : TimeObj H) : eqTime a b = true ↔ a.data = b.data ∧ a.tz = b.tz := by
  simp [eqTime]

/-- C181. Equality is reflexive, symmetric and transitive. -/
theorem C181_equivalence (a b c : TimeObj H) :
    eqTime a a = true ∧ eqTime a b = eqTime b a ∧
      (eqTime a b = true → eqTime b c = true → eqTime a c = true) := by
  refine ⟨by simp [eqTime], ?_, ?_⟩
  · rw [Bool.eq_iff_iff, eqTime_iff, eqTime_iff]
    exact ⟨fun h => ⟨h.1.symm, h.2.symm⟩, fun h => ⟨h.1.symm, h.2.symm⟩⟩
  · rw [eqTime_iff, eqTime_iff, eqTime_iff]
    exact fun h1 h2 => ⟨h1.1.trans h2.1, h1.2.trans h2.2⟩

/-- C181. Series with known offsets are equal exactly if they mark the same instants (local time minus
offset) and have the same offset. -/
theorem C181_instants (a b : TimeObj H) (o p : H) (ha : a.tz = some o) (hb : b.tz = some p) :
    eqTime a b = true ↔ o = p ∧ a.data.map (· - td o) = b.data.map (· - td p) := by
  rw [eqTime_iff, ha, hb, Option.some.injEq]
  constructor
  · rintro ⟨h1, rfl⟩
    exact ⟨rfl, by rw [h1]⟩
  · rintro ⟨rfl, h⟩
    exact ⟨(List.map_inj_right (fun x y h => by simpa using h)).1 h, rfl⟩

/-- C181. A series without an offset equals none that has one, whatever the times. -/
theorem C181_unknown_offset (a b : TimeObj H) (o : H) (ha : a.tz = none) (hb : b.tz = some o) :
    eqTime a b = false := by
  simp [eqTime, ha, hb]

/-- C181. Equal series answer all questions alike. -/
theorem C181_answers {K : Type} [Field K] [DecidableEq K] (rnd : K → K) (a b : TimeObj H)
    (h : eqTime a b = true) (t : Int) (e : Bool) :
    indexOf a.data t e = indexOf b.data t e ∧ validTime a.data t = validTime b.data t ∧
      interpAlpha rnd a.data t e = interpAlpha rnd b.data t e := by
  rw [((eqTime_iff a b).1 h).1]
  exact ⟨rfl, rfl, rfl⟩

/-- C181 as stated: equal series remain equal after the same assignments to both. -/
def C181_statement : Prop :=
  ∀ (a b : TimeObj Int) (ops : List (Op Int)), eqTime a b = true →
    eqTime (run (fun h => h * 3600000000) a ops).1 (run (fun h => h * 3600000000) b ops).1 = true

/-- C181 fails: one of the two had been displaced, so that it refuses the displacement that the other
takes. -/
theorem C181_refuted : ¬ C181_statement := by
  intro h
  exact absurd (h ⟨[5], some 0, none⟩ ⟨[5], some 0, some 5⟩ [.setDisp (some (.delta 1))] (by decide))
    (by decide)

/-- The two series of `C181_refuted` come out of the constructor. -/
example : construct (fun h : Int => h * 3600000000) [5] { tz := some 0 } =
      .ok ⟨[5], some 0, none⟩ ∧
    construct (fun h : Int => h * 3600000000) [0] { tz := some 0, disp := some (.delta 5) } =
      .ok ⟨[5], some 0, some 5⟩ := by
  constructor <;> decide +kernel

private theorem step_eq (a b : TimeObj H) (op : Op H) (h : eqTime a b = true)
    (hd : a.disp.isSome = b.disp.isSome) :
    eqTime (step td a op).1 (step td b op).1 = true ∧ (step td a op).2 = (step td b op).2 ∧
      (step td a op).1.disp.isSome = (step td b op).1.disp.isSome := by
  obtain ⟨h1, h2⟩ := (eqTime_iff a b).1 h
  obtain ⟨ad, at', ax⟩ := a
  obtain ⟨bd, bt, bx⟩ := b
  simp only at h1 h2 hd
  subst h1 h2
  cases op with
  | setTz o => cases at' <;> cases o <;> simp [step, setTz, eqTime, hd]
  | setDisp d =>
    cases ax with
    | none =>
      cases bx with
      | none => cases d <;> simp [step, setDisp, eqTime]
      | some y => simp at hd
    | some x =>
      cases bx with
      | none => simp at hd
      | some y => simp [step, setDisp, eqTime]

/-- C181 for two series that both can be displaced, or both cannot: after any history of assignments they
are equal, and the same assignments were refused. -/
theorem C181_partial (a b : TimeObj H) (ops : List (Op H)) (h : eqTime a b = true)
    (hd : a.disp.isSome = b.disp.isSome) :
    eqTime (run td a ops).1 (run td b ops).1 = true ∧ (run td a ops).2 = (run td b ops).2 := by
  induction ops generalizing a b with
  | nil => exact ⟨h, rfl⟩
  | cons op ops ih =>
    obtain ⟨h1, h2, h3⟩ := step_eq td a b op h hd
    obtain ⟨h4, h5⟩ := ih _ _ h1 h3
    simp only [run]
    exact ⟨h4, by rw [h2, h5]⟩

/-- C181. Assignments of offsets alone keep any two equal series equal. -/
theorem C181_offsets (a b : TimeObj H) (os : List (Option H)) (h : eqTime a b = true) :
    eqTime (run td a (os.map .setTz)).1 (run td b (os.map .setTz)).1 = true := by
  induction os generalizing a b with
  | nil => exact h
  | cons o os ih =>
    simp only [List.map_cons, run, step]
    apply ih
    obtain ⟨h1, h2⟩ := (eqTime_iff a b).1 h
    obtain ⟨ad, at', ax⟩ := a
    obtain ⟨bd, bt, bx⟩ := b
    simp only at h1 h2
    subst h1 h2
    cases at' <;> cases o <;> simp [setTz, eqTime]

end

/-- The same instants shown with two offsets are not equal. -/
example : eqTime (⟨[0, 10], some 0, none⟩ : TimeObj Int) ⟨[3600000000, 3600000010], some 1, none⟩ = false ∧
    eqTime (⟨[0, 10], some 0, none⟩ : TimeObj Int) ⟨[0, 10], some 0, some 4⟩ = true := by decide

end Verif
