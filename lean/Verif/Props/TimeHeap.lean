import Verif.Lemmas.TimeHeap

/-! # Property C07: sharing between `Time` objects -/

set_option autoImplicit false

namespace Verif
open TimeM Spec

variable {H : Type} (td : H → Int)

/-- The listed property: no statement changes the data of a `Time` it is not an assignment to, nor
an array the user made. -/
def C07_statement (td : H → Int) (allowed : Cmd H → Bool) : Prop :=
  ∀ (p : List (Cmd H)) (c : Cmd H), (∀ x ∈ p, allowed x = true) → allowed c = true →
    let w := execAll td {} p
    (∀ k d, (∀ tz, c ≠ .setTz k tz) → (∀ tz, c ≠ .setDisp k tz) → w.dataOf k = some d → (exec td w c).dataOf k = some d) ∧
    (∀ r ∈ w.user, (exec td w c).arrays[r]? = w.arrays[r]?)

/-- C07 is false of the code: a `Time` made from another `Time` shares its array, so changing the
offset of the copy moves the data of the original (whose offset label stays as it was). -/
theorem C07_refuted : ¬ C07_statement (fun h : Int => h * 3600000000) (fun _ => true) := by
  intro h
  have := (h [.timeFromList [0, 10] { tz := some 0 }, .timeFromTime 0 { tz := some 0 }]
    (.setTz 1 (some 1)) (by simp) rfl).1 0 [0, 10] (by simp) (by simp) (by decide)
  revert this
  decide

/-- C07 also fails for an array passed by the caller: constructing with an origin moves it. -/
theorem C07_refuted_caller_array :
    ∃ (p : List (Cmd Int)) (c : Cmd Int) (r : Nat),
      let w := execAll (fun h : Int => h * 3600000000) {} p
      r ∈ w.user ∧ (exec (fun h : Int => h * 3600000000) w c).arrays[r]? ≠ w.arrays[r]? :=
  ⟨[.mkArray [5, 10]], .timeFromArray 0 { origin := some 0 }, 0, by decide⟩

/-- The statements `C07_isolated_partial` is about: all but the two that build a `Time` on an array
that exists already. -/
theorem C07_allowed (c : Cmd H) : c.listOnly = true ↔
    (∀ r a, c ≠ .timeFromArray r a) ∧ (∀ k a, c ≠ .timeFromTime k a) := by
  cases c <;> simp [Cmd.listOnly]

/-- C07, for programs that build every `Time` from a list of datetimes: no statement changes the
data of a `Time` it is not an assignment to, nor an array the user made. Missing: `Time`s built
from arrays or other `Time`s, for which the property is false (`C07_refuted`). -/
theorem C07_isolated_partial : C07_statement td Cmd.listOnly := by
  intro p c hp hc
  have hw : Separate (execAll td {} p) :=
    separate_all td p {} ⟨by simp, by simp, by simp, by simp⟩ hp
  generalize execAll td {} p = w at hw
  have lenOld : ∀ (xs : List Int) (a : Args H) (r : Nat), r < w.arrays.length →
      (initAt td { w with arrays := w.arrays ++ [xs] } w.arrays.length a).arrays[r]?
        = w.arrays[r]? := by
    intro xs a r hr
    unfold initAt
    simp only [List.getElem?_concat_length]
    split <;>
    · simp only [List.getElem?_set]
      rw [if_neg (by omega), List.getElem?_append_left hr]
  have objOld : ∀ (xs : List Int) (a : Args H) (k : Nat) (o : ObjRef H), w.objs[k]? = some o →
      (initAt td { w with arrays := w.arrays ++ [xs] } w.arrays.length a).objs[k]? = some o := by
    intro xs a k o hk
    have hlt := (List.getElem?_eq_some_iff.mp hk).1
    unfold initAt
    simp only [List.getElem?_concat_length]
    split
    · simp only
      rw [List.getElem?_append_left hlt]; exact hk
    · exact hk
  constructor
  · intro k d ht hd h
    cases c with
    | mkArray xs =>
      simp only [exec, World.dataOf] at h ⊢
      cases ho : w.objs[k]? with
      | none => simp [ho] at h
      | some o =>
        simp only [ho] at h ⊢
        rw [List.getElem?_append_left (hw.bound k o ho)]
        exact h
    | timeFromList xs a =>
      cases ho : w.objs[k]? with
      | none => simp [World.dataOf, ho] at h
      | some o =>
        simp only [World.dataOf, ho] at h
        simp only [exec, World.dataOf, objOld xs a k o ho]
        rw [lenOld xs a o.ref (hw.bound k o ho)]
        exact h
    | timeFromArray r a => simp [Cmd.listOnly] at hc
    | timeFromTime j a => simp [Cmd.listOnly] at hc
    | setTz j o =>
      have hjk : j ≠ k := by rintro rfl; exact ht o rfl
      simp only [exec]
      split
      · exact h
      · split
        · exact h
        · rename_i ob hk _ _ _
          exact frame_update hw hk _ _ k hjk d h
    | setDisp j o =>
      have hjk : j ≠ k := by rintro rfl; exact hd o rfl
      simp only [exec]
      split
      · exact h
      · split
        · exact h
        · split
          · exact h
          · rename_i ob hk _ _ _ _ _ _
            exact frame_update hw hk _ _ k hjk d h
  · intro r hr
    cases c with
    | mkArray xs =>
      simp only [exec]
      rw [List.getElem?_append_left (hw.ubound r hr)]
    | timeFromList xs a => exact lenOld xs a r (hw.ubound r hr)
    | timeFromArray r a => simp [Cmd.listOnly] at hc
    | timeFromTime j a => simp [Cmd.listOnly] at hc
    | setTz j o =>
      simp only [exec]
      split
      · rfl
      · split
        · rfl
        · rename_i ob hk _ _ _
          simp only [List.getElem?_set]
          rw [if_neg (fun he : ob.ref = r => hw.sep j ob hk (he ▸ hr))]
    | setDisp j o =>
      simp only [exec]
      split
      · rfl
      · split
        · rfl
        · split
          · rfl
          · rename_i ob hk _ _ _ _ _ _
            simp only [List.getElem?_set]
            rw [if_neg (fun he : ob.ref = r => hw.sep j ob hk (he ▸ hr))]

/-- The in-place constructor is the pure constructor of C01 (same outcome and, on success, same
data). -/
theorem C07_constructor_agrees (data : List Int) (a : Args H) :
    construct td data a = match initInPlace td data a with
      | (d, .ok (tz, dp)) => .ok { data := d, tz := tz, disp := dp }
      | (_, .error e) => .error e := by
  obtain ⟨tz, newTz, origin, disp⟩ := a
  unfold construct initInPlace
  simp only
  cases originShift origin (shift 0 data) with
  | error e => rfl
  | ok d0 =>
    cases newTz with
    | none =>
      cases disp with
      | none => simp only; split_ifs <;> simp_all
      | some d => simp only [TimeM.setDisp]; split_ifs <;> simp_all
    | some n =>
      cases tz with
      | none => rfl
      | some o =>
        cases disp with
        | none =>
          simp only [TimeM.setTz]
          by_cases h1 : isAscending (shift (td n) (shift (-(td o)) d0)) <;>
            by_cases h2 : hasDuplicates (shift (td n) (shift (-(td o)) d0)) <;> simp [h1, h2]
        | some d => simp only [TimeM.setDisp, TimeM.setTz]; split_ifs <;> simp_all

/-- A program meeting the hypotheses of the partial theorem, with effects: two `Time`s from lists,
one of them moved. -/
example : (execAll (fun h : Int => h * 3600000000) {}
    [.timeFromList [0, 10] { tz := some 0 }, .timeFromList [3, 4, 9] { tz := some 2 },
      .setTz 0 (some 1)]).dataOf 1 = some [3, 4, 9] ∧
    (execAll (fun h : Int => h * 3600000000) {}
    [.timeFromList [0, 10] { tz := some 0 }, .timeFromList [3, 4, 9] { tz := some 2 },
      .setTz 0 (some 1)]).dataOf 0 = some [3600000000, 3600000010] := by decide

end Verif
