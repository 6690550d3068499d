import Verif.Model.Names
import Mathlib.Data.List.Nodup

/-!
# C135: automatic names
-/

set_option autoImplicit false

namespace Verif
open Verif.Names

/-! ## C135 -/

private theorem last_underscore (a b d e : List Char) (hd : '_' ∉ d) (he : '_' ∉ e)
    (h : a ++ '_' :: d = b ++ '_' :: e) : a = b ∧ d = e := by
  rcases List.append_eq_append_iff.mp h with ⟨c, hc, hc'⟩ | ⟨c, hc, hc'⟩
  · cases c with
    | nil => simp at hc hc'; exact ⟨hc.symm, hc'⟩
    | cons x xs =>
      simp only [List.cons_append, List.cons.injEq] at hc'
      exact absurd (by rw [hc'.2]; simp) hd
  · cases c with
    | nil => simp at hc hc'; exact ⟨hc, hc'.symm⟩
    | cons x xs =>
      simp only [List.cons_append, List.cons.injEq] at hc'
      exact absurd (by rw [hc'.2]; simp) he

/-- Names made of different classes or counts are different. -/
theorem auto_injective (cs : Classes) (c d n m : Nat) (h : auto cs c n = auto cs d m) :
    cs.name c = cs.name d ∧ n = m := by
  unfold auto at h
  have h' := congrArg String.toList h
  simp only [String.toList_append, Nat.toString_eq_repr, Nat.toList_repr, List.append_assoc] at h'
  have := last_underscore _ _ _ _ Nat.underscore_not_in_toDigits Nat.underscore_not_in_toDigits
    (show _ ++ '_' :: _ = _ ++ '_' :: _ from h')
  refine ⟨String.ext_iff.mpr this.1, ?_⟩
  rw [← Nat.ofDigitChars_ten_toDigits (n := n), this.2, Nat.ofDigitChars_ten_toDigits]

/-- The classes as Python has them: each searches itself first, and no two have the same name. -/
structure WellFormed (cs : Classes) : Prop where
  first : ∀ c, ∃ r, cs.mro c = c :: r
  names : ∀ c d, cs.name c = cs.name d → c = d

/-- C135 in full: the names made in a history are all different. -/
def C135_statement : Prop :=
  ∀ (cs : Classes), WellFormed cs → ∀ (own : Nat → Option Nat) (evs : List Event),
    (names cs own evs).Nodup

/-- Events other than the loading of level depths. -/
def Event.counts : Event → Bool
  | .level _ _ => false
  | _ => true

/-- Names for class `c` made from now on have counts from `lo` on. -/
private theorem names_above (cs : Classes) (hw : WellFormed cs) (evs : List Event)
    (hl : ∀ ev ∈ evs, Event.counts ev = true) : ∀ own : Nat → Option Nat,
    (names cs own evs).Nodup ∧ ∀ s ∈ names cs own evs, ∃ c n, s = auto cs c n ∧
      ∀ m, own c = some m → m ≤ n := by
  induction evs with
  | nil => intro own; simp [names]
  | cons ev evs ih =>
    intro own
    have ih := ih (fun e he => hl e (List.mem_cons_of_mem _ he))
    have made : ∀ (c n : Nat), read cs own c = .ok n → ∀ m, own c = some m → n = m := by
      intro c n hr m hm
      obtain ⟨r, hr'⟩ := hw.first c
      unfold Names.read at hr
      rw [hr'] at hr
      simp only [List.findSome?_cons, hm, Except.ok.injEq] at hr
      exact hr.symm
    have after : ∀ (c n : Nat), read cs own c = .ok n → ∀ s ∈ names cs (write own c (n + 1)) evs,
        ∃ d k, s = auto cs d k ∧ (∀ m, own d = some m → m ≤ k) ∧ (d = c → n < k) := by
      intro c n hr s hs
      obtain ⟨d, k, h1, h2⟩ := (ih (write own c (n + 1))).2 s hs
      refine ⟨d, k, h1, ?_, ?_⟩
      · intro m hm
        by_cases hd : d = c
        · subst hd
          have := h2 (n + 1) (by simp [write])
          have := made d n hr m hm
          omega
        · exact h2 m (by simpa [write, hd] using hm)
      · rintro rfl
        exact h2 (n + 1) (by simp [write])
    have named : ∀ (c n : Nat), read cs own c = .ok n →
        (auto cs c n :: names cs (write own c (n + 1)) evs).Nodup ∧
        ∀ s ∈ auto cs c n :: names cs (write own c (n + 1)) evs, ∃ d k, s = auto cs d k ∧
          ∀ m, own d = some m → m ≤ k := by
      intro c n hr
      refine ⟨List.nodup_cons.mpr ⟨?_, (ih _).1⟩, ?_⟩
      · intro hmem
        obtain ⟨d, k, h1, _, h3⟩ := after c n hr _ hmem
        obtain ⟨hn, hk⟩ := auto_injective cs c d n k h1
        have := h3 (hw.names c d hn).symm
        omega
      · intro s hs
        rcases List.mem_cons.mp hs with rfl | hs
        · exact ⟨c, n, rfl, fun m hm => Nat.le_of_eq (made c n hr m hm).symm⟩
        · obtain ⟨d, k, h1, h2, _⟩ := after c n hr s hs
          exact ⟨d, k, h1, h2⟩
    have silent : ∀ (c n : Nat), read cs own c = .ok n →
        (names cs (write own c (n + 1)) evs).Nodup ∧
        ∀ s ∈ names cs (write own c (n + 1)) evs, ∃ d k, s = auto cs d k ∧
          ∀ m, own d = some m → m ≤ k := by
      intro c n hr
      have := named c n hr
      exact ⟨(List.nodup_cons.mp this.1).2, fun s hs => this.2 s (List.mem_cons_of_mem _ hs)⟩
    cases ev with
    | loaded c g =>
      cases g with
      | none =>
        rcases hr : read cs own c with e | n
        · simpa [names, make, hr] using ih own
        · simpa only [names, make, hr] using named c n hr
      | some g => simpa [names, make] using ih own
    | level c g => exact absurd (hl _ (List.mem_cons_self ..)) (by simp [Event.counts])
    | grid c g =>
      rcases hr : read cs own c with e | n
      · simpa [names, make, hr] using ih own
      · cases g with
        | none => simpa only [names, make, hr] using named c n hr
        | some g => simpa only [names, make, hr] using silent c n hr

/-- C135 for variables, vector variables, sigma depths and grids, of any classes and in any order, with
and without names given, from any counts on. Missing: level depths, which are not counted. -/
theorem C135_partial (cs : Classes) (hw : WellFormed cs) (own : Nat → Option Nat) (evs : List Event)
    (hl : ∀ ev ∈ evs, Event.counts ev = true) : (names cs own evs).Nodup :=
  (names_above cs hw evs hl own).1

/-- A class and one derived from it. -/
private def twoClasses : Classes where
  name := fun c => if c = 0 then "L_Depth" else String.ofList (List.replicate c 'D')
  mro := fun c => if c = 1 then [1, 0] else [c]

private theorem twoClasses_ok : WellFormed twoClasses := by
  refine ⟨fun c => ?_, fun c d h => ?_⟩
  · by_cases h : c = 1 <;> simp [twoClasses, h]
  · have ne : ∀ n, "L_Depth".toList ≠ List.replicate n 'D' := by
      intro n hn
      have : 'L' ∈ List.replicate n 'D' := by rw [← hn]; decide
      exact absurd (List.eq_of_mem_replicate this) (by decide)
    simp only [twoClasses] at h
    by_cases hc : c = 0 <;> by_cases hd : d = 0
    · rw [hc, hd]
    · rw [if_pos hc, if_neg hd] at h
      exact absurd (by rw [h, String.toList_ofList]) (ne d)
    · rw [if_neg hc, if_pos hd] at h
      exact absurd (by rw [← h, String.toList_ofList]) (ne c)
    · rw [if_neg hc, if_neg hd] at h
      have := congrArg (fun s => s.toList.length) h
      simpa using this

/-- C135 fails for level depths: any two of one class have the same name. -/
theorem C135_refuted : ¬ C135_statement := by
  intro h
  have := h twoClasses twoClasses_ok (fun c => if c = 0 then some 0 else none)
    [.level 0 none, .level 0 none]
  revert this
  decide

/-- C135: any two level depths of one class loaded without names have the same name. -/
theorem C135_level_fails (cs : Classes) (own : Nat → Option Nat) (c n : Nat)
    (hr : read cs own c = .ok n) :
    names cs own [.level c none, .level c none] = [auto cs c n, auto cs c n] := by
  simp [names, make, hr]

/-- A derived class starts at the count of its base class and goes on by itself. -/
example : names twoClasses (fun c => if c = 0 then some 0 else none)
    [.loaded 0 none, .loaded 1 none, .loaded 0 none, .grid 1 (some "x"), .loaded 1 none] =
      ["L_Depth_0", "D_1", "L_Depth_1", "D_3"] := by
  decide

end Verif
