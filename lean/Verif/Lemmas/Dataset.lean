import Verif.Model.Dataset
import Verif.Spec.Dataset

set_option autoImplicit false

namespace Verif.Dataset
open Verif.Spec

theorem word_plain (w cur : List Char) (h : ∀ c ∈ cur, c.isWhitespace = false) :
    WordOf w cur ↔ w = cur ∧ cur ≠ [] := by
  constructor
  · rintro ⟨h1, h2, a, b, e, ha, hb⟩
    have ea : a = [] := by
      rcases List.eq_nil_or_concat a with r | ⟨a', c, r⟩
      · exact r
      · have := ha c (by rw [r]; simp)
        rw [h c (by rw [e, r]; simp)] at this
        cases this
    have eb : b = [] := by
      cases b with
      | nil => rfl
      | cons c b =>
        have := hb c rfl
        rw [h c (by rw [e]; simp)] at this
        cases this
    subst ea eb
    simp only [List.nil_append, List.append_nil] at e
    subst e
    exact ⟨rfl, h1⟩
  · rintro ⟨rfl, h1⟩
    exact ⟨h1, h, [], [], by simp, by simp, by simp⟩

theorem word_blank (w cur cs : List Char) (c : Char) (hc : c.isWhitespace = true)
    (h : ∀ c ∈ cur, c.isWhitespace = false) :
    WordOf w (cur ++ c :: cs) ↔ (w = cur ∧ cur ≠ []) ∨ WordOf w cs := by
  constructor
  · rintro ⟨h1, h2, a, b, e, ha, hb⟩
    rw [List.append_eq_append_iff] at e
    rcases e with ⟨x, e1, e2⟩ | ⟨x, e1, e2⟩
    · -- `cur ++ x = a ++ w`
      cases x with
      | nil =>
        rw [List.append_nil] at e1
        refine Or.inl ((word_plain w cur h).1 ⟨h1, h2, a, [], by simp [e1], ha, by simp⟩)
      | cons c' y =>
        simp only [List.cons_append, List.cons.injEq] at e2
        obtain ⟨rfl, e2⟩ := e2
        right
        rw [List.append_eq_append_iff] at e1
        rcases e1 with ⟨z, f1, f2⟩ | ⟨z, f1, f2⟩
        · -- `cur = a ++ z`, `w = z ++ c :: y`
          have := h2 c (by rw [f2]; simp)
          rw [hc] at this
          cases this
        · cases z with
          | nil =>
            simp only [List.nil_append] at f2
            have := h2 c (by rw [← f2]; simp)
            rw [hc] at this
            cases this
          | cons c' z =>
            simp only [List.cons_append, List.cons.injEq] at f2
            obtain ⟨rfl, f2⟩ := f2
            refine ⟨h1, h2, z, b, by rw [e2, f2], ?_, hb⟩
            intro d hd
            refine ha d ?_
            rw [f1]
            rw [List.getLast?_append, List.getLast?_cons, hd]
            simp
    · -- `cur = a ++ w ++ x`
      refine Or.inl ((word_plain w cur h).1 ⟨h1, h2, a, x, e1, ha, ?_⟩)
      intro d hd
      refine hb d ?_
      rw [e2, List.head?_append, hd]
      rfl
  · rintro (⟨rfl, h1⟩ | ⟨h1, h2, a, b, e, ha, hb⟩)
    · exact ⟨h1, h, [], c :: cs, by simp, by simp, by simp [hc]⟩
    · refine ⟨h1, h2, cur ++ c :: a, b, by simp [e], ?_, hb⟩
      intro d hd
      rw [List.getLast?_append, List.getLast?_cons] at hd
      cases hl : a.getLast? with
      | none =>
        rw [hl] at hd
        simp at hd
        rw [← hd]
        exact hc
      | some x =>
        rw [hl] at hd
        simp at hd
        subst hd
        exact ha x hl

theorem splitAux_spec (w cs : List Char) : ∀ cur : List Char,
    (∀ c ∈ cur, c.isWhitespace = false) → (w ∈ splitAux cur cs ↔ WordOf w (cur ++ cs)) := by
  induction cs with
  | nil =>
    intro cur h
    rw [List.append_nil, word_plain w cur h]
    unfold splitAux
    by_cases hc : cur = [] <;> simp [hc]
  | cons c cs ih =>
    intro cur h
    unfold splitAux
    by_cases hc : c.isWhitespace = true
    · rw [word_blank w cur cs c hc h]
      simp only [hc, if_true]
      have := ih [] (by simp)
      rw [List.nil_append] at this
      by_cases hcur : cur = []
      · simp [hcur, this]
      · simp [hcur, this]
    · simp only [hc]
      have := ih (cur ++ [c]) (by
        intro d hd
        rcases List.mem_append.1 hd with hd | hd
        · exact h d hd
        · rw [List.mem_singleton.1 hd]
          simpa using hc)
      rw [List.append_assoc] at this
      exact this

theorem split_spec (w : List Char) (s : String) : w ∈ split s ↔ WordOf w s.toList := by
  have := splitAux_spec w s.toList [] (by simp)
  rwa [List.nil_append] at this

theorem notGrid_spec (topology : List (String × String)) (k : String) :
    notGrid topology k = true ↔ ¬ Mentioned topology k := by
  unfold notGrid Mentioned
  rw [List.all_eq_true]
  simp only [Bool.not_eq_true', List.contains_eq_mem, decide_eq_false_iff_not, split_spec]
  simp

theorem known_iff (l : String) : l ∈ Var.validLocations ↔ KnownLocation l := by
  unfold Var.validLocations KnownLocation
  simp

theorem locate_spec (infer : NcVar → Except Err (Option String)) (v : NcVar) (l : String) :
    locate infer v = .ok (some l) ↔ LocatedAt infer v l := by
  unfold locate LocatedAt
  cases hv : v.location with
  | none => simp
  | some x =>
    by_cases hx : x ∈ Var.validLocations
    · have hk := (known_iff x).1 hx
      simp only [hx, if_true, Except.ok.injEq, Option.some.injEq]
      constructor
      · rintro rfl
        exact Or.inl ⟨rfl, hk⟩
      · rintro (⟨rfl, -⟩ | ⟨h, -⟩)
        · rfl
        · exact absurd hk (h x rfl)
    · have hk : ¬ KnownLocation x := fun h => hx ((known_iff x).2 h)
      simp only [hx, if_false, Option.some.injEq]
      constructor
      · intro h
        refine Or.inr ⟨?_, h⟩
        rintro y rfl
        exact hk
      · rintro (⟨rfl, h⟩ | ⟨-, h⟩)
        · exact absurd h hk
        · exact h

theorem locate_none (infer : NcVar → Except Err (Option String)) (v : NcVar)
    (h : locate infer v = .ok none) (l : String) : ¬ LocatedAt infer v l := by
  rw [← locate_spec, h]
  simp

theorem attr_spec {A : Type} (as : List (String × A)) (k : String) (a : A) :
    attr as k = some a ↔ HasAttr as k a := by
  unfold attr HasAttr
  rw [Option.map_eq_some_iff]
  constructor
  · rintro ⟨⟨k', a'⟩, h, rfl⟩
    rw [List.find?_eq_some_iff_append] at h
    obtain ⟨h1, x, y, e, hx⟩ := h
    have : k' = k := by simpa using h1
    subst this
    exact ⟨x, y, e, fun e' he' => by simpa using hx e' he'⟩
  · rintro ⟨x, y, e, hx⟩
    refine ⟨(k, a), ?_, rfl⟩
    rw [List.find?_eq_some_iff_append]
    exact ⟨by simp, x, y, e, fun e' he' => by simpa using hx e' he'⟩

end Verif.Dataset
