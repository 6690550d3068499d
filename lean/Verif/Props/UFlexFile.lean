import Verif.Model.UFlexFile
import Verif.Props.UFlexIO

/-!
# C218: flexible meshes in files written by others
-/

set_option autoImplicit false

namespace Verif
open UFlexIO UFlexFile

/-- A file that holds the faces `t` (nodes counted from 0, nothing where there is none) with nodes
numbered from `s`, and `f` where there is none. -/
def fileOf (s f : Int) (t : List (List (Option Int))) : List (List Int) :=
  t.map (fun r => r.map (fun o => match o with
    | none => f
    | some v => v + s))

/-- Faces of a mesh of `n` nodes, in a table. -/
def ProperFlex (n : Nat) (t : List (List (Option Int))) : Prop :=
  (∃ nv, 0 < nv ∧ ∀ r ∈ t, r.length = nv) ∧ (∀ r ∈ t, ∀ v, some v ∈ r → 0 ≤ v ∧ v < n) ∧
    ∃ r ∈ t, ∃ v, some v ∈ r

/-- The attribute of the file says the first number, or there is no attribute. -/
def StatesFirst (attr : Option Int) (s : Int) : Prop := attr = some s ∨ attr = none

/-- C218 as stated. -/
def C218_statement : Prop :=
  ∀ (n : Nat) (t : List (List (Option Int))) (s f : Int) (attr : Option Int), ProperFlex n t →
    (s = 0 ∨ s = 1) → StatesFirst attr s → (f < 0 ∨ n < f) →
    ∃ t', UFlexFile.load n attr f (fileOf s f t) = .ok t' ∧ facesSeen t' = t

/-- What is read from the file. -/
theorem readFill_fileOf (n : Nat) (t : List (List (Option Int))) (s f : Int)
    (hv : ∀ r ∈ t, ∀ v, some v ∈ r → 0 ≤ v ∧ v < n) (hs : s = 0 ∨ s = 1) (hf : f < 0 ∨ n < f) :
    readFill f (fileOf s f t) = t.map (fun r => r.map (fun o => match o with
      | none => ⟨f, true⟩
      | some v => ⟨v + s, false⟩)) := by
  simp only [readFill, fileOf, List.map_map]
  refine List.map_congr_left fun r hr => ?_
  simp only [Function.comp, List.map_map]
  refine List.map_congr_left fun o ho => ?_
  cases o with
  | none => simp
  | some v =>
    have := hv r hr v ho
    have : v + s ≠ f := by omega
    simp [this]

/-- The faces with their numbers raised by `s`. -/
def raised (s f : Int) (t : List (List (Option Int))) : List (List Entry) :=
  t.map (fun r => r.map (fun o => match o with
    | none => ⟨f, true⟩
    | some v => ⟨v + s, false⟩))

theorem mem_seen_raised (s f : Int) (t : List (List (Option Int))) (x : Int) :
    x ∈ seen (raised s f t) ↔ ∃ r ∈ t, ∃ v, some v ∈ r ∧ x = v + s := by
  simp only [seen, raised, List.mem_filterMap, List.mem_flatten, List.mem_map]
  constructor
  · rintro ⟨e, ⟨_, ⟨r, hr, rfl⟩, he⟩, hx⟩
    rw [List.mem_map] at he
    obtain ⟨o, ho, rfl⟩ := he
    cases o with
    | none => simp at hx
    | some v => simp at hx; exact ⟨r, hr, v, ho, hx.symm⟩
  · rintro ⟨r, hr, v, hv, rfl⟩
    exact ⟨⟨v + s, false⟩, ⟨_, ⟨r, hr, rfl⟩, by rw [List.mem_map]; exact ⟨some v, hv, rfl⟩⟩, by simp⟩

theorem lower_raised (s f : Int) (t : List (List (Option Int))) :
    lower s (raised s f t) = raised 0 f t := by
  simp only [lower, raised, List.map_map]
  refine List.map_congr_left fun r _ => ?_
  simp only [Function.comp, List.map_map]
  refine List.map_congr_left fun o _ => ?_
  cases o <;> simp

theorem facesSeen_raised (f : Int) (t : List (List (Option Int))) : facesSeen (raised 0 f t) = t := by
  simp only [facesSeen, raised, List.map_map]
  conv_rhs => rw [← List.map_id t]
  refine List.map_congr_left fun r _ => ?_
  simp only [Function.comp, List.map_map, id]
  conv_rhs => rw [← List.map_id r]
  refine List.map_congr_left fun o _ => ?_
  cases o <;> simp

theorem raised_ne (s f : Int) (t : List (List (Option Int))) (h : ∃ r ∈ t, ∃ v, some v ∈ r) :
    (raised s f t).flatten ≠ [] := by
  obtain ⟨r, hr, v, hv⟩ := h
  intro hc
  rw [List.flatten_eq_nil_iff] at hc
  have := hc _ (List.mem_map_of_mem hr)
  rw [List.map_eq_nil_iff] at this
  rw [this] at hv
  cases hv

/-- The largest of some numbers. -/
theorem maxL_eq (l : List Int) (b : Int) (h : ∀ x ∈ l, x ≤ b) (hb : b ∈ l) : UTopo.maxL l = some b := by
  have up : ∀ (l : List Int) (x : Int), x ≤ l.foldl max x ∧ ∀ y ∈ l, y ≤ l.foldl max x := by
    intro l
    induction l with
    | nil => intro x; simp
    | cons z l ih =>
      intro x
      obtain ⟨h1, h2⟩ := ih (max x z)
      refine ⟨le_trans (le_max_left _ _) h1, ?_⟩
      intro y hy
      rcases List.mem_cons.mp hy with rfl | hy
      · exact le_trans (le_max_right _ _) h1
      · exact h2 y hy
  cases l with
  | nil => cases hb
  | cons x xs =>
    simp only [UTopo.maxL, Option.some.injEq]
    refine le_antisymm ?_ ?_
    · have := foldl_max_lt xs x (b + 1) (by have := h x (by simp); omega)
        (fun y hy => by have := h y (by simp [hy]); omega)
      omega
    · rcases List.mem_cons.mp hb with rfl | hb
      · exact (up xs b).1
      · exact (up xs x).2 b hb

/-- C218 for meshes that do not have exactly three faces, in files that state the first number, or count
from 0, or count from 1 and use the last node. Missing: three faces (as in C212), and files that count
from 1 without saying so and do not use the last node, see `C218_unsaid`. -/
theorem C218_partial (n : Nat) (t : List (List (Option Int))) (s f : Int) (attr : Option Int)
    (hp : ProperFlex n t) (hs : s = 0 ∨ s = 1) (hd : StatesFirst attr s) (hf : f < 0 ∨ n < f)
    (h3 : t.length ≠ 3)
    (hn : attr = none → s = 1 → ∃ r ∈ t, some ((n : Int) - 1) ∈ r) :
    ∃ t', UFlexFile.load n attr f (fileOf s f t) = .ok t' ∧ facesSeen t' = t := by
  obtain ⟨-, hv, hex⟩ := hp
  have hr : readFill f (fileOf s f t) = raised s f t := readFill_fileOf n t s f hv hs hf
  have hfirst : firstNumber n attr (raised s f t) = .ok s := by
    rcases hd with rfl | rfl
    · rfl
    · unfold firstNumber
      simp only [if_neg (raised_ne s f t hex)]
      rcases hs with rfl | rfl
      · cases hm : UTopo.maxL (seen (raised 0 f t)) with
        | none => rfl
        | some mx =>
          have hlt : mx < n := by
            cases hl : seen (raised 0 f t) with
            | nil => rw [hl] at hm; cases hm
            | cons x xs =>
              have hall : ∀ y ∈ x :: xs, y < n := by
                intro y hy
                rw [← hl, mem_seen_raised] at hy
                obtain ⟨r, hr, v, hvr, rfl⟩ := hy
                have := hv r hr v hvr
                omega
              rw [hl] at hm
              simp only [UTopo.maxL, Option.some.injEq] at hm
              rw [← hm]
              exact foldl_max_lt xs x n (hall x (by simp)) fun y hy => hall y (by simp [hy])
          simp only [if_neg (show ¬ mx = (n : Int) by omega)]
      · obtain ⟨r, hr', hl⟩ := hn rfl rfl
        have : UTopo.maxL (seen (raised 1 f t)) = some (n : Int) := by
          refine maxL_eq _ _ ?_ ?_
          · intro x hx
            rw [mem_seen_raised] at hx
            obtain ⟨r, hr, v, hvr, rfl⟩ := hx
            have := hv r hr v hvr
            omega
          · rw [mem_seen_raised]
            exact ⟨r, hr', _, hl, by omega⟩
        rw [this]
        simp
  have hlen : (raised s f t).length ≠ 3 := by simpa [raised] using h3
  have hset : UFlexIO.setFaces n (raised 0 f t) = .ok (raised 0 f t) := by
    refine setFaces_keeps n _ (raised_ne 0 f t hex) ?_
    intro v hm
    rw [mem_seen_raised] at hm
    obtain ⟨r, hr, v', hvr, rfl⟩ := hm
    have := hv r hr v' hvr
    omega
  refine ⟨raised 0 f t, ?_, facesSeen_raised f t⟩
  unfold UFlexFile.load
  simp only [hr, if_neg hlen, hfirst]
  rcases hs with rfl | rfl
  · rw [if_neg (by decide), hset]
  · rw [if_pos (by decide), lower_raised, hset]

/-- C218, what happens instead: in a file that counts from 1 without saying so, where no face has the last
node, every face has the nodes after its own. -/
theorem C218_unsaid (n : Nat) (t : List (List (Option Int))) (f : Int) (hp : ProperFlex n t)
    (hf : f < 0 ∨ n < f) (h3 : t.length ≠ 3) (hn : ∀ r ∈ t, some ((n : Int) - 1) ∉ r) :
    ∃ t', UFlexFile.load n none f (fileOf 1 f t) = .ok t' ∧
      facesSeen t' = t.map (fun r => r.map (Option.map (· + 1))) := by
  obtain ⟨⟨nv, hnv, hw⟩, hv, r, hr, v, hvr⟩ := hp
  have e : fileOf 1 f t = fileOf 0 f (t.map (fun r => r.map (Option.map (· + 1)))) := by
    simp only [fileOf, List.map_map]
    refine List.map_congr_left fun r _ => ?_
    simp only [Function.comp, List.map_map]
    refine List.map_congr_left fun o _ => ?_
    cases o <;> simp
  rw [e]
  refine C218_partial n _ 0 f none ⟨⟨nv, hnv, ?_⟩, ?_, ?_⟩ (Or.inl rfl) (Or.inr rfl) hf (by simpa using h3)
    (fun _ h => absurd h (by decide))
  · intro r hr
    rw [List.mem_map] at hr
    obtain ⟨r, hr, rfl⟩ := hr
    rw [List.length_map]
    exact hw r hr
  · intro r' hr' v' hv'
    rw [List.mem_map] at hr'
    obtain ⟨r, hr, rfl⟩ := hr'
    rw [List.mem_map] at hv'
    obtain ⟨o, ho, he⟩ := hv'
    cases o with
    | none => cases he
    | some w =>
      simp only [Option.map_some, Option.some.injEq] at he
      have h1 := hv r hr w ho
      have h2 : w ≠ (n : Int) - 1 := by
        rintro rfl
        exact hn r hr ho
      omega
  · exact ⟨_, List.mem_map_of_mem hr, v + 1, by rw [List.mem_map]; exact ⟨some v, hvr, rfl⟩⟩

/-- A triangle and a quadrilateral; node 5 of the mesh is in no face. -/
def exMixed : List (List (Option Int)) := [[some 0, some 1, some 2, some 3], [some 1, some 4, some 2, none]]

theorem exMixed_proper (n : Nat) (h : 5 ≤ n) : ProperFlex n exMixed := by
  refine ⟨⟨4, by decide, by decide⟩, ?_, ⟨_, List.mem_cons_self, 0, by decide⟩⟩
  intro r hr v hv
  simp only [exMixed, List.mem_cons, List.not_mem_nil, or_false] at hr
  rcases hr with rfl | rfl <;>
    · simp only [List.mem_cons, Option.some.injEq, List.not_mem_nil, or_false, reduceCtorEq] at hv
      omega

/-- C218 is false: numbers from 1, not stated, and a node that is in no face. -/
theorem C218_refuted : ¬ C218_statement := by
  intro h
  obtain ⟨t', h1, h2⟩ := h 6 exMixed 1 (-999) none (exMixed_proper 6 (by decide)) (Or.inr rfl) (Or.inr rfl)
    (Or.inl (by decide))
  obtain ⟨t'', g1, g2⟩ := C218_unsaid 6 exMixed (-999) (exMixed_proper 6 (by decide)) (Or.inl (by decide))
    (by decide) (by decide)
  rw [h1] at g1
  cases g1
  rw [h2] at g2
  exact absurd g2 (by decide)

/-- With five nodes the same table is loaded right, as it is if the first number is stated. -/
example : ProperFlex 5 exMixed ∧ (∃ r ∈ exMixed, some (((5 : Nat) : Int) - 1) ∈ r) ∧
    (UFlexFile.load 5 none (-999) (fileOf 1 (-999) exMixed)).map facesSeen = .ok exMixed ∧
    (UFlexFile.load 6 (some 1) (-999) (fileOf 1 (-999) exMixed)).map facesSeen = .ok exMixed :=
  ⟨exMixed_proper 5 le_rfl, by decide, by decide +kernel, by decide +kernel⟩

end Verif
