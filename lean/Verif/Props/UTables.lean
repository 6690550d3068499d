import Verif.Props.UFlexFile
import Verif.Model.UIO

/-!
# C219: tables of unstructured grids in files written by others
-/

set_option autoImplicit false

namespace Verif
open UIO

section
variable {K : Type}

/-- The numbers of a table in a file by rows or by columns. -/
def storedAs (byRows : Bool) (tab : List (List Int)) : List (List Int) :=
  if byRows then tab
  else (List.range (tab.headD []).length).map (fun j => tab.map (fun r => r.getD j 0))

/-- A table of `w` entries a row, that name nodes of a mesh of `n` nodes or nothing. -/
def ProperRows (n w : Nat) (t : List (List (Option Int))) : Prop :=
  0 < w ∧ (∀ r ∈ t, r.length = w) ∧ (∀ r ∈ t, ∀ v, some v ∈ r → 0 ≤ v ∧ v < n) ∧ t ≠ []

/-- C219 as stated: whichever way the table is stored, counted from 0 or 1, whether this is said or not,
with a flag for missing entries that is no number of a node. -/
def C219_statement : Prop :=
  ∀ (n w : Nat) (t : List (List (Option Int))) (s f : Int) (byRows : Bool) (v : Var ℚ),
    ProperRows n w t → (s = 0 ∨ s = 1) → (f < 0 ∨ n < f) →
    v.table = storedAs byRows (fileOf s f t) → StatesFirst v.startIndex s → v.flagValue = some f →
    normalise w n v = .ok (t.map (fun r => r.map (fun o => o.getD f)))

/-- A table turned on its side twice. -/
theorem turned_twice (tab : List (List Int)) (w : Nat) (hw : 0 < w) (h : ∀ r ∈ tab, r.length = w)
    (hne : tab ≠ []) :
    (storedAs false tab).length = w ∧ transpose (storedAs false tab) = tab := by
  have hc : (tab.headD []).length = w := by
    cases tab with
    | nil => exact absurd rfl hne
    | cons r _ => exact h r (by simp)
  have hl : (storedAs false tab).length = w := by simp only [storedAs]; simpa using hc
  refine ⟨hl, ?_⟩
  have hcols : cols (storedAs false tab) = tab.length := by
    simp only [storedAs, hc, Bool.false_eq_true, if_false]
    obtain ⟨k, rfl⟩ : ∃ k, w = k + 1 := ⟨w - 1, by omega⟩
    rw [List.range_succ_eq_map]
    simp [cols]
  unfold transpose
  rw [hcols]
  refine List.ext_getElem (by simp) fun i h1 h2 => ?_
  have hi : i < tab.length := h2
  have hri : tab[i].length = w := h _ (List.getElem_mem hi)
  simp only [List.getElem_map, List.getElem_range, storedAs, Bool.false_eq_true, if_false, hc, List.map_map]
  refine List.ext_getElem (by simp [hri]) fun j h3 h4 => ?_
  simp only [List.getElem_map, List.getElem_range, Function.comp]
  simp [List.getD_eq_getElem?_getD, hi, h4]

/-- The table as the reader turns it. -/
theorem turned (t : List (List (Option Int))) (n w : Nat) (s f : Int) (byRows : Bool)
    (hp : ProperRows n w t) (hr : byRows = true → t.length ≠ w) :
    (if (storedAs byRows (fileOf s f t)).length = w then transpose (storedAs byRows (fileOf s f t))
      else storedAs byRows (fileOf s f t)) = fileOf s f t := by
  obtain ⟨hw, hl, -, hne⟩ := hp
  cases byRows with
  | true =>
    have : (fileOf s f t).length ≠ w := by simpa [fileOf] using hr rfl
    simp [storedAs, this]
  | false =>
    obtain ⟨h1, h2⟩ := turned_twice (fileOf s f t) w hw (by
      intro r hr
      simp only [fileOf, List.mem_map] at hr
      obtain ⟨r, hr, rfl⟩ := hr
      rw [List.length_map]
      exact hl r hr) (by simpa [fileOf] using hne)
    rw [if_pos h1, h2]

/-- C219 for tables that are stored by columns, or have not as many rows as columns; with the first number
stated, or 0, or 1 with the last node in use and no flag that is greater. Missing: square tables stored by
rows (`C219_square`), and the rest of the files that do not state the first number (`C219_unsaid`,
`C219_large_flag`). -/
theorem C219_partial (n w : Nat) (t : List (List (Option Int))) (s f : Int) (byRows : Bool) (v : Var K)
    (hp : ProperRows n w t) (hs : s = 0 ∨ s = 1) (hf : f < 0 ∨ n < f)
    (ht : v.table = storedAs byRows (fileOf s f t)) (hd : StatesFirst v.startIndex s)
    (hv : v.flagValue = some f) (hr : byRows = true → t.length ≠ w)
    (hn : v.startIndex = none → s = 1 →
      (f < 0 ∨ ∀ r ∈ t, none ∉ r) ∧ ∃ r ∈ t, some ((n : Int) - 1) ∈ r) :
    normalise w n v = .ok (t.map (fun r => r.map (fun o => o.getD f))) := by
  have hturn := turned t n w s f byRows hp hr
  obtain ⟨hw, hl, hb, hne⟩ := hp
  have hmem : ∀ x ∈ (fileOf s f t).flatten, (x = f ∧ ∃ r ∈ t, none ∈ r) ∨ ∃ r ∈ t, ∃ v, some v ∈ r ∧ x = v + s := by
    intro x hx
    simp only [fileOf, List.mem_flatten, List.mem_map] at hx
    obtain ⟨_, ⟨r, hr, rfl⟩, hx⟩ := hx
    rw [List.mem_map] at hx
    obtain ⟨o, ho, rfl⟩ := hx
    cases o with
    | none => exact Or.inl ⟨rfl, r, hr, ho⟩
    | some u => exact Or.inr ⟨r, hr, u, ho, rfl⟩
  have hstart : v.startIndex = none → ∃ mx, UTopo.maxL (fileOf s f t).flatten = some mx ∧
      (if mx = (n : Int) then (1 : Int) else 0) = s := by
    · intro hd'
      rcases hs with rfl | rfl
      · cases hm : UTopo.maxL (fileOf 0 f t).flatten with
        | none =>
          exfalso
          cases t with
          | nil => exact hne rfl
          | cons r t =>
            have := hl r (by simp)
            cases r with
            | nil => simp at this; omega
            | cons o r => simp [fileOf, UTopo.maxL] at hm
        | some mx =>
          have hin : mx ∈ (fileOf 0 f t).flatten := by
            have key : ∀ (l : List Int) (x : Int), l.foldl max x = x ∨ l.foldl max x ∈ l := by
              intro l
              induction l with
              | nil => intro x; exact Or.inl rfl
              | cons z l ih =>
                intro x
                rcases ih (max x z) with h | h
                · rw [List.foldl_cons, h]
                  rcases le_total x z with hle | hle
                  · rw [max_eq_right hle]; exact Or.inr (by simp)
                  · rw [max_eq_left hle]; exact Or.inl rfl
                · exact Or.inr (by rw [List.foldl_cons]; exact List.mem_cons_of_mem _ h)
            cases hfl : (fileOf 0 f t).flatten with
            | nil => rw [hfl] at hm; cases hm
            | cons x xs =>
              rw [hfl] at hm
              simp only [UTopo.maxL, Option.some.injEq] at hm
              rw [← hm]
              rcases key xs x with h | h
              · rw [h]; simp
              · exact List.mem_cons_of_mem _ h
          have hmx : mx ≠ n := by
            rcases hmem mx hin with ⟨rfl, -⟩ | ⟨r, hr, u, hu, rfl⟩
            · omega
            · have := hb r hr u hu
              omega
          exact ⟨mx, rfl, if_neg hmx⟩
      · obtain ⟨hneg, r, hr', hlast⟩ := hn hd' rfl
        refine ⟨n, maxL_eq (fileOf 1 f t).flatten n ?_ ?_, if_pos rfl⟩
        · intro x hx
          rcases hmem x hx with ⟨rfl, r, hr, hnone⟩ | ⟨r, hr, u, hu, rfl⟩
          · rcases hneg with hneg | hneg
            · omega
            · exact absurd hnone (hneg r hr)
          · have := hb r hr u hu
            omega
        · simp only [fileOf, List.mem_flatten, List.mem_map]
          refine ⟨_, ⟨r, hr', rfl⟩, ?_⟩
          rw [List.mem_map]
          exact ⟨_, hlast, by simp⟩
  have hrun : normalise w n v = (if 1 ≤ s then
      .ok ((fileOf s f t).map (fun r => r.map (fun e => if e - s = f - s then f else e - s)))
      else .ok (fileOf s f t)) := by
    unfold normalise
    rw [ht, hturn]
    rcases hd with hd | hd
    · simp only [hd, hv]
    · obtain ⟨mx, h1, h2⟩ := hstart hd
      simp only [hd, hv, h1, h2]
  rw [hrun]
  rcases hs with rfl | rfl
  · rw [if_neg (by decide)]
    congr 1
    simp only [fileOf]
    refine List.map_congr_left fun r _ => List.map_congr_left fun o _ => ?_
    cases o <;> simp
  · rw [if_pos (by decide)]
    congr 1
    simp only [fileOf, List.map_map]
    refine List.map_congr_left fun r hr => ?_
    simp only [Function.comp, List.map_map]
    refine List.map_congr_left fun o ho => ?_
    cases o with
    | none => simp
    | some u =>
      have := hb r hr u ho
      have : ¬ u + 1 = f := by omega
      simp [this]

/-- C219, what happens instead: a table with as many rows as columns that is stored by rows is turned on
its side. -/
theorem C219_square (n w : Nat) (t : List (List (Option Int))) (f : Int) (v : Var K)
    (ht : v.table = fileOf 0 f t) (hl : t.length = w) (hd : v.startIndex = some 0) :
    normalise w n v = .ok (transpose (fileOf 0 f t)) := by
  have : (fileOf 0 f t).length = w := by simpa [fileOf] using hl
  unfold normalise
  rw [ht, if_pos this, hd]
  simp

/-- C219, what happens instead: counted from 1, not stated, and no face has the last node. -/
theorem C219_unsaid (n w : Nat) (t : List (List (Option Int))) (f : Int) (byRows : Bool) (v : Var K)
    (hp : ProperRows n w t) (hf : f < 0 ∨ n < f) (ht : v.table = storedAs byRows (fileOf 1 f t))
    (hd : v.startIndex = none) (hv : v.flagValue = some f) (hr : byRows = true → t.length ≠ w)
    (hn : ∀ r ∈ t, some ((n : Int) - 1) ∉ r) :
    normalise w n v = .ok (t.map (fun r => r.map (fun o => (o.map (· + 1)).getD f))) := by
  obtain ⟨hw, hl, hb, hne⟩ := hp
  have e : fileOf 1 f t = fileOf 0 f (t.map (fun r => r.map (Option.map (· + 1)))) := by
    simp only [fileOf, List.map_map]
    refine List.map_congr_left fun r _ => ?_
    simp only [Function.comp, List.map_map]
    refine List.map_congr_left fun o _ => ?_
    cases o <;> simp
  rw [e] at ht
  have h := C219_partial n w (t.map (fun r => r.map (Option.map (· + 1)))) 0 f byRows v
    ⟨hw, ?_, ?_, by simpa using hne⟩ (Or.inl rfl) hf ht (Or.inr hd) hv (by simpa using hr)
    (fun _ h => absurd h (by decide))
  · rw [h]
    simp [List.map_map, Function.comp_def]
  · intro r hr
    rw [List.mem_map] at hr
    obtain ⟨r, hr, rfl⟩ := hr
    rw [List.length_map]
    exact hl r hr
  · intro r' hr' v' hv'
    rw [List.mem_map] at hr'
    obtain ⟨r, hr, rfl⟩ := hr'
    rw [List.mem_map] at hv'
    obtain ⟨o, ho, he⟩ := hv'
    cases o with
    | none => cases he
    | some u =>
      simp only [Option.map_some, Option.some.injEq] at he
      have h1 := hb r hr u ho
      have h2 : u ≠ (n : Int) - 1 := by
        rintro rfl
        exact hn r hr ho
      omega

/-- C219, what happens instead: counted from 1, not stated, and an entry is missing with a flag that is
greater than the number of nodes. -/
theorem C219_large_flag (n w : Nat) (t : List (List (Option Int))) (f : Int) (byRows : Bool) (v : Var K)
    (hp : ProperRows n w t) (hf : n < f) (ht : v.table = storedAs byRows (fileOf 1 f t))
    (hd : v.startIndex = none) (hr : byRows = true → t.length ≠ w) (hn : ∃ r ∈ t, none ∈ r) :
    normalise w n v = .ok (t.map (fun r => r.map (fun o => (o.map (· + 1)).getD f))) := by
  have hturn := turned t n w 1 f byRows hp hr
  obtain ⟨-, -, hb, -⟩ := hp
  have hmax : UTopo.maxL (fileOf 1 f t).flatten = some f := by
    refine maxL_eq _ f ?_ ?_
    · intro x hx
      simp only [fileOf, List.mem_flatten, List.mem_map] at hx
      obtain ⟨_, ⟨r, hr, rfl⟩, hx⟩ := hx
      rw [List.mem_map] at hx
      obtain ⟨o, ho, rfl⟩ := hx
      cases o with
      | none => exact le_refl f
      | some u =>
        have := hb r hr u ho
        simp only
        omega
    · obtain ⟨r, hr, hnone⟩ := hn
      simp only [fileOf, List.mem_flatten, List.mem_map]
      refine ⟨_, ⟨r, hr, rfl⟩, ?_⟩
      rw [List.mem_map]
      exact ⟨none, hnone, rfl⟩
  have hne : f ≠ n := by omega
  unfold normalise
  rw [ht, hturn]
  simp only [hd, hmax, if_neg hne]
  rw [if_neg (by decide)]
  congr 1
  simp only [fileOf]
  refine List.map_congr_left fun r _ => List.map_congr_left fun o _ => ?_
  cases o <;> simp

end

/-- C219 is false: two edges of two nodes each come out on their side. -/
theorem C219_refuted : ¬ C219_statement := by
  intro h
  have h1 := h 4 2 [[some 0, some 1], [some 2, some 3]] 0 (-1) true
    { startIndex := some 0, flagValue := some (-1), table := [[0, 1], [2, 3]] }
    ⟨by decide, by decide, by
      intro r hr v hv
      simp only [List.mem_cons, List.not_mem_nil, or_false] at hr
      rcases hr with rfl | rfl <;>
        · simp only [List.mem_cons, Option.some.injEq, List.not_mem_nil, or_false] at hv
          omega, by decide⟩ (Or.inl rfl) (Or.inl (by decide)) (by decide) (Or.inl rfl) rfl
  rw [C219_square 4 2 [[some 0, some 1], [some 2, some 3]] (-1) _ (by decide) rfl rfl] at h1
  exact absurd h1 (by decide)

/-- Three edges by columns, counted from 1, not stated, the last node in use; and a flag in a table of
four columns, by rows. -/
example : normalise (K := ℚ) 2 4 { flagValue := some (-1), table := [[1, 2, 3], [2, 3, 4]] } =
      .ok [[0, 1], [1, 2], [2, 3]] ∧
    normalise (K := ℚ) 4 5 { startIndex := some 1, flagValue := some (-1), table := [[1, 2, 3, -1]] } =
      .ok [[0, 1, 2, -1]] ∧
    normalise (K := ℚ) 4 3 { flagValue := some 999, table := [[1, 2, 3, 999]] } =
      .ok [[1, 2, 3, 999]] ∧
    [[1, 2, 3], [2, 3, 4]] =
      storedAs false (fileOf 1 (-1) [[some 0, some 1], [some 1, some 2], [some 2, some 3]]) ∧
    ProperRows 4 2 [[some 0, some 1], [some 1, some 2], [some 2, some 3]] := by
  refine ⟨by decide +kernel, by decide +kernel, by decide +kernel, by decide +kernel, by decide, by decide, ?_, by decide⟩
  intro r hr v hv
  simp only [List.mem_cons, List.not_mem_nil, or_false] at hr
  rcases hr with rfl | rfl | rfl <;>
    · simp only [List.mem_cons, Option.some.injEq, List.not_mem_nil, or_false] at hv
      omega

end Verif
