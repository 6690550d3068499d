import Verif.Lemmas.Util
import Mathlib.Algebra.Order.Ring.Rat
import Mathlib.Data.List.Forall2
import Mathlib.Tactic.Tauto

/-!
# Properties of the utilities: C53, C54, C55
-/

set_option autoImplicit false

namespace Verif
open Verif.Spec Verif.Util
open Verif.Cache (lookup assign lookup_iff lookup_none)

/-! ## C53 -/

section
variable (defaults cf : List (String × List String)) (hd : (defaults.map Prod.fst).Nodup)
  (hc : (cf.map Prod.fst).Nodup) (ds : List FVar) (dg : Option (List FVar))
include hd hc

/-- C53. Every key of either table is in the answer, once, and no other is. -/
theorem C53_keys :
    ((search defaults cf ds dg).map Prod.fst).Nodup ∧
      ∀ k, k ∈ (search defaults cf ds dg).map Prod.fst ↔
        k ∈ cf.map Prod.fst ∨ k ∈ defaults.map Prod.fst := by
  refine ⟨nodup_search defaults cf hc ds dg, fun k => ?_⟩
  have h := lookup_search defaults cf hd hc ds dg k
  rw [← not_iff_not, ← lookup_none, h]
  split
  · rename_i hk; simp only [reduceCtorEq, hk, not_true]
  · rename_i hk; exact ⟨fun _ => hk, fun _ => rfl⟩

/-- C53. The variable reported for a key is the one found by the first of these that finds any: by
description in the data file, by name in the data file, by description in the grid file, by name in
the grid file. Within each the first candidate of the list that matches decides. -/
theorem C53_chosen (k : String) (v : FVar) :
    (k, some v) ∈ search defaults cf ds dg ↔
      FirstWay (ways defaults cf k ds ++ dg.elim [] (ways defaults cf k)) v := by
  rw [← lookup_iff (nodup_search defaults cf hc ds dg), lookup_search defaults cf hd hc]
  have base : ∀ (o : Option FVar) (ws : List (FVar → Prop)) (f : List FVar),
      (∀ v, o = some v ↔ FirstWay ws v) →
      ∀ v, (inFile defaults cf k f).or o = some v ↔ FirstWay (ways defaults cf k f ++ ws) v := by
    intro o ws f h v
    unfold inFile ways
    rw [Option.or_assoc]
    exact firstWay_cons _ _ _ _ (firstLong_iff f _)
      (firstWay_cons _ _ _ _ (firstName_iff f _) h) v
  have all : (inFile defaults cf k ds).or (dg.elim none (inFile defaults cf k)) = some v ↔
      FirstWay (ways defaults cf k ds ++ dg.elim [] (ways defaults cf k)) v := by
    refine base _ _ ds ?_ v
    cases dg with
    | none => exact firstWay_nil
    | some g =>
      intro v
      have := base none [] g firstWay_nil v
      rw [Option.or_none, List.append_nil] at this
      exact this
  rw [← all]
  split
  · simp
  · rename_i hk
    have hn : ∀ f, inFile defaults cf k f = none := by
      intro f
      rw [not_or] at hk
      unfold inFile
      rw [candidates_not_mem _ _ hk.1, candidates_not_mem _ _ hk.2]
      rfl
    cases dg <;> simp [hn]

/-- C53. A key is reported as missing only if no candidate matches in any file. -/
theorem C53_missing (k : String) :
    (k, none) ∈ search defaults cf ds dg ↔
      (k ∈ cf.map Prod.fst ∨ k ∈ defaults.map Prod.fst) ∧
        ¬ Somewhere defaults cf k ds ∧ ∀ g, dg = some g → ¬ Somewhere defaults cf k g := by
  rw [← lookup_iff (nodup_search defaults cf hc ds dg), lookup_search defaults cf hd hc]
  split
  · rename_i hk
    simp only [hk, true_and, Option.some.injEq, Option.or_eq_none_iff, inFile_none]
    cases dg with
    | none => simp
    | some g => simp [inFile_none]
  · rename_i hk
    simp only [hk, false_and, reduceCtorEq]

/-- C53. An object can be created exactly if each of its parts is found somewhere. -/
theorem C53_can_create :
    canCreate defaults cf ds dg = true ↔
      ∀ k, k ∈ cf.map Prod.fst ∨ k ∈ defaults.map Prod.fst →
        Somewhere defaults cf k ds ∨ ∃ g, dg = some g ∧ Somewhere defaults cf k g := by
  unfold canCreate
  rw [List.all_eq_true]
  constructor
  · intro h k hk
    by_contra hn
    rw [not_or] at hn
    have := (C53_missing defaults cf hd hc ds dg k).2
      ⟨hk, hn.1, fun g hg hs => hn.2 ⟨g, hg, hs⟩⟩
    simpa using h _ this
  · rintro h ⟨k, o⟩ hm
    cases o with
    | some v => rfl
    | none =>
      obtain ⟨hk, h1, h2⟩ := (C53_missing defaults cf hd hc ds dg k).1 hm
      rcases h k hk with h | ⟨g, hg, h⟩
      · exact absurd h h1
      · exact absurd h (h2 g hg)

end

/-- Two tables and two files. The key `a` is found by standard name in the data file although a
variable has its name; `b` by name in the data file although the grid file has its description; `c`
only in the grid file; `d` nowhere. -/
example :
    search [("a", ["u", "ua"]), ("b", ["v"]), ("c", ["h"])]
      [("a", ["eastward", "east"]), ("b", ["northward"]), ("d", ["up"])]
      [⟨"u", none, none⟩, ⟨"x", none, some "east"⟩, ⟨"v", none, none⟩]
      (some [⟨"y", some "northward", none⟩, ⟨"h", none, none⟩]) =
      [("a", some ⟨"x", none, some "east"⟩), ("b", some ⟨"v", none, none⟩), ("d", none),
        ("c", some ⟨"h", none, none⟩)] ∧
    canCreate [("a", ["u", "ua"])] [] [⟨"ua", none, none⟩] none = true := by
  decide +kernel

/-! ## C54 -/

/-- C54 as stated, for all numbers of points but 2 and 3. -/
def C54_statement : Prop :=
  ∀ (a b : Arr Rat) (N k : Nat) (f : Nat → Nat → Rat), (k = 2 ∨ k = 3) → N ≠ 2 → N ≠ 3 →
    Holds a N k f → Holds b k N (fun j i => f i j) →
    ∃ c, reorganize a = .ok c ∧ reorganize b = .ok c ∧ Holds c N k f

/-- C54 fails for the empty list of points: the array of shape (0, 2) comes back with shape
(2, 0). -/
theorem C54_refuted : ¬ C54_statement := by
  intro h
  obtain ⟨c, h1, -, h3, -⟩ := h ⟨[0, 2], []⟩ ⟨[2, 0], []⟩ 0 2 (fun _ _ => 0) (Or.inl rfl)
    (by decide) (by decide) ⟨rfl, rfl, by intro i j hi; omega⟩ ⟨rfl, rfl, by intro i j _ hj; omega⟩
  have e : reorganize (⟨[0, 2], []⟩ : Arr Rat) = .ok ⟨[2, 0], []⟩ := by decide +kernel
  rw [e] at h1
  cases h1
  revert h3
  decide

section
variable {K : Type*}

/-- C54 for one point and for four points or more, with any additional axes of length one: one
point per row and one per column give the same array, with one point per row. The empty list of
points is missing, see `C54_refuted`. -/
theorem C54_same_partial (a b a' b' : Arr K) (N k : Nat) (f : Nat → Nat → K) (hk : k = 2 ∨ k = 3)
    (hN : N = 1 ∨ 4 ≤ N) (ha : Holds a N k f) (hb : Holds b k N (fun j i => f i j))
    (ha' : WithUnitAxes a' a) (hb' : WithUnitAxes b' b) :
    ∃ c, reorganize a' = .ok c ∧ reorganize b' = .ok c ∧ Holds c N k f := by
  rw [reorganize_padded _ _ ha', reorganize_padded _ _ hb']
  have hT := holds_transpose k N b _ hb
  have hk1 : k ≠ 1 := by omega
  rcases hN with rfl | hN
  · refine ⟨a, ?_, ?_, ha⟩
    · unfold reorganize squeeze
      rw [ha.1]
      have e : a = ⟨[1, k], a.data⟩ := by rw [← ha.1]
      rw [e]
      simp [hk1, hk]
    · have e : a = ⟨[1, k], b.data⟩ := by
        refine holds_unique 1 k _ _ f ha ⟨rfl, by rw [hb.2.1]; simp, ?_⟩
        intro i j hi hj
        have : i = 0 := by omega
        subst this
        have := hb.2.2 j 0 hj (by omega)
        simpa using this
      unfold reorganize squeeze
      rw [hb.1, e]
      simp [hk1, hk]
  · refine ⟨a, ?_, ?_, ha⟩
    · have e : a = ⟨[N, k], a.data⟩ := by rw [← ha.1]
      unfold reorganize squeeze
      rw [ha.1]
      have n1 : N ≠ 1 := by omega
      simp only [ne_eq, decide_not, List.filter_cons, n1, hk1, decide_false, Bool.not_false,
        if_true, List.filter_nil]
      rw [if_neg (by omega), if_neg (by omega), if_pos (by omega), ← e]
    · have e : a = ⟨[N, k], transposeData k N b.data⟩ := holds_unique N k _ _ f ha hT
      unfold reorganize squeeze
      rw [hb.1]
      have n1 : N ≠ 1 := by omega
      simp only [ne_eq, decide_not, List.filter_cons, n1, hk1, decide_false, Bool.not_false,
        if_true, List.filter_nil]
      rw [if_neg (by omega), if_neg (by omega), if_neg (by omega), ← e]

/-- C54 for two and three points: the array is taken as it is. -/
theorem C54_ambiguous (a a' : Arr K) (N k : Nat) (hN : N = 2 ∨ N = 3) (hk : k = 2 ∨ k = 3)
    (ha : a.shape = [N, k]) (ha' : WithUnitAxes a' a) : reorganize a' = .ok a := by
  rw [reorganize_padded _ _ ha']
  have e : a = ⟨[N, k], a.data⟩ := by rw [← ha]
  have n1 : N ≠ 1 := by omega
  have k1 : k ≠ 1 := by omega
  unfold reorganize squeeze
  rw [ha]
  simp only [ne_eq, decide_not, List.filter_cons, n1, k1, decide_false, Bool.not_false,
    if_true, List.filter_nil]
  rw [if_pos ⟨trivial, hN, hk⟩, ← e]

/-- C54. Normalising twice changes nothing, whatever the array. -/
theorem C54_twice (a c : Arr K) (h : reorganize a = .ok c) : reorganize c = .ok c := by
  unfold reorganize at h
  have hs : ∀ n ∈ (squeeze a).shape, n ≠ 1 := by
    intro n hn
    simp only [squeeze, List.mem_filter, decide_eq_true_eq] at hn
    exact hn.2
  generalize hp : squeeze a = p at h hs
  obtain ⟨shape, data⟩ := p
  have hid : ∀ sh : List Nat, (∀ n ∈ sh, n ≠ 1) → sh.filter (fun n => n ≠ 1) = sh := by
    intro sh hsh
    rw [List.filter_eq_self]
    intro n hn
    simpa using hsh n hn
  simp only at h hs
  split at h
  · cases h
  · rename_i n
    split at h
    · rename_i hn
      cases h
      have : n ≠ 1 := by omega
      unfold reorganize squeeze
      simp [this, hn]
    · cases h
  · rename_i r c' rest
    have hsh := hid _ hs
    have hr : r ≠ 1 := hs r (by simp)
    have hc : c' ≠ 1 := hs c' (by simp)
    split at h
    · rename_i hh
      cases h
      unfold reorganize squeeze
      simp only [hsh]
      rw [if_pos hh]
    · rename_i hh
      split at h
      · cases h
      · rename_i h3
        split at h
        · rename_i hlt
          cases h
          unfold reorganize squeeze
          simp only [hsh]
          rw [if_neg hh, if_neg h3, if_pos hlt]
        · rename_i hlt
          split at h
          · rename_i hrest
            subst hrest
            cases h
            have hsh' := hid [c', r] (by simp [hr, hc])
            unfold reorganize squeeze
            simp only [hsh']
            rw [if_neg (by tauto), if_neg (by omega)]
            split
            · rfl
            · simp only [true_and] at hh
              have : r = 0 ∧ c' = 0 := by omega
              obtain ⟨rfl, rfl⟩ := this
              rfl
          · cases h

/-- C54. What cannot be points is refused: a list of numbers other than two or three, and an array
with more than three rows and more than three columns. -/
theorem C54_refused (a : Arr K) (n m : Nat) :
    (a.shape.filter (fun d => d ≠ 1) = [n] → n ≠ 2 → n ≠ 3 →
      reorganize a = .error .valueError) ∧
    (a.shape.filter (fun d => d ≠ 1) = [n, m] → 3 < n → 3 < m →
      reorganize a = .error .valueError) := by
  constructor
  · intro h h2 h3
    unfold reorganize squeeze
    simp only [h]
    rw [if_neg (by omega)]
  · intro h h2 h3
    unfold reorganize squeeze
    simp only [h]
    rw [if_neg (by omega), if_pos ⟨h2, h3⟩]

end

/-- Five points, one per column with an axis of length one in front, and one point. -/
example :
    reorganize (⟨[1, 2, 5], [1, 2, 3, 4, 5, 10, 20, 30, 40, 50]⟩ : Arr Rat) =
      .ok ⟨[5, 2], [1, 10, 2, 20, 3, 30, 4, 40, 5, 50]⟩ ∧
    reorganize (⟨[1, 2, 1], [4, 5]⟩ : Arr Rat) = .ok ⟨[1, 2], [4, 5]⟩ ∧
    reorganize (⟨[2, 3], [1, 2, 3, 4, 5, 6]⟩ : Arr Rat) = .ok ⟨[2, 3], [1, 2, 3, 4, 5, 6]⟩ ∧
    reorganize (⟨[4], [1, 2, 3, 4]⟩ : Arr Rat) = .error .valueError := by
  decide +kernel

/-- The hypotheses of `C54_same_partial` for five points. -/
example :
    Holds (⟨[5, 2], [1, 10, 2, 20, 3, 30, 4, 40, 5, 50]⟩ : Arr Nat) 5 2
        (fun i j => (i + 1) * if j = 0 then 1 else 10) ∧
      Holds (⟨[2, 5], [1, 2, 3, 4, 5, 10, 20, 30, 40, 50]⟩ : Arr Nat) 2 5
        (fun j i => (i + 1) * if j = 0 then 1 else 10) ∧
      WithUnitAxes (⟨[1, 2, 5], [1, 2, 3, 4, 5, 10, 20, 30, 40, 50]⟩ : Arr Nat)
        ⟨[2, 5], [1, 2, 3, 4, 5, 10, 20, 30, 40, 50]⟩ := by
  refine ⟨⟨rfl, rfl, ?_⟩, ⟨rfl, rfl, ?_⟩, rfl, rfl⟩
  · intro i j hi hj
    have : ∀ i < 5, ∀ j < 2, ([1, 10, 2, 20, 3, 30, 4, 40, 5, 50] : List Nat)[i * 2 + j]? =
        some ((i + 1) * if j = 0 then 1 else 10) := by decide
    exact this i hi j hj
  · intro j i hj hi
    have : ∀ j < 2, ∀ i < 5, ([1, 2, 3, 4, 5, 10, 20, 30, 40, 50] : List Nat)[j * 5 + i]? =
        some ((i + 1) * if j = 0 then 1 else 10) := by decide
    exact this j hj i hi

/-! ## C55 -/

/-- C55 as stated, for a table of flags written as a file stores it: an attribute with a single
value is a number, not a sequence. -/
def C55_statement : Prop :=
  ∀ (parse : String → Option Int) (values : List Int) (meanings : List String) (data : List Int),
    values.length = meanings.length →
    ∃ mask, convertMask 0 1 parse
        (.flags (match values with | [v] => .single v | vs => .seq vs) meanings) data = .ok mask ∧
      mask.length = data.length ∧
      ∀ (i : Nat) (x : Int), data[i]? = some x →
        (mask[i]? = some false ↔ WaterCell values meanings x)

/-- C55 fails for a table with a single flag: the conversion raises an error. -/
theorem C55_refuted : ¬ C55_statement := by
  intro h
  obtain ⟨m, hm, -⟩ := h (fun _ => none) [1] ["water"] [1, 0] rfl
  cases hm

section
variable {α : Type*} [DecidableEq α] (zero one : α) (parse : String → Option α)

theorem mask_table (vs : List α) (meanings : List String) (x : α) :
    applyMap (dictOf (vs.zip (meanings.map (fun s => !isWater s)))) x = false ↔
      WaterCell vs meanings x := by
  have hd := dictOf_lookup (vs.zip (meanings.map (fun s => !isWater s))) x
  rw [applyMap_eq _ hd.2, hd.1]
  constructor
  · intro h
    cases hl : lastOf (vs.zip (meanings.map (fun s => !isWater s))) x with
    | none => rw [hl] at h; cases h
    | some b =>
      rw [hl] at h
      simp only [Option.getD_some] at h
      subst h
      obtain ⟨i, h1, h2, h3⟩ := (lastOf_zip_iff _ _ _ _).1 hl
      rw [List.getElem?_map, Option.map_eq_some_iff] at h2
      obtain ⟨m, hm, hw⟩ := h2
      rw [List.length_map] at h3
      refine ⟨m, ⟨i, h1, hm, h3⟩, (isWater_iff m).1 ?_⟩
      simpa using hw
  · rintro ⟨m, ⟨i, h1, h2, h3⟩, hw⟩
    have : lastOf (vs.zip (meanings.map (fun s => !isWater s))) x = some false := by
      rw [lastOf_zip_iff]
      refine ⟨i, h1, ?_, ?_⟩
      · rw [List.getElem?_map, h2]
        simp [(isWater_iff m).2 hw]
      · rw [List.length_map]; exact h3
    rw [this]
    rfl

/-- C55 for a table of flags given as a sequence or as a text whose words are all values: a cell is
not masked exactly if its value is documented, at its last occurrence, as water or lake. All other
cells are masked. The table with a single flag is missing, see `C55_refuted`. -/
theorem C55_flags_partial (fv : FlagValues α) (vs : List α) (meanings : List String)
    (data : List α)
    (hv : fv = .seq vs ∨ ∃ ws, fv = .text ws ∧ List.Forall₂ (fun w v => parse w = some v) ws vs) :
    ∃ mask, convertMask zero one parse (.flags fv meanings) data = .ok mask ∧
      mask.length = data.length ∧
      ∀ (i : Nat) (x : α), data[i]? = some x →
        (mask[i]? = some false ↔ WaterCell vs meanings x) ∧
        (mask[i]? = some true ↔ ¬ WaterCell vs meanings x) := by
  refine ⟨data.map (applyMap (dictOf (vs.zip (meanings.map (fun s => !isWater s))))), ?_, by simp,
    ?_⟩
  · rcases hv with rfl | ⟨ws, rfl, h⟩
    · rfl
    · have : coerce parse ws = some vs := by
        induction h with
        | nil => rfl
        | cons h _ ih => simp [coerce, h, ih]
      simp only [convertMask, this]
  · intro i x hx
    rw [List.getElem?_map, hx]
    have := mask_table vs meanings x
    simp only [Option.map_some, Option.some.injEq]
    refine ⟨this, ?_⟩
    rw [← this]
    simp

/-- C55. A text that is not a list of values documents nothing: every cell is masked. -/
theorem C55_unreadable (ws : List String) (meanings : List String) (data : List α)
    (h : ∃ w ∈ ws, parse w = none) :
    convertMask zero one parse (.flags (.text ws) meanings) data =
      .ok (data.map (fun _ => true)) := by
  have : coerce parse ws = none := by
    obtain ⟨w, hw, hp⟩ := h
    induction ws with
    | nil => cases hw
    | cons a t ih =>
      rcases List.mem_cons.1 hw with rfl | hw
      · simp [coerce, hp]
      · simp only [coerce, ih hw]
        split <;> simp_all
  simp only [convertMask, this]

/-- C55. Without a table: with options, only the value one is water; otherwise the data are the
mask, and only the value zero is water. -/
theorem C55_without_table (data : List α) (h01 : zero ≠ one) :
    (∃ mask, convertMask zero one parse .options data = .ok mask ∧ mask.length = data.length ∧
      ∀ (i : Nat) (x : α), data[i]? = some x → (mask[i]? = some false ↔ x = one)) ∧
    (∃ mask, convertMask zero one parse .plain data = .ok mask ∧ mask.length = data.length ∧
      ∀ (i : Nat) (x : α), data[i]? = some x → (mask[i]? = some false ↔ x = zero)) := by
  refine ⟨⟨_, rfl, by simp, ?_⟩, ⟨_, rfl, by simp, ?_⟩⟩
  · intro i x hx
    rw [List.getElem?_map, hx]
    by_cases h : x = one
    · subst h
      simp [dictOf, applyMap, assign, h01, Ne.symm h01]
    · by_cases h' : x = zero <;> simp [dictOf, applyMap, assign, h01, h, h']
  · intro i x hx
    rw [List.getElem?_map, hx]
    simp

end

/-- A table with capitals, a value given twice and a value without meaning. -/
example :
    convertMask (0 : Int) 1 (fun _ => none)
      (.flags (.seq [0, 1, 2, 1, 7]) ["Land", "land", "Fresh_Water", "big_LAKE"]) [0, 1, 2, 3, 7] =
      .ok [true, false, false, true, true] ∧
    convertMask (0 : Int) 1 (fun s => if s = "0" then some 0 else if s = "1" then some 1 else none)
      (.flags (.text ["0", "1"]) ["land", "water"]) [0, 1, 2] = .ok [true, false, true] ∧
    convertMask (0 : Int) 1 (fun _ => none) .plain [0, 1, 2] = .ok [false, true, true] := by
  decide +kernel

end Verif
