import Verif.Lemmas.VerdatText
import Verif.Props.Verdat
import Verif.Lemmas.At
import Verif.Lemmas.UGeom

/-!
# C168, C169: verdat files as text
-/

set_option autoImplicit false

namespace Verif
open Verdat Spec VerdatText
open Verif.DepthM (mapE mapE_ok mapE_rel)

/-! ## C168 -/

/-- `x'` is what `x` reads as after printing it with `p` decimals: a decimal no further than half a
unit of the last place away, converted to a double; the same sign; NaN and infinities as they are. -/
def Printed (rnd : ℚ → ℚ) (p : Nat) : Num → Num → Prop
  | .fin neg q, .fin neg' q' => neg = neg' ∧
      ∃ n : Nat, |(n : ℚ) / 10 ^ p - q| ≤ 1 / (2 * 10 ^ p) ∧ q' = rnd ((n : ℚ) / 10 ^ p)
  | .nan, .nan => True
  | .inf neg, .inf neg' => neg = neg'
  | _, _ => False

/-- Sizes are not negative: the sign is kept apart. -/
def SignApart : Num → Prop
  | .fin _ q => 0 ≤ q
  | _ => True

theorem readBack_printed (rnd : ℚ → ℚ) (p : Nat) (x : Num) (hx : SignApart x) :
    Printed rnd p x (readBack rnd p x) := by
  cases x with
  | nan => trivial
  | inf neg => rfl
  | fin neg q =>
    refine ⟨rfl, halfEven (q * 10 ^ p), ?_, rfl⟩
    have hp : (0 : ℚ) < 10 ^ p := by positivity
    have := halfEven_near (mul_nonneg hx (le_of_lt hp))
    have e : (halfEven (q * 10 ^ p) : ℚ) / 10 ^ p - q = ((halfEven (q * 10 ^ p) : ℚ) - q * 10 ^ p) / 10 ^ p := by
      field_simp
    rw [e, abs_div, abs_of_pos hp, div_le_iff₀ hp]
    calc _ ≤ (1 : ℚ) / 2 := this
      _ = 1 / (2 * 10 ^ p) * 10 ^ p := by field_simp

theorem readBounds_blocks {K : Type*} (bounds : List (List Int)) (hb : ∀ b ∈ bounds, 2 ≤ b.length)
    (start : Nat) :
    readBounds bounds.length start ((ends start bounds).map (fun n : Nat => (Line.num (n : Int) : Line K))) =
      .ok (allSegs start (bounds.map List.length)) := by
  induction bounds generalizing start with
  | nil => rfl
  | cons b bs ih =>
    have hl := hb b (by simp)
    have h1 : loopSegs start (start + b.length) = .ok (blockSegs start b.length) := by
      unfold loopSegs blockSegs
      rw [if_pos (by omega), show start + b.length - 1 - start = b.length - 1 by omega]
      congr 3
    simp only [List.length_cons, ends, List.map_cons, readBounds, Int.toNat_natCast, h1,
      ih (fun x hx => hb x (by simp [hx]))]
    rfl

/-- The units words of the header. -/
theorem header_units {named : Bool} {units un : String}
    (h : (if named then unitsMap units else .ok "") = .ok un) :
    (named = false ∧ un = "") ∨ (named = true ∧ unitsMap units = .ok un ∧ (un = "FEET" ∨ un = "METERS")) := by
  cases named with
  | false =>
    simp only [Bool.false_eq_true, if_false, Except.ok.injEq] at h
    exact Or.inl ⟨rfl, h.symm⟩
  | true =>
    rw [if_pos rfl] at h
    refine Or.inr ⟨rfl, h, ?_⟩
    unfold unitsMap at h
    split_ifs at h
    · exact Or.inl (Except.ok.inj h).symm
    · exact Or.inr (Except.ok.inj h).symm

/-- The lower-case units as loaded. -/
def unitsRead (un : String) : String :=
  if un = "FEET" then "feet" else if un = "METERS" then "meters" else ""

theorem words_header {un : String} (h : un = "" ∨ un = "FEET" ∨ un = "METERS") :
    String.ofList ((((words (['D', 'O', 'G', 'S', ' '] ++ un.toList))[1]?).getD []).map Char.toLower) =
      unitsRead un ∧ '\n' ∉ ['D', 'O', 'G', 'S', ' '] ++ un.toList := by
  rcases h with rfl | rfl | rfl
  · exact ⟨by decide +kernel, by decide +kernel⟩
  · exact ⟨by decide +kernel, by decide +kernel⟩
  · exact ⟨by decide +kernel, by decide +kernel⟩

/-- A saved file is loaded without an exception, and this is the dataset. -/
theorem loadText_saved {rnd : ℚ → ℚ} {u : ℚ} (h : Accurate rnd u) (hu : u < 1) {named : Bool}
    {d : Data Num} {text : List Char} (hs : saveText named d = some (.ok text)) :
    ∃ bounds opened rows un, orderSegs d.segs = some (.ok (bounds, opened)) ∧
      (if named then unitsMap d.units else .ok "") = .ok un ∧
      mapE (valuesAt d.nodes (if named then d.depths else d.nodes.map fun _ => Num.fin false 1))
        (fileOrder d.nodes.length bounds) = .ok rows ∧
      text = joinLines ([['D', 'O', 'G', 'S', ' '] ++ un.toList] ++
          rows.zipIdx.map (fun r => rowText (r.2 + 1) r.1) ++
          [rowText 0 (.fin false 0, .fin false 0, .fin false 0)] ++
          [decimal bounds.length] ++ (ends 0 bounds).map decimal) ∧
      loadText rnd text = .ok
        { nodes := (rows.map (readRow rnd)).map (fun r => (r.1, r.2.1)),
          depths := (rows.map (readRow rnd)).map (fun r => r.2.2),
          units := unitsRead un, segs := allSegs 0 (bounds.map List.length) } := by
  unfold saveText at hs
  simp only at hs
  rcases hun : (if named then unitsMap d.units else .ok "") with e | un
  · rw [hun] at hs; cases hs
  rw [hun] at hs
  simp only at hs
  rcases ho : orderSegs d.segs with _ | (e | ⟨bounds, opened⟩)
  · rw [ho] at hs; cases hs
  · rw [ho] at hs; cases hs
  rw [ho] at hs
  simp only at hs
  rcases hm : mapE (valuesAt d.nodes (if named then d.depths else d.nodes.map fun _ => Num.fin false 1))
      (fileOrder d.nodes.length bounds) with e | rows
  · rw [hm] at hs; cases hs
  rw [hm] at hs
  have hs := (Except.ok.inj (Option.some.inj hs)).symm
  refine ⟨bounds, opened, rows, un, rfl, rfl, hm, hs, ?_⟩
  have hun' : un = "" ∨ un = "FEET" ∨ un = "METERS" := by
    rcases header_units hun with ⟨_, h⟩ | ⟨_, _, h⟩
    · exact Or.inl h
    · exact Or.inr h
  obtain ⟨hw, hwn⟩ := words_header hun'
  have hlines : linesOf text = (['D', 'O', 'G', 'S', ' '] ++ un.toList) ::
      (rows.zipIdx.map (fun r => rowText (r.2 + 1) r.1) ++
        rowText 0 (.fin false 0, .fin false 0, .fin false 0) ::
        (decimal bounds.length :: (ends 0 bounds).map decimal)) := by
    rw [hs, linesOf_join]
    · simp
    · intro l hl
      simp only [List.mem_append, List.mem_singleton, List.mem_map] at hl
      rcases hl with (((rfl | ⟨r, _, rfl⟩) | rfl) | rfl) | ⟨n, _, rfl⟩
      · exact hwn
      · exact rowText_noeol _ _
      · exact rowText_noeol _ _
      · exact (decimal_nochars _).2
      · exact (decimal_nochars _).2
  have hb := chains_closed_length (show chains _ _ = _ from ho)
  have hstrip : strip (decimal bounds.length) = decimal bounds.length := by
    refine strip_spaces 0 _ ?_
    intro c hc
    obtain ⟨d, hd, rfl⟩ := decimal_chars _ c hc
    exact (digitChar_facts hd).2.2.1
  have hrb := readBounds_text bounds hb none 0 []
  rw [List.append_nil] at hrb
  unfold loadText
  simp only [hlines, List.tail_cons, List.headD_cons, readRows_text h hu, hstrip, parseInt_decimal,
    Int.toNat_natCast, hw]
  simp only [Nat.cast_zero] at hrb
  rw [hrb]

/-- C168. Saved as text and loaded, every node is there once, with its coordinates to six decimals and
its depth to three, the same units and the same boundary loops. -/
theorem C168_text (rnd : ℚ → ℚ) (u : ℚ) (h : Accurate rnd u) (hu : u < 1) (d : Data Num)
    (hlen : d.depths.length = d.nodes.length)
    (hun : d.units ∈ ["foot", "ft", "feet", "meter", "m", "meters", "metre"])
    (bounds : List (List Int)) (hord : orderSegs d.segs = some (.ok (bounds, [])))
    (hdis : bounds.flatten.Nodup) (hin : ∀ p ∈ bounds.flatten, 0 ≤ p ∧ p < d.nodes.length)
    (hsx : ∀ q ∈ d.nodes, SignApart q.1 ∧ SignApart q.2) (hsz : ∀ z ∈ d.depths, SignApart z) :
    ∃ text d' order old,
      saveText true d = some (.ok text) ∧ loadText rnd text = .ok d' ∧
      order.Perm ((List.range d.nodes.length).map (fun j : Nat => (j : Int))) ∧
      List.Forall₂ (fun xy p => ∃ q, Np.pyGet d.nodes p = .ok q ∧ Printed rnd 6 q.1 xy.1 ∧
        Printed rnd 6 q.2 xy.2) d'.nodes order ∧
      List.Forall₂ (fun z' p => ∃ z, Np.pyGet d.depths p = .ok z ∧ Printed rnd 3 z z') d'.depths order ∧
      SameUnits d.units d'.units ∧
      List.Forall₂ (Renumbers order) d'.segs old ∧
      old = bounds.flatMap loopPairs ∧ (old.map undirected).Perm (d.segs.map undirected) := by
  set order := fileOrder d.nodes.length bounds with horder
  have hperm := fileOrder_perm d.nodes.length bounds hdis hin
  have hvals : ∀ p ∈ order, ∃ v, valuesAt d.nodes d.depths p = .ok v ∧
      ((∃ q, Np.pyGet d.nodes p = .ok q ∧ Printed rnd 6 q.1 (readRow rnd v).1 ∧
        Printed rnd 6 q.2 (readRow rnd v).2.1) ∧
      ∃ z, Np.pyGet d.depths p = .ok z ∧ Printed rnd 3 z (readRow rnd v).2.2) := by
    intro p hp
    have hp' := hperm.mem_iff.1 hp
    simp only [List.mem_map, List.mem_range] at hp'
    obtain ⟨j, hj, rfl⟩ := hp'
    have h1 := pyGet_nat d.nodes j _ (List.getElem?_eq_getElem hj)
    have h2 := pyGet_nat d.depths j _ (List.getElem?_eq_getElem (by omega))
    refine ⟨(d.nodes[j].1, d.nodes[j].2, d.depths[j]'(by omega)), by simp [valuesAt, h1, h2],
      ⟨_, h1, ?_, ?_⟩, _, h2, ?_⟩
    · exact readBack_printed rnd 6 _ (hsx _ (List.getElem_mem _)).1
    · exact readBack_printed rnd 6 _ (hsx _ (List.getElem_mem _)).2
    · exact readBack_printed rnd 3 _ (hsz _ (List.getElem_mem _))
  obtain ⟨rows, hm, hrows⟩ := mapE_rel hvals
  obtain ⟨un, hmap⟩ : ∃ un, unitsMap d.units = .ok un := by
    unfold unitsMap
    split_ifs with a b
    · exact ⟨_, rfl⟩
    · exact ⟨_, rfl⟩
    · simp only [List.mem_cons, List.not_mem_nil, or_false] at hun a b; tauto
  obtain ⟨text, hs⟩ : ∃ text, saveText true d = some (.ok text) := by
    unfold saveText
    simp only [if_pos, hmap, hord, ← horder, hm]
    exact ⟨_, rfl⟩
  obtain ⟨bounds', opened, rows', un', e1, e2, e3, -, hl⟩ := loadText_saved h hu hs
  rw [hord] at e1; cases e1
  rw [if_pos rfl, hmap] at e2; cases e2
  simp only [if_pos] at e3
  rw [← horder, hm] at e3; cases e3
  obtain ⟨ss, hb1, hb2⟩ := readBounds_spec (K := ℚ) order bounds 0
    (chains_closed_length hord) (by
      intro k hk
      rw [horder, fileOrder, Nat.zero_add, List.getElem?_append_left hk])
  rw [readBounds_blocks bounds (chains_closed_length hord) 0] at hb1
  cases hb1
  refine ⟨text, _, order, bounds.flatMap loopPairs, hs, hl, hperm, ?_, ?_, ?_, hb2, rfl, ?_⟩
  · simp only [List.map_map]
    exact List.forall₂_map_left_iff.2 (hrows.flip.imp fun _ _ h => h.1)
  · simp only [List.map_map]
    exact List.forall₂_map_left_iff.2 (hrows.flip.imp fun _ _ h => h.2)
  · unfold unitsMap at hmap
    split_ifs at hmap with a b
    · cases hmap; exact Or.inl ⟨a, rfl⟩
    · cases hmap; exact Or.inr ⟨b, rfl⟩
  · simpa using C37_conserves _ _ _ hord

/-! ## C169 -/

/-- C169, first half: what was loaded can be saved. -/
def C169_statement : Prop :=
  ∀ (text : List Char) (d : Data Num), loadText (fun x => x) text = .ok d →
    ∃ text', saveText true d = some (.ok text')

/-- C169 fails: a file without units is loaded, but the dataset can not be saved. -/
theorem C169_refuted : ¬ C169_statement := by
  intro h
  have hl : loadText (fun x => x) "DOGS\n 1, 1, 2, 3\n 0, 0, 0, 0\n".toList =
      .ok { nodes := [(.fin false 1, .fin false 2)], depths := [.fin false 3], units := "", segs := [] } := by
    decide +kernel
  obtain ⟨t, ht⟩ := h _ _ hl
  have : saveText true
      { nodes := [(.fin false 1, .fin false 2)], depths := [.fin false 3], units := "", segs := [] } = some (.error .keyError) := by decide +kernel
  rw [this] at ht
  cases ht

theorem loaded_lengths {rnd : ℚ → ℚ} {text : List Char} {d : Data Num}
    (h : loadText rnd text = .ok d) : d.depths.length = d.nodes.length := by
  unfold loadText at h
  simp only at h
  split at h
  · cases h
  · split at h
    · cases h
    · split at h
      · cases h
      · cases h
        simp

/-- C169, first half, for files with units and with boundaries that chain within the points. Missing:
files without units, or whose boundaries go beyond the points. -/
theorem C169_saves_partial (rnd : ℚ → ℚ) (text : List Char) (d : Data Num)
    (h : loadText rnd text = .ok d)
    (hun : d.units ∈ ["foot", "ft", "feet", "meter", "m", "meters", "metre"])
    (bounds opened : List (List Int)) (hord : orderSegs d.segs = some (.ok (bounds, opened)))
    (hin : ∀ p ∈ bounds.flatten, 0 ≤ p ∧ p < d.nodes.length) :
    ∃ text', saveText true d = some (.ok text') := by
  have hlen := loaded_lengths h
  obtain ⟨un, hmap⟩ : ∃ un, unitsMap d.units = .ok un := by
    unfold unitsMap
    split_ifs with a b
    · exact ⟨_, rfl⟩
    · exact ⟨_, rfl⟩
    · simp only [List.mem_cons, List.not_mem_nil, or_false] at hun a b; tauto
  obtain ⟨rows, hm, -⟩ := mapE_rel (f := valuesAt d.nodes d.depths) (R := fun _ _ => True)
    (l := fileOrder d.nodes.length bounds) (by
      intro p hp
      have hr : 0 ≤ p ∧ p < d.nodes.length := by
        simp only [fileOrder, List.mem_append, List.mem_filter, List.mem_map, List.mem_range] at hp
        rcases hp with hp | ⟨⟨j, hj, rfl⟩, _⟩
        · exact hin p hp
        · constructor <;> omega
      obtain ⟨j, rfl⟩ := Int.eq_ofNat_of_zero_le hr.1
      have hj : j < d.nodes.length := by omega
      have h1 := pyGet_nat d.nodes j _ (List.getElem?_eq_getElem hj)
      have h2 := pyGet_nat d.depths j _ (List.getElem?_eq_getElem (by omega))
      exact ⟨(d.nodes[j].1, d.nodes[j].2, d.depths[j]'(by omega)), by simp [valuesAt, h1, h2], trivial⟩)
  unfold saveText
  simp only [if_pos, hmap, hord, hm]
  exact ⟨_, rfl⟩

/-- The number is small enough for six decimals: half a unit of the sixth place is more than the
rounding of a double of that size. -/
def Moderate (u : ℚ) : Num → Prop
  | .fin _ q => 0 ≤ q ∧ u * (q + 1) < 1 / (2 * 10 ^ 6)
  | _ => True

theorem fmtF_again {rnd : ℚ → ℚ} {u : ℚ} (h : Accurate rnd u) (w p : Nat) (hp : p ≤ 6) (x : Num)
    (hx : Moderate u x) : fmtF w p (readBack rnd p x) = fmtF w p x := by
  cases x with
  | nan => rfl
  | inf neg => rfl
  | fin neg q =>
    obtain ⟨hq, hm⟩ := hx
    have hu0 : 0 ≤ u := by
      have := h 1
      rw [abs_one, mul_one] at this
      exact le_trans (abs_nonneg _) this
    have hpp : (0 : ℚ) < 10 ^ p := by positivity
    have hp6 : (10 : ℚ) ^ p ≤ 10 ^ 6 := pow_le_pow_right₀ (by norm_num) hp
    have hp1 : (1 : ℚ) ≤ 10 ^ p := one_le_pow₀ (by norm_num)
    have hn := halfEven_near (mul_nonneg hq (le_of_lt hpp))
    set n := halfEven (q * 10 ^ p) with hdef
    have hn2 : (n : ℚ) ≤ q * 10 ^ p + 1 / 2 := by
      rw [abs_le] at hn; linarith [hn.2]
    have hn0 : (0 : ℚ) ≤ n := Nat.cast_nonneg n
    -- the rounding, in units of the last place
    have hacc := h ((n : ℚ) / 10 ^ p)
    rw [abs_of_nonneg (div_nonneg hn0 (le_of_lt hpp))] at hacc
    have e : rnd ((n : ℚ) / 10 ^ p) * 10 ^ p - n = (rnd ((n : ℚ) / 10 ^ p) - n / 10 ^ p) * 10 ^ p := by
      field_simp
    have hdist : |rnd ((n : ℚ) / 10 ^ p) * 10 ^ p - n| < 1 / 2 := by
      rw [e, abs_mul, abs_of_pos hpp]
      have h1 : |rnd ((n : ℚ) / 10 ^ p) - n / 10 ^ p| * 10 ^ p ≤ u * n := by
        calc _ ≤ (u * ((n : ℚ) / 10 ^ p)) * 10 ^ p := mul_le_mul_of_nonneg_right hacc (le_of_lt hpp)
          _ = u * n := by field_simp
      have h2 : u * (n : ℚ) ≤ u * ((q + 1) * 10 ^ p) := by
        refine mul_le_mul_of_nonneg_left ?_ hu0
        nlinarith
      have h3 : u * ((q + 1) * 10 ^ p) ≤ u * (q + 1) * 10 ^ 6 := by
        rw [← mul_assoc]
        exact mul_le_mul_of_nonneg_left hp6 (mul_nonneg hu0 (by linarith))
      have h4 : u * (q + 1) * 10 ^ 6 < 1 / 2 := by
        have := mul_lt_mul_of_pos_right hm (show (0 : ℚ) < 10 ^ 6 by norm_num)
        have e : (1 : ℚ) / (2 * 10 ^ 6) * 10 ^ 6 = 1 / 2 := by norm_num
        rwa [e] at this
      linarith
    have hpos : 0 ≤ rnd ((n : ℚ) / 10 ^ p) * 10 ^ p := by
      rcases Nat.eq_zero_or_pos n with h0 | h0
      · rw [h0, Nat.cast_zero, zero_div, acc_zero' h, zero_mul]
      · have : (1 : ℚ) ≤ n := by exact_mod_cast h0
        rw [abs_lt] at hdist
        linarith [hdist.1]
    show padLeft w (minusSign neg ++ fixed p (halfEven (rnd ((n : ℚ) / 10 ^ p) * 10 ^ p))) = _
    rw [halfEven_unique hpos hdist]
    rfl

/-- C169, second half: a saved file loaded and saved again is the same text. -/
theorem C169_resave (rnd : ℚ → ℚ) (u : ℚ) (h : Accurate rnd u) (hu : u < 1) (d d' : Data Num)
    (hx : ∀ q ∈ d.nodes, Moderate u q.1 ∧ Moderate u q.2) (hz : ∀ z ∈ d.depths, Moderate u z)
    (text : List Char) (hs : saveText true d = some (.ok text)) (hl : loadText rnd text = .ok d') :
    saveText true d' = some (.ok text) := by
  obtain ⟨bounds, opened, rows, un, e1, e2, e3, e4, e5⟩ := loadText_saved h hu hs
  rw [e5] at hl
  cases hl
  rw [if_pos rfl] at e2
  simp only [if_pos] at e3
  have hb := chains_closed_length (show chains _ _ = _ from e1)
  have hls : ∀ l ∈ bounds.map List.length, 2 ≤ l := by
    intro l hl
    obtain ⟨b, hb', rfl⟩ := List.mem_map.mp hl
    exact hb b hb'
  have hord := orderSegs_blocks (bounds.map List.length) hls
  haveI : Inhabited (Num × Num × Num) := ⟨(.nan, .nan, .nan)⟩
  obtain ⟨g, hg, hrows⟩ := At.mapE_inv e3
  have hrl : rows.length = (fileOrder d.nodes.length bounds).length := by rw [hrows, List.length_map]
  have hsum : (bounds.map List.length).sum ≤ rows.length := by
    rw [hrl, fileOrder, List.length_append, List.length_flatten]
    omega
  have hmod : ∀ r ∈ rows, Moderate u r.1 ∧ Moderate u r.2.1 ∧ Moderate u r.2.2 := by
    intro r hr
    rw [hrows] at hr
    obtain ⟨p, hp, rfl⟩ := List.mem_map.mp hr
    have := hg p hp
    unfold valuesAt at this
    split at this
    · rename_i x y z h1 h2
      have := (Except.ok.inj this).symm
      rw [this]
      exact ⟨(hx _ (UGeom.pyGet_mem h1)).1, (hx _ (UGeom.pyGet_mem h1)).2, hz _ (UGeom.pyGet_mem h2)⟩
    · cases this
  have hunits : unitsMap (unitsRead un) = .ok un := by
    rcases header_units (named := true) (by rw [if_pos rfl]; exact e2) with ⟨h, _⟩ | ⟨_, _, rfl | rfl⟩
    · cases h
    · decide +kernel
    · decide +kernel
  have hvals : mapE (valuesAt ((rows.map (readRow rnd)).map fun r => (r.1, r.2.1))
      ((rows.map (readRow rnd)).map fun r => r.2.2))
      ((List.range rows.length).map fun j : Nat => (j : Int)) = .ok (rows.map (readRow rnd)) := by
    have hlist : rows.map (readRow rnd) = ((List.range rows.length).map fun j : Nat => (j : Int)).map
        fun p => ((rows.map (readRow rnd))[p.toNat]?).getD (.nan, .nan, .nan) := by
      rw [List.map_map]
      refine List.ext_getElem? fun k => ?_
      rw [List.getElem?_map (l := List.range _)]
      by_cases hk : k < rows.length
      · rw [List.getElem?_range hk]
        simp only [Option.map_some, Function.comp, Int.toNat_natCast]
        rw [List.getElem?_eq_getElem (by simpa using hk)]
        rfl
      · rw [List.getElem?_eq_none (by simpa using hk), List.getElem?_eq_none (by simpa using hk)]
        rfl
    conv_rhs => rw [hlist]
    refine mapE_ok ?_
    intro p hp
    obtain ⟨j, hj, rfl⟩ := List.mem_map.mp hp
    rw [List.mem_range] at hj
    have hj' : j < (rows.map (readRow rnd)).length := by simpa using hj
    have h1 := pyGet_nat ((rows.map (readRow rnd)).map fun r => (r.1, r.2.1)) j _
      (by rw [List.getElem?_map, List.getElem?_eq_getElem hj']; rfl)
    have h2 := pyGet_nat ((rows.map (readRow rnd)).map fun r => r.2.2) j _
      (by rw [List.getElem?_map, List.getElem?_eq_getElem hj']; rfl)
    unfold valuesAt
    rw [h1, h2, Int.toNat_natCast, List.getElem?_eq_getElem hj']
    rfl
  have hrow : ∀ (k : Nat) (r : Num × Num × Num), r ∈ rows → rowText k (readRow rnd r) = rowText k r := by
    intro k r hr
    obtain ⟨m1, m2, m3⟩ := hmod r hr
    unfold rowText readRow
    simp only [fmtF_again h 10 6 le_rfl _ m1, fmtF_again h 10 6 le_rfl _ m2,
      fmtF_again h 8 3 (by norm_num) _ m3]
  have htext : (rows.map (readRow rnd)).zipIdx.map (fun r => rowText (r.2 + 1) r.1) =
      rows.zipIdx.map (fun r => rowText (r.2 + 1) r.1) := by
    rw [List.zipIdx_map, List.map_map]
    refine List.map_congr_left fun r hr => ?_
    have hm : r.1 ∈ rows := by
      have := List.mem_zipIdx hr
      rw [this.2.2]; exact List.getElem_mem _
    exact hrow _ _ hm
  have hbl := blocks_lengths (bounds.map List.length) 0
  have hbn : (blocks 0 (bounds.map List.length)).length = bounds.length := by
    have := congrArg List.length hbl
    simpa using this
  unfold saveText
  simp only [if_pos, hunits, hord, List.length_map]
  rw [fileOrder_blocks rows.length _ hsum, hvals]
  simp only [htext, hbn, ends_lengths _ _ hbl 0]
  rw [e4]

/-! ## A case -/

/-- A triangle around a point, with a negative number that prints as zero, NaN and infinity. -/
def exText : Data Num where
  nodes := [(.fin false 1, .fin true (1 / 10000000)), (.fin true (2 / 3), .fin false 1234567),
    (.fin false 3, .nan), (.fin false (1 / 2), .inf true)]
  depths := [.fin false 4, .fin false (7 / 8), .fin false (1 / 3), .fin true 2]
  units := "ft"
  segs := [(3, 1), (1, 2), (2, 3)]

example : saveText true exText = some (.ok
    ("DOGS FEET\n" ++
     "   1,  -0.666667, 1234567.000000,    0.875\n" ++
     "   2,   3.000000,        nan,    0.333\n" ++
     "   3,   0.500000,       -inf,   -2.000\n" ++
     "   4,   1.000000,  -0.000000,    4.000\n" ++
     "   0,   0.000000,   0.000000,    0.000\n" ++
     "1\n3\n").toList) := by decide +kernel

/-- The hypotheses of C168 hold for it. -/
example : ∃ text d' order old,
      saveText true exText = some (.ok text) ∧ loadText (fun x => x) text = .ok d' ∧
      order.Perm ((List.range 4).map (fun j : Nat => (j : Int))) ∧
      List.Forall₂ (fun xy p => ∃ q, Np.pyGet exText.nodes p = .ok q ∧ Printed (fun x => x) 6 q.1 xy.1 ∧
        Printed (fun x => x) 6 q.2 xy.2) d'.nodes order ∧
      List.Forall₂ (fun z' p => ∃ z, Np.pyGet exText.depths p = .ok z ∧ Printed (fun x => x) 3 z z')
        d'.depths order ∧
      SameUnits exText.units d'.units ∧
      List.Forall₂ (Renumbers order) d'.segs old ∧
      old = [[1, 2, 3]].flatMap loopPairs ∧ (old.map undirected).Perm (exText.segs.map undirected) :=
  C168_text (fun x => x) 0 (fun x => by simp) (by norm_num) exText rfl (by decide) [[1, 2, 3]]
    (by decide +kernel) (by decide) (by decide)
    (by
      intro q hq
      simp only [exText, List.mem_cons, List.not_mem_nil, or_false] at hq
      rcases hq with rfl | rfl | rfl | rfl <;> constructor <;> simp only [SignApart] <;> norm_num)
    (by
      intro q hq
      simp only [exText, List.mem_cons, List.not_mem_nil, or_false] at hq
      rcases hq with rfl | rfl | rfl | rfl <;> simp only [SignApart] <;> norm_num)

/-- A file with one loop, a word after the units, and numbers written in other ways. -/
def exFile : List Char :=
  "DOGS Meters lake\n1, 0, 0, 1\n2, 1e1, 0, 2\n3, .5, 7.25, 3\n4, 2, 2, 9\n0 , 0, 0, 0.0\n1\n 3 \n".toList

/-- What is loaded from it. -/
def exFileData : Data Num where
  nodes := [(.fin false 0, .fin false 0), (.fin false 10, .fin false 0),
    (.fin false (1 / 2), .fin false (29 / 4)), (.fin false 2, .fin false 2)]
  depths := [.fin false 1, .fin false 2, .fin false 3, .fin false 9]
  units := "meters"
  segs := [(0, 1), (1, 2), (2, 0)]

/-- Those of the first half of C169 hold for it. -/
example : ∃ text', saveText true exFileData = some (.ok text') :=
  C169_saves_partial (fun x => x) exFile exFileData (by decide +kernel) (by decide) [[0, 1, 2]] []
    (by decide +kernel) (by decide)

/-- And those of the second half, for doubles. -/
example (rnd : ℚ → ℚ) (h : Accurate rnd (1 / 2 ^ 53)) (d' : Data Num) (text : List Char)
    (hs : saveText true exText = some (.ok text)) (hl : loadText rnd text = .ok d') :
    saveText true d' = some (.ok text) :=
  C169_resave rnd (1 / 2 ^ 53) h (by norm_num) exText d'
    (by
      intro q hq
      simp only [exText, List.mem_cons, List.not_mem_nil, or_false] at hq
      rcases hq with rfl | rfl | rfl | rfl <;> constructor <;> simp only [Moderate] <;> norm_num)
    (by
      intro q hq
      simp only [exText, List.mem_cons, List.not_mem_nil, or_false] at hq
      rcases hq with rfl | rfl | rfl | rfl <;> simp only [Moderate] <;> norm_num)
    text hs hl

end Verif
