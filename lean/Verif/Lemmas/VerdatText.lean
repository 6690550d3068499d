import Verif.Model.VerdatText
import Verif.Lemmas.Verdat
import Verif.Spec.Rounded
import Mathlib.Tactic.Linarith
import Mathlib.Tactic.Ring
import Mathlib.Tactic.NormNum
import Mathlib.Tactic.IntervalCases
import Mathlib.Tactic.FieldSimp
import Mathlib.Algebra.Order.Field.Basic

/-!
# Writing and reading numbers and lines
-/

set_option autoImplicit false

namespace Verif.VerdatText
open Verif Verif.Verdat Verif.Spec
open Verif.DepthM (mapE)

/-! ## Digits -/

theorem digitsAux_fold (f n : Nat) (acc : List Nat) (h : n < f) :
    (digitsAux f n acc).foldl (fun a d => 10 * a + d) 0 = acc.foldl (fun a d => 10 * a + d) n := by
  induction f generalizing n acc with
  | zero => omega
  | succ f ih =>
    unfold digitsAux
    split_ifs with h1
    · simp
    · rw [ih _ _ (by omega), List.foldl_cons]
      congr 1
      omega

theorem digitsAux_lt (f n : Nat) (acc : List Nat) (ha : ∀ d ∈ acc, d < 10) :
    ∀ d ∈ digitsAux f n acc, d < 10 := by
  induction f generalizing n acc with
  | zero => exact ha
  | succ f ih =>
    unfold digitsAux
    split_ifs with h1
    · intro d hd
      rcases List.mem_cons.mp hd with rfl | hd
      · exact h1
      · exact ha d hd
    · refine ih _ _ ?_
      intro d hd
      rcases List.mem_cons.mp hd with rfl | hd
      · omega
      · exact ha d hd

theorem digitsAux_ne (f n : Nat) (acc : List Nat) (h : n < f) : digitsAux f n acc ≠ [] := by
  induction f generalizing n acc with
  | zero => omega
  | succ f ih =>
    unfold digitsAux
    split_ifs with h1
    · simp
    · exact ih _ _ (by omega)

theorem digits_lt (n : Nat) : ∀ d ∈ digits n, d < 10 := digitsAux_lt _ _ _ (by simp)

theorem lowDigits_lt (p n : Nat) : ∀ d ∈ lowDigits p n, d < 10 := by
  induction p generalizing n with
  | zero => simp [lowDigits]
  | succ p ih =>
    intro d hd
    simp only [lowDigits, List.mem_append, List.mem_singleton] at hd
    rcases hd with hd | rfl
    · exact ih _ d hd
    · omega

theorem lowDigits_length (p n : Nat) : (lowDigits p n).length = p := by
  induction p generalizing n with
  | zero => rfl
  | succ p ih => simp [lowDigits, ih]

theorem lowDigits_fold (p n a : Nat) :
    (lowDigits p n).foldl (fun a d => 10 * a + d) a = a * 10 ^ p + n % 10 ^ p := by
  induction p generalizing n with
  | zero => simp [lowDigits, Nat.mod_one]
  | succ p ih =>
    simp only [lowDigits, List.foldl_append, ih, List.foldl_cons, List.foldl_nil]
    have h1 : n % 10 ^ (p + 1) = 10 * (n / 10 % 10 ^ p) + n % 10 := by
      rw [pow_succ', Nat.mod_mul]
      ring
    rw [h1, pow_succ]
    ring

theorem digitChar_facts {d : Nat} (h : d < 10) : isDigit (digitChar d) = true ∧
    digitVal (digitChar d) = d ∧ isSpace (digitChar d) = false ∧ digitChar d ≠ ',' ∧
    digitChar d ≠ '-' ∧ digitChar d ≠ '+' ∧ digitChar d ≠ '.' ∧ (digitChar d).toLower ≠ 'n' ∧
    (digitChar d).toLower ≠ 'i' := by
  interval_cases d <;> decide

theorem ofDigits_map (l : List Nat) (h : ∀ d ∈ l, d < 10) (a : Nat) :
    (l.map digitChar).foldl (fun a c => 10 * a + digitVal c) a = l.foldl (fun a d => 10 * a + d) a := by
  induction l generalizing a with
  | nil => rfl
  | cons d l ih =>
    simp only [List.map_cons, List.foldl_cons, (digitChar_facts (h d (by simp))).2.1]
    exact ih (fun x hx => h x (by simp [hx])) _

theorem ofDigits_decimal (n : Nat) : ofDigits (decimal n) = n := by
  unfold ofDigits decimal
  rw [ofDigits_map _ (digits_lt n)]
  exact digitsAux_fold _ _ _ (by omega)

theorem decimal_chars (n : Nat) : ∀ c ∈ decimal n, ∃ d, d < 10 ∧ c = digitChar d := by
  intro c hc
  obtain ⟨d, hd, rfl⟩ := List.mem_map.mp hc
  exact ⟨d, digits_lt n d hd, rfl⟩

theorem decimal_cons (n : Nat) : ∃ d l, d < 10 ∧ decimal n = digitChar d :: l := by
  obtain ⟨d, l, hl⟩ := List.exists_cons_of_ne_nil (digitsAux_ne (n + 1) n [] (by omega))
  refine ⟨d, l.map digitChar, digits_lt n d ?_, ?_⟩
  · show d ∈ digitsAux _ _ _
    rw [hl]; simp
  · show (digitsAux _ _ _).map digitChar = _
    rw [hl]; rfl

theorem low_chars (p n : Nat) : ∀ c ∈ (lowDigits p n).map digitChar, ∃ d, d < 10 ∧ c = digitChar d := by
  intro c hc
  obtain ⟨d, hd, rfl⟩ := List.mem_map.mp hc
  exact ⟨d, lowDigits_lt p n d hd, rfl⟩

theorem ofDigits_fixed (p n : Nat) :
    ofDigits (decimal (n / 10 ^ p) ++ (lowDigits p n).map digitChar) = n := by
  have h1 := ofDigits_decimal (n / 10 ^ p)
  unfold ofDigits at h1 ⊢
  rw [List.foldl_append, h1, ofDigits_map _ (lowDigits_lt p n), lowDigits_fold]
  exact Nat.div_add_mod' n (10 ^ p)

/-! ## Nearest whole numbers -/

theorem floor_toNat {q : ℚ} (h : 0 ≤ q) : (q.floor.toNat : ℚ) ≤ q ∧ q < (q.floor.toNat : ℚ) + 1 := by
  have h0 : 0 ≤ ⌊q⌋ := Int.floor_nonneg.mpr h
  have e : ((q.floor.toNat : Nat) : ℚ) = ((⌊q⌋ : Int) : ℚ) := by
    have : ((q.floor.toNat : Nat) : Int) = ⌊q⌋ := Int.toNat_of_nonneg h0
    exact_mod_cast congrArg (fun z : Int => (z : ℚ)) this
  rw [e]
  exact ⟨Int.floor_le q, Int.lt_floor_add_one q⟩

theorem halfEven_near {q : ℚ} (h : 0 ≤ q) : |(halfEven q : ℚ) - q| ≤ 1 / 2 := by
  obtain ⟨h1, h2⟩ := floor_toNat h
  unfold halfEven
  simp only
  split_ifs with a b c
  · rw [abs_le]; constructor <;> linarith
  · push_cast; rw [abs_le]; constructor <;> linarith
  · rw [abs_le]; constructor <;> linarith
  · push_cast; rw [abs_le]; constructor <;> linarith

theorem halfEven_unique {q : ℚ} (h : 0 ≤ q) {n : Nat} (hn : |q - n| < 1 / 2) : halfEven q = n := by
  have := halfEven_near h
  rw [abs_le] at this
  rw [abs_lt] at hn
  have a : (halfEven q : ℚ) < n + 1 := by linarith [this.1, this.2, hn.1, hn.2]
  have b : (n : ℚ) < halfEven q + 1 := by linarith [this.1, this.2, hn.1, hn.2]
  have a' : halfEven q < n + 1 := by exact_mod_cast a
  have b' : n < halfEven q + 1 := by exact_mod_cast b
  omega

/-! ## Stripping and splitting -/

theorem strip_spaces (k : Nat) (t : List Char) (h : ∀ c ∈ t, isSpace c = false) :
    strip (List.replicate k ' ' ++ t) = t := by
  have h1 : (List.replicate k ' ' ++ t).dropWhile isSpace = t := by
    induction k with
    | zero =>
      cases t with
      | nil => rfl
      | cons c t =>
        simp [h c (by simp)]
    | succ k ih =>
      rw [List.replicate_succ, List.cons_append, List.dropWhile_cons_of_pos (by decide)]
      exact ih
  unfold strip
  rw [h1]
  have h2 : t.reverse.dropWhile isSpace = t.reverse := by
    cases hr : t.reverse with
    | nil => rfl
    | cons c r =>
      have : c ∈ t := by
        have : c ∈ t.reverse := by rw [hr]; simp
        simpa using this
      rw [List.dropWhile_cons_of_neg (by rw [h c this]; decide)]
  rw [h2, List.reverse_reverse]

theorem splitAt_last (c : Char) (l : List Char) (h : c ∉ l) : splitAt c l = [l] := by
  induction l with
  | nil => rfl
  | cons x l ih =>
    simp only [List.mem_cons, not_or] at h
    unfold splitAt
    rw [if_neg (Ne.symm h.1), ih h.2]

theorem splitAt_cons (c : Char) (l t : List Char) (h : c ∉ l) :
    splitAt c (l ++ c :: t) = l :: splitAt c t := by
  induction l with
  | nil => simp [splitAt]
  | cons x l ih =>
    simp only [List.mem_cons, not_or] at h
    rw [List.cons_append]
    conv_lhs => unfold splitAt
    rw [if_neg (Ne.symm h.1), ih h.2]

theorem linesOf_join (ls : List (List Char)) (h : ∀ l ∈ ls, '\n' ∉ l) : linesOf (joinLines ls) = ls := by
  have : splitAt '\n' (joinLines ls) = ls ++ [[]] := by
    induction ls with
    | nil => rfl
    | cons l ls ih =>
      show splitAt '\n' ((l ++ ['\n']) ++ joinLines ls) = _
      rw [List.append_assoc, List.singleton_append, splitAt_cons _ _ _ (h l (by simp)),
        ih fun x hx => h x (by simp [hx])]
      rfl
  unfold linesOf
  simp only [this, List.getLast?_concat, if_pos, List.dropLast_concat]

/-! ## One number -/

/-- What comes back from a printed number. -/
def readBack (rnd : ℚ → ℚ) (p : Nat) : Num → Num
  | .fin neg q => .fin neg (rnd ((halfEven (q * 10 ^ p) : ℚ) / 10 ^ p))
  | .nan => .nan
  | .inf neg => .inf neg

theorem takeSign_minus (neg : Bool) (c : Char) (t : List Char) (h1 : c ≠ '-') (h2 : c ≠ '+') :
    takeSign (minusSign neg ++ c :: t) = (neg, c :: t) := by
  cases neg
  · show takeSign (c :: t) = _
    unfold takeSign
    split
    · rename_i heq; simp only [List.cons.injEq] at heq; exact absurd heq.1 h1
    · rename_i heq; simp only [List.cons.injEq] at heq; exact absurd heq.1 h2
    · rfl
  · rfl

theorem minus_chars (neg : Bool) : ∀ c ∈ minusSign neg, c = '-' := by
  cases neg <;> simp [minusSign]

theorem fixed_nospace (p n : Nat) : ∀ c ∈ fixed p n, isSpace c = false ∧ c ≠ ',' := by
  intro c hc
  unfold fixed at hc
  rcases List.mem_append.mp hc with hc | hc
  · obtain ⟨d, hd, rfl⟩ := decimal_chars _ c hc
    exact ⟨(digitChar_facts hd).2.2.1, (digitChar_facts hd).2.2.2.1⟩
  · rcases List.mem_cons.mp hc with rfl | hc
    · decide
    · obtain ⟨d, hd, rfl⟩ := low_chars _ _ c hc
      exact ⟨(digitChar_facts hd).2.2.1, (digitChar_facts hd).2.2.2.1⟩

theorem takeWhile_all {l r : List Char} (h : ∀ c ∈ l, ∃ d, d < 10 ∧ c = digitChar d)
    (hr : r.takeWhile isDigit = []) :
    (l ++ r).takeWhile isDigit = l ∧ (l ++ r).dropWhile isDigit = r := by
  have hl : ∀ c ∈ l, isDigit c = true := by
    intro c hc
    obtain ⟨d, hd, rfl⟩ := h c hc
    exact (digitChar_facts hd).1
  constructor
  · rw [List.takeWhile_append_of_pos hl, hr, List.append_nil]
  · rw [List.dropWhile_append_of_pos hl]
    have := List.takeWhile_append_dropWhile (p := isDigit) (l := r)
    rw [hr] at this
    exact this

theorem parse_decimal (rnd : ℚ → ℚ) (k n : Nat) :
    parseFloat rnd (List.replicate k ' ' ++ decimal n) = .ok (.fin false (rnd n)) := by
  obtain ⟨d, l, hd, hl⟩ := decimal_cons n
  obtain ⟨_, _, _, _, f1, f2, f3, f4, f5⟩ := digitChar_facts hd
  have hs : strip (List.replicate k ' ' ++ decimal n) = decimal n := by
    refine strip_spaces k _ ?_
    intro c hc
    obtain ⟨d, hd, rfl⟩ := decimal_chars _ c hc
    exact (digitChar_facts hd).2.2.1
  have hsign : takeSign (decimal n) = (false, decimal n) := by
    rw [hl]
    exact takeSign_minus false _ _ f1 f2
  obtain ⟨t1, t2⟩ := takeWhile_all (r := []) (decimal_chars n) rfl
  rw [List.append_nil] at t1 t2
  have e : ofDigits (decimal n) = n := ofDigits_decimal n
  unfold parseFloat
  simp only [hs, hsign]
  rw [if_neg (by rw [hl]; simp [f4]), if_neg (by rw [hl]; simp [f5])]
  simp only [t1, t2]
  rw [if_neg (by rw [hl]; simp)]
  simp [expOf, e]

theorem parse_fmtF (rnd : ℚ → ℚ) (w p k : Nat) (x : Num) :
    parseFloat rnd (List.replicate k ' ' ++ fmtF w p x) = .ok (readBack rnd p x) := by
  have glue : ∀ (k j : Nat) (t : List Char), List.replicate k ' ' ++ (List.replicate j ' ' ++ t) =
      List.replicate (k + j) ' ' ++ t := by
    intro k j t
    rw [← List.append_assoc, List.replicate_append_replicate]
  cases x with
  | nan =>
    unfold fmtF padLeft
    rw [glue]
    unfold parseFloat
    rw [strip_spaces _ _ (by decide)]
    rfl
  | inf neg =>
    unfold fmtF padLeft
    rw [glue]
    unfold parseFloat
    rw [strip_spaces _ _ (by cases neg <;> decide)]
    cases neg <;> rfl
  | fin neg q =>
    set n := halfEven (q * 10 ^ p) with hn
    unfold fmtF padLeft
    rw [glue]
    obtain ⟨d, l, hd, hl⟩ := decimal_cons (n / 10 ^ p)
    obtain ⟨_, _, _, _, f1, f2, f3, f4, f5⟩ := digitChar_facts hd
    have hs := strip_spaces (k + (w - (minusSign neg ++ fixed p n).length)) (minusSign neg ++ fixed p n) (by
      intro c hc
      rcases List.mem_append.mp hc with hc | hc
      · rw [minus_chars neg c hc]; decide
      · exact (fixed_nospace p n c hc).1)
    have hf : fixed p n = digitChar d :: (l ++ '.' :: (lowDigits p n).map digitChar) := by
      unfold fixed
      rw [hl]; rfl
    have hsign : takeSign (minusSign neg ++ fixed p n) = (neg, fixed p n) := by
      rw [hf]
      exact takeSign_minus neg _ _ f1 f2
    obtain ⟨t1, t2⟩ := takeWhile_all (r := '.' :: (lowDigits p n).map digitChar)
      (decimal_chars (n / 10 ^ p)) (List.takeWhile_cons_of_neg (by decide))
    obtain ⟨t3, t4⟩ := takeWhile_all (r := []) (low_chars p n) rfl
    rw [List.append_nil] at t3 t4
    have t1' : (fixed p n).takeWhile isDigit = decimal (n / 10 ^ p) := t1
    have t2' : (fixed p n).dropWhile isDigit = '.' :: (lowDigits p n).map digitChar := t2
    unfold parseFloat
    simp only [← hn, hs, hsign]
    rw [if_neg (by rw [hf]; simp [f4]), if_neg (by rw [hf]; simp [f5])]
    simp only [t1', t2', t3, t4]
    rw [if_neg (by rw [hl]; simp)]
    simp only [expOf, readBack, ofDigits_fixed, List.length_map, lowDigits_length, zpow_zero, mul_one, hn]

theorem parseInt_decimal (n : Nat) : parseInt (decimal n) = .ok (n : Int) := by
  obtain ⟨d, l, hd, hl⟩ := decimal_cons n
  obtain ⟨_, _, _, _, f1, f2, _⟩ := digitChar_facts hd
  have hs : strip (decimal n) = decimal n := by
    refine strip_spaces 0 _ ?_
    intro c hc
    obtain ⟨d, hd, rfl⟩ := decimal_chars _ c hc
    exact (digitChar_facts hd).2.2.1
  have hsign : takeSign (decimal n) = (false, decimal n) := by
    rw [hl]
    exact takeSign_minus false _ _ f1 f2
  have hall : (decimal n).all isDigit = true := by
    rw [List.all_eq_true]
    intro c hc
    obtain ⟨d, hd, rfl⟩ := decimal_chars _ c hc
    exact (digitChar_facts hd).1
  unfold parseInt
  simp only [hs, hsign]
  rw [if_pos ⟨by rw [hl]; simp, hall⟩, ofDigits_decimal]
  rfl

/-! ## One row -/

theorem fmtF_chars (w p : Nat) (x : Num) : ',' ∉ fmtF w p x ∧ '\n' ∉ fmtF w p x := by
  have pad : ∀ (t : List Char) (c : Char), c ≠ ' ' → c ∉ t → c ∉ padLeft w t := by
    intro t c h1 h2 hc
    rcases List.mem_append.mp hc with hc | hc
    · exact h1 (List.eq_of_mem_replicate hc)
    · exact h2 hc
  cases x with
  | nan => exact ⟨pad _ _ (by decide) (by decide), pad _ _ (by decide) (by decide)⟩
  | inf neg =>
    exact ⟨pad _ _ (by decide) (by cases neg <;> decide), pad _ _ (by decide) (by cases neg <;> decide)⟩
  | fin neg q =>
    constructor
    · refine pad _ _ (by decide) ?_
      intro hc
      rcases List.mem_append.mp hc with hc | hc
      · exact absurd (minus_chars neg _ hc) (by decide)
      · exact (fixed_nospace _ _ _ hc).2 rfl
    · refine pad _ _ (by decide) ?_
      intro hc
      rcases List.mem_append.mp hc with hc | hc
      · exact absurd (minus_chars neg _ hc) (by decide)
      · exact absurd (fixed_nospace _ _ _ hc).1 (by decide)

theorem decimal_nochars (n : Nat) : ',' ∉ decimal n ∧ '\n' ∉ decimal n := by
  constructor
  · intro hc
    obtain ⟨d, hd, h⟩ := decimal_chars _ _ hc
    exact (digitChar_facts hd).2.2.2.1 h.symm
  · intro hc
    obtain ⟨d, hd, h⟩ := decimal_chars _ _ hc
    have := (digitChar_facts hd).2.2.1
    rw [← h] at this
    exact absurd this (by decide)

theorem fmtD_chars (w n : Nat) : ',' ∉ fmtD w n ∧ '\n' ∉ fmtD w n := by
  constructor
  · intro hc
    rcases List.mem_append.mp hc with hc | hc
    · exact absurd (List.eq_of_mem_replicate hc) (by decide)
    · exact (decimal_nochars n).1 hc
  · intro hc
    rcases List.mem_append.mp hc with hc | hc
    · exact absurd (List.eq_of_mem_replicate hc) (by decide)
    · exact (decimal_nochars n).2 hc

theorem rowText_noeol (i : Nat) (v : Num × Num × Num) : '\n' ∉ rowText i v := by
  intro hc
  simp only [rowText, List.mem_append, List.mem_cons, List.not_mem_nil, or_false] at hc
  have a := (fmtD_chars 4 i).2
  have b := (fmtF_chars 10 6 v.1).2
  have c := (fmtF_chars 10 6 v.2.1).2
  have d := (fmtF_chars 8 3 v.2.2).2
  have e : ¬ '\n' = ',' := by decide
  have f : ¬ '\n' = ' ' := by decide
  tauto

/-- The three numbers of a row as they are read. -/
def readRow (rnd : ℚ → ℚ) (v : Num × Num × Num) : Num × Num × Num :=
  (readBack rnd 6 v.1, readBack rnd 6 v.2.1, readBack rnd 3 v.2.2)

theorem parse_row (rnd : ℚ → ℚ) (i : Nat) (v : Num × Num × Num) :
    mapE (parseFloat rnd) (splitAt ',' (rowText i v)) =
      .ok [.fin false (rnd i), readBack rnd 6 v.1, readBack rnd 6 v.2.1, readBack rnd 3 v.2.2] := by
  have sp : ∀ (t : List Char), ',' ∉ t → ',' ∉ ' ' :: t := by
    intro t ht hc
    rcases List.mem_cons.mp hc with hc | hc
    · exact absurd hc (by decide)
    · exact ht hc
  have e : rowText i v = fmtD 4 i ++ ',' :: ((' ' :: fmtF 10 6 v.1) ++ ',' :: ((' ' :: fmtF 10 6 v.2.1) ++
      ',' :: (' ' :: fmtF 8 3 v.2.2))) := by
    simp [rowText]
  rw [e, splitAt_cons _ _ _ (fmtD_chars 4 i).1, splitAt_cons _ _ _ (sp _ (fmtF_chars _ _ _).1),
    splitAt_cons _ _ _ (sp _ (fmtF_chars _ _ _).1), splitAt_last _ _ (sp _ (fmtF_chars _ _ _).1)]
  have h1 : parseFloat rnd (fmtD 4 i) = .ok (.fin false (rnd i)) := parse_decimal rnd _ i
  have h2 : ∀ w p x, parseFloat rnd (' ' :: fmtF w p x) = .ok (readBack rnd p x) :=
    fun w p x => parse_fmtF rnd w p 1 x
  simp only [mapE, h1, h2]

theorem acc_ne_zero {rnd : ℚ → ℚ} {u : ℚ} (h : Accurate rnd u) (hu : u < 1) {x : ℚ} (hx : 0 < x) :
    0 < rnd x := by
  have := h x
  rw [abs_of_pos hx, abs_le] at this
  have : u * x < 1 * x := mul_lt_mul_of_pos_right hu hx
  linarith [this, (h x |> fun h => by rw [abs_of_pos hx, abs_le] at h; exact h.1)]

theorem acc_zero' {rnd : ℚ → ℚ} {u : ℚ} (h : Accurate rnd u) : rnd 0 = 0 := by
  have := h 0
  rw [abs_zero, mul_zero, sub_zero] at this
  exact abs_eq_zero.mp (le_antisymm this (abs_nonneg _))

theorem readRows_text {rnd : ℚ → ℚ} {u : ℚ} (h : Accurate rnd u) (hu : u < 1)
    (rows : List (Num × Num × Num)) (k : Nat) (t : List (List Char)) :
    readRowsT rnd ((rows.zipIdx k).map (fun r => rowText (r.2 + 1) r.1) ++
      rowText 0 (.fin false 0, .fin false 0, .fin false 0) :: t) = .ok (rows.map (readRow rnd), t) := by
  induction rows generalizing k with
  | nil =>
    have z : halfEven 0 = 0 := halfEven_unique le_rfl (by norm_num)
    have h0 := acc_zero' h
    simp only [List.zipIdx_nil, List.map_nil, List.nil_append, readRowsT, parse_row, Num.isZero, readBack,
      Nat.cast_zero, h0, zero_mul, z, zero_div, decide_true, Bool.and_self, if_true]
  | cons r rows ih =>
    have hpos : 0 < rnd ((k + 1 : Nat) : ℚ) := acc_ne_zero h hu (by exact_mod_cast Nat.succ_pos k)
    have hz : (Num.fin false (rnd ((k + 1 : Nat) : ℚ))).isZero = false := by
      simp only [Num.isZero, decide_eq_false_iff_not]
      exact ne_of_gt hpos
    rw [List.zipIdx_cons, List.map_cons, List.cons_append]
    unfold readRowsT
    rw [parse_row]
    simp only [hz, Bool.false_and]
    rw [ih (k + 1)]
    rfl

/-! ## Boundaries -/

/-- Loops through consecutive numbers. -/
def blocks (start : Nat) : List Nat → List (List Int)
  | [] => []
  | l :: ls => (List.range l).map (fun j : Nat => ((start + j : Nat) : Int)) :: blocks (start + l) ls

/-- The segments of a loop through `l` consecutive numbers. -/
def blockSegs (start l : Nat) : List (Int × Int) :=
  (List.range (l - 1)).map (fun j : Nat => ((start : Int) + j, (start : Int) + j + 1)) ++
    [((start : Int) + l - 1, (start : Int))]

/-- The segments of all loops. -/
def allSegs (start : Nat) : List Nat → List (Int × Int)
  | [] => []
  | l :: ls => blockSegs start l ++ allSegs (start + l) ls

theorem loopT_block (i : Option Int) (start l : Nat) (hl : 2 ≤ l) :
    loopT i start ((start + l : Nat) : Int) = .ok (blockSegs start l, (start : Int) + l - 2) := by
  have hk : (((start + l : Nat) : Int) - 1 - (start : Int)).toNat = l - 1 := by omega
  unfold loopT
  simp only [hk]
  rw [if_neg (by omega)]
  have e : (start : Int) + ((l - 1 : Nat) : Int) - 1 = (start : Int) + l - 2 := by omega
  simp only [e, blockSegs]
  rw [show (start : Int) + l - 2 + 1 = (start : Int) + l - 1 by ring]

theorem readBounds_text (bounds : List (List Int)) (hb : ∀ b ∈ bounds, 2 ≤ b.length) (i : Option Int)
    (start : Nat) (tl : List (List Char)) :
    readBoundsT bounds.length i start ((ends start bounds).map decimal ++ tl) =
      .ok (allSegs start (bounds.map List.length)) := by
  induction bounds generalizing i start with
  | nil => rfl
  | cons b bs ih =>
    simp only [List.length_cons, ends, List.map_cons, List.cons_append]
    unfold readBoundsT
    simp only [List.headD_cons, List.tail_cons, parseInt_decimal]
    rw [loopT_block i start b.length (hb b (by simp))]
    simp only
    rw [ih (fun x hx => hb x (by simp [hx]))]
    rfl

/-! ### Consecutive loops are found again -/

theorem segLe_of_lt {a b : Int × Int} (h : a.1 < b.1) : segLe a b = true := by
  simp [segLe, h]

theorem sortSegs_sorted (l : List (Int × Int)) (h : l.Pairwise fun a b => a.1 < b.1) : sortSegs l = l := by
  induction l with
  | nil => rfl
  | cons a l ih =>
    rw [List.pairwise_cons] at h
    unfold sortSegs
    rw [ih h.2]
    cases l with
    | nil => rfl
    | cons b l =>
      unfold insertSeg
      rw [if_pos (segLe_of_lt (h.1 b (by simp)))]

theorem blockSegs_fst (start l : Nat) (hl : 1 ≤ l) :
    (blockSegs start l).map Prod.fst = (List.range l).map fun j : Nat => ((start + j : Nat) : Int) := by
  obtain ⟨l, rfl⟩ : ∃ k, l = k + 1 := ⟨l - 1, by omega⟩
  unfold blockSegs
  rw [List.range_succ, List.map_append, List.map_append, List.map_map]
  congr 1
  simp
  omega

theorem allSegs_fst (start : Nat) (ls : List Nat) (hl : ∀ l ∈ ls, 1 ≤ l) :
    (allSegs start ls).map Prod.fst =
      (List.range ls.sum).map fun j : Nat => ((start + j : Nat) : Int) := by
  induction ls generalizing start with
  | nil => rfl
  | cons l ls ih =>
    rw [allSegs, List.map_append, blockSegs_fst _ _ (hl l (by simp)), ih _ fun x hx => hl x (by simp [hx]),
      List.sum_cons, List.range_add, List.map_append, List.map_map]
    congr 1
    refine List.map_congr_left fun j _ => ?_
    simp only [Function.comp, Nat.add_assoc]

theorem allSegs_sorted (start : Nat) (ls : List Nat) (hl : ∀ l ∈ ls, 1 ≤ l) :
    (allSegs start ls).Pairwise fun a b => a.1 < b.1 := by
  rw [← List.pairwise_map (f := Prod.fst) (R := fun a b : Int => a < b), allSegs_fst start ls hl,
    List.pairwise_map]
  refine List.Pairwise.imp ?_ List.pairwise_lt_range
  intro a b h
  omega

theorem grow_block (m : Nat) : ∀ (fuel start k : Nat) (mid : List Int) (rest : List (Int × Int)),
    m < fuel → mid = (List.range k).map (fun j : Nat => ((start + 1 + j : Nat) : Int)) →
    grow fuel ⟨start, mid, ((start + k + 1 : Nat) : Int)⟩
      ((List.range m).map (fun j : Nat => (((start + k + 1 + j : Nat) : Int), ((start + k + 2 + j : Nat) : Int))) ++
        (((start + k + 1 + m : Nat) : Int), (start : Int)) :: rest) =
      some (.ok (.closed ((List.range (k + m + 2)).map (fun j : Nat => ((start + j : Nat) : Int))), rest)) := by
  induction m with
  | zero =>
    intro fuel start k mid rest hf hmid
    obtain ⟨fuel, rfl⟩ : ∃ f, fuel = f + 1 := ⟨fuel - 1, by omega⟩
    simp only [List.range_zero, List.map_nil, List.nil_append, Nat.add_zero]
    unfold grow findSeg extend
    simp only [if_true]
    have e : (start : Int) :: (mid ++ [((start + k + 1 : Nat) : Int)]) =
        (List.range (k + 2)).map (fun j : Nat => ((start + j : Nat) : Int)) := by
      rw [List.range_succ, List.map_append, List.range_succ_eq_map, List.map_cons, List.map_map, hmid]
      simp only [List.cons_append, Nat.add_zero, List.map_cons, List.map_nil]
      congr 2
      · refine List.map_congr_left fun j _ => ?_
        simp only [Function.comp, Nat.succ_eq_add_one]
        omega
    rw [e]
  | succ m ih =>
    intro fuel start k mid rest hf hmid
    obtain ⟨fuel, rfl⟩ : ∃ f, fuel = f + 1 := ⟨fuel - 1, by omega⟩
    rw [List.range_succ_eq_map, List.map_cons, List.map_map, List.cons_append]
    unfold grow findSeg extend
    simp only [Nat.add_zero, if_true]
    rw [if_neg (by omega)]
    have := ih fuel start (k + 1) (mid ++ [((start + k + 1 : Nat) : Int)]) rest (by omega) (by
      rw [List.range_succ, List.map_append, hmid]
      simp only [List.map_cons, List.map_nil]
      congr 3
      omega)
    have e1 : (List.range m).map ((fun j : Nat => (((start + k + 1 + j : Nat) : Int), ((start + k + 2 + j : Nat) : Int))) ∘ Nat.succ) =
        (List.range m).map (fun j : Nat => (((start + (k + 1) + 1 + j : Nat) : Int), ((start + (k + 1) + 2 + j : Nat) : Int))) := by
      refine List.map_congr_left fun j _ => ?_
      simp only [Function.comp, Nat.succ_eq_add_one, Prod.mk.injEq]
      constructor <;> omega
    have e2 : start + k + 1 + (m + 1) = start + (k + 1) + 1 + m := by omega
    have e3 : k + (m + 1) + 2 = (k + 1) + m + 2 := by omega
    have e4 : start + k + 2 = start + (k + 1) + 1 := by omega
    rw [e1, e2, e3, e4]
    exact this

theorem chains_blocks (ls : List Nat) : ∀ (fuel start : Nat), (allSegs start ls).length ≤ fuel →
    (∀ l ∈ ls, 2 ≤ l) → chains fuel (allSegs start ls) = some (.ok (blocks start ls, [])) := by
  induction ls with
  | nil => intro fuel start _ _; cases fuel <;> rfl
  | cons l ls ih =>
    intro fuel start hf hl
    obtain ⟨k, rfl⟩ : ∃ k, l = k + 2 := ⟨l - 2, by have := hl l (by simp); omega⟩
    have e : allSegs start ((k + 2) :: ls) = ((start : Int), ((start + 1 : Nat) : Int)) ::
        ((List.range k).map (fun j : Nat => (((start + 0 + 1 + j : Nat) : Int), ((start + 0 + 2 + j : Nat) : Int))) ++
          (((start + 0 + 1 + k : Nat) : Int), (start : Int)) :: allSegs (start + (k + 2)) ls) := by
      show blockSegs start (k + 2) ++ allSegs (start + (k + 2)) ls = _
      unfold blockSegs
      rw [show k + 2 - 1 = k + 1 by omega, List.range_succ_eq_map]
      simp only [List.map_cons, List.map_map, List.cons_append, List.append_assoc, List.singleton_append,
        Nat.cast_zero, add_zero]
      congr 1
      congr 1
      · refine List.map_congr_left fun j _ => ?_
        simp only [Function.comp, Nat.succ_eq_add_one, Prod.mk.injEq]
        constructor <;> omega
      · simp only [List.nil_append]
        congr 2
        omega
    rw [e] at hf ⊢
    simp only [List.length_cons, List.length_append, List.length_map, List.length_range] at hf
    obtain ⟨fuel, rfl⟩ : ∃ f, fuel = f + 1 := ⟨fuel - 1, by omega⟩
    unfold chains
    have g := grow_block k (((List.range k).map (fun j : Nat => (((start + 0 + 1 + j : Nat) : Int), ((start + 0 + 2 + j : Nat) : Int))) ++
          (((start + 0 + 1 + k : Nat) : Int), (start : Int)) :: allSegs (start + (k + 2)) ls).length + 1) start 0 []
      (allSegs (start + (k + 2)) ls) (by simp; omega) rfl
    simp only [Nat.add_zero] at g
    simp only [Nat.add_zero]
    rw [g]
    simp only
    rw [ih fuel (start + (k + 2)) (by omega) fun x hx => hl x (by simp [hx])]
    simp only [blocks, Nat.zero_add]

theorem orderSegs_blocks (ls : List Nat) (hl : ∀ l ∈ ls, 2 ≤ l) :
    orderSegs (allSegs 0 ls) = some (.ok (blocks 0 ls, [])) := by
  unfold orderSegs
  rw [sortSegs_sorted _ (allSegs_sorted 0 ls fun l h => by have := hl l h; omega)]
  exact chains_blocks ls _ 0 le_rfl hl

theorem blocks_flatten (ls : List Nat) (start : Nat) :
    (blocks start ls).flatten = (List.range ls.sum).map fun j : Nat => ((start + j : Nat) : Int) := by
  induction ls generalizing start with
  | nil => rfl
  | cons l ls ih =>
    rw [blocks, List.flatten_cons, ih, List.sum_cons, List.range_add, List.map_append, List.map_map]
    congr 1
    refine List.map_congr_left fun j _ => ?_
    simp only [Function.comp, Nat.add_assoc]

theorem blocks_lengths (ls : List Nat) (start : Nat) : (blocks start ls).map List.length = ls := by
  induction ls generalizing start with
  | nil => rfl
  | cons l ls ih => simp [blocks, ih]

theorem ends_lengths (a b : List (List Int)) (h : a.map List.length = b.map List.length) (k : Nat) :
    ends k a = ends k b := by
  induction a generalizing b k with
  | nil =>
    cases b with
    | nil => rfl
    | cons y b => simp at h
  | cons x a ih =>
    cases b with
    | nil => simp at h
    | cons y b =>
      simp only [List.map_cons, List.cons.injEq] at h
      simp only [ends, h.1, ih b h.2]

theorem fileOrder_blocks (n : Nat) (ls : List Nat) (h : ls.sum ≤ n) :
    fileOrder n (blocks 0 ls) = (List.range n).map fun j : Nat => (j : Int) := by
  obtain ⟨k, rfl⟩ : ∃ k, n = ls.sum + k := ⟨n - ls.sum, by omega⟩
  unfold fileOrder
  rw [blocks_flatten, List.range_add, List.map_append, List.filter_append]
  simp only [Nat.zero_add]
  have h1 : ((List.range ls.sum).map fun j : Nat => (j : Int)).filter
      (fun j => decide (j ∉ (List.range ls.sum).map fun j : Nat => (j : Int))) = [] := by
    rw [List.filter_eq_nil_iff]
    intro a ha
    simp only [decide_eq_true_eq, not_not]
    exact ha
  have h2 : (((List.range k).map (ls.sum + ·)).map fun j : Nat => (j : Int)).filter
      (fun j => decide (j ∉ (List.range ls.sum).map fun j : Nat => (j : Int))) =
      ((List.range k).map (ls.sum + ·)).map fun j : Nat => (j : Int) := by
    rw [List.filter_eq_self]
    intro a ha
    simp only [List.mem_map, List.mem_range] at ha
    obtain ⟨b, ⟨c, hc, rfl⟩, rfl⟩ := ha
    simp only [decide_eq_true_eq, List.mem_map, List.mem_range, not_exists, not_and]
    intro x hx
    omega
  rw [h1, h2, List.nil_append]

end Verif.VerdatText
