import Verif.Lemmas.VerdatText
import Verif.Props.Verdat

/-!
# C183: verdat files written by other programs
-/

set_option autoImplicit false

namespace Verif
open Verdat Spec VerdatText
open Verif.DepthM (mapE)

/-! ## Numbers as they are written -/

/-- Decimal digits. -/
abbrev DigitsOf := List (Fin 10)

/-- The digits as text. -/
def digitsText (l : DigitsOf) : List Char := l.map fun d : Fin 10 => Nat.digitChar d.val

/-- The whole number they stand for. -/
def digitsValue (l : DigitsOf) : Nat := l.foldl (fun (a : Nat) (d : Fin 10) => 10 * a + d.val) 0

/-- A sign. -/
inductive Mark where
  | absent
  | minus
  | plus
  deriving DecidableEq

def Mark.text : Mark → List Char
  | .absent => []
  | .minus => ['-']
  | .plus => ['+']

def Mark.negative : Mark → Bool
  | .minus => true
  | _ => false

/-- The power of ten after a number: `e` or `E`, a sign and digits. -/
structure Power where
  capital : Bool
  mark : Mark
  digits : DigitsOf

def Power.text (x : Power) : List Char :=
  (if x.capital then 'E' else 'e') :: (x.mark.text ++ digitsText x.digits)

def Power.value (x : Power) : Int :=
  if x.mark.negative then -(digitsValue x.digits : Int) else digitsValue x.digits

/-- A number in a file: `  -12.5e-3 `. -/
structure Numeral where
  before : Nat := 0
  mark : Mark := .absent
  whole : DigitsOf
  fraction : Option DigitsOf := none
  power : Option Power := none
  after : Nat := 0

/-- Digits before or after the point, and digits in the power. -/
def Numeral.Good (x : Numeral) : Prop :=
  (x.whole ≠ [] ∨ ∃ f, x.fraction = some f ∧ f ≠ []) ∧ ∀ p, x.power = some p → p.digits ≠ []

/-- The fraction, if any, as text and as a number. -/
def fractionText : Option DigitsOf → List Char
  | none => []
  | some f => '.' :: digitsText f

def fractionSize : Option DigitsOf → ℚ
  | none => 0
  | some f => (digitsValue f : ℚ) / 10 ^ f.length

/-- The power, if any, as text and as a number. -/
def powerText : Option Power → List Char
  | none => []
  | some p => p.text

def powerSize : Option Power → ℚ
  | none => 1
  | some p => (10 : ℚ) ^ p.value

/-- Without spaces and sign. -/
def Numeral.body (x : Numeral) : List Char :=
  digitsText x.whole ++ (fractionText x.fraction ++ powerText x.power)

def Numeral.text (x : Numeral) : List Char :=
  List.replicate x.before ' ' ++ (x.mark.text ++ x.body) ++ List.replicate x.after ' '

/-- The size of the number. -/
def Numeral.size (x : Numeral) : ℚ :=
  ((digitsValue x.whole : ℚ) + fractionSize x.fraction) * powerSize x.power

/-- The double it reads as. -/
def Numeral.num (rnd : ℚ → ℚ) (x : Numeral) : Num := .fin x.mark.negative (rnd x.size)

/-! ### Lemmas -/

private theorem digitsText_eq (l : DigitsOf) :
    digitsText l = (l.map fun d : Fin 10 => d.val).map VerdatText.digitChar := by
  have : ∀ d : Fin 10, Nat.digitChar d.val = VerdatText.digitChar d.val := by decide
  unfold digitsText
  rw [List.map_map]
  exact List.map_congr_left fun d _ => this d

private theorem digitsText_chars (l : DigitsOf) :
    ∀ c ∈ digitsText l, ∃ d, d < 10 ∧ c = VerdatText.digitChar d := by
  rw [digitsText_eq]
  intro c hc
  obtain ⟨d, hd, rfl⟩ := List.mem_map.mp hc
  obtain ⟨e, _, rfl⟩ := List.mem_map.mp hd
  exact ⟨e, e.2, rfl⟩

private theorem digitsText_ne {l : DigitsOf} : digitsText l = [] ↔ l = [] := by
  unfold digitsText
  exact List.map_eq_nil_iff

private theorem ofDigits_text (l : DigitsOf) : ofDigits (digitsText l) = digitsValue l := by
  rw [digitsText_eq]
  unfold ofDigits
  rw [ofDigits_map _ (by
    intro d hd
    obtain ⟨e, _, rfl⟩ := List.mem_map.mp hd
    exact e.2), List.foldl_map]
  rfl

private theorem fold_shift (l : DigitsOf) (a : Nat) :
    l.foldl (fun (a : Nat) (d : Fin 10) => 10 * a + d.val) a = a * 10 ^ l.length + digitsValue l := by
  unfold digitsValue
  induction l generalizing a with
  | nil => simp
  | cons d l ih =>
    rw [List.foldl_cons, List.foldl_cons, ih, ih (10 * 0 + d.val), List.length_cons, pow_succ]
    ring

private theorem digitsValue_append (a b : DigitsOf) :
    digitsValue (a ++ b) = digitsValue a * 10 ^ b.length + digitsValue b := by
  conv_lhs => unfold digitsValue
  rw [List.foldl_append, fold_shift]
  rfl

/-- A letter, digit, sign or point. -/
private def Inside (c : Char) : Prop := isSpace c = false ∧ c ≠ ','

private theorem digits_inside (l : DigitsOf) : ∀ c ∈ digitsText l, Inside c := by
  intro c hc
  obtain ⟨d, hd, rfl⟩ := digitsText_chars l c hc
  exact ⟨(digitChar_facts hd).2.2.1, (digitChar_facts hd).2.2.2.1⟩

private theorem mark_inside (m : Mark) : ∀ c ∈ m.text, Inside c := by
  cases m <;> simp [Mark.text, Inside] <;> decide

private theorem power_inside (p : Power) : ∀ c ∈ p.text, Inside c := by
  intro c hc
  unfold Power.text at hc
  rcases List.mem_cons.mp hc with rfl | hc
  · unfold Inside
    cases p.capital <;> decide
  · rcases List.mem_append.mp hc with hc | hc
    · exact mark_inside _ c hc
    · exact digits_inside _ c hc

private theorem body_inside (x : Numeral) : ∀ c ∈ x.mark.text ++ x.body, Inside c := by
  intro c hc
  rcases List.mem_append.mp hc with hc | hc
  · exact mark_inside _ c hc
  unfold Numeral.body at hc
  rcases List.mem_append.mp hc with hc | hc
  · exact digits_inside _ c hc
  unfold fractionText powerText at hc
  rcases List.mem_append.mp hc with hc | hc
  · split at hc
    · simp at hc
    · rcases List.mem_cons.mp hc with rfl | hc
      · unfold Inside; decide
      · exact digits_inside _ c hc
  · split at hc
    · simp at hc
    · exact power_inside _ c hc

private theorem strip_both (a b : Nat) (t : List Char) (h : ∀ c ∈ t, isSpace c = false) (hne : t ≠ []) :
    strip (List.replicate a ' ' ++ t ++ List.replicate b ' ') = t := by
  have h1 : ∀ k (u : List Char) (c : Char), isSpace c = false →
      (List.replicate k ' ' ++ c :: u).dropWhile isSpace = c :: u := by
    intro k u c hc
    induction k with
    | zero => simp [hc]
    | succ k ih =>
      rw [List.replicate_succ, List.cons_append, List.dropWhile_cons_of_pos (by decide)]
      exact ih
  obtain ⟨c, u, rfl⟩ := List.exists_cons_of_ne_nil hne
  unfold strip
  rw [List.append_assoc, List.cons_append, h1 a _ c (h c (by simp)), ← List.cons_append,
    List.reverse_append, List.reverse_replicate]
  obtain ⟨e, v, hv⟩ := List.exists_cons_of_ne_nil (l := (c :: u).reverse) (by simp)
  rw [hv, h1 b v e (h e (by
    have : e ∈ (c :: u).reverse := by rw [hv]; simp
    exact List.mem_reverse.mp this)), ← hv, List.reverse_reverse]

private theorem takeSign_mark (m : Mark) (c : Char) (t : List Char) (h1 : c ≠ '-') (h2 : c ≠ '+') :
    takeSign (m.text ++ c :: t) = (m.negative, c :: t) := by
  cases m
  · exact takeSign_minus false c t h1 h2
  · rfl
  · rfl

private theorem takeSign_digits (m : Mark) (l : DigitsOf) (h : l ≠ []) :
    takeSign (m.text ++ digitsText l) = (m.negative, digitsText l) := by
  obtain ⟨c, u, hc⟩ := List.exists_cons_of_ne_nil (l := digitsText l) (by rwa [ne_eq, digitsText_ne])
  obtain ⟨d, hd, rfl⟩ := digitsText_chars l c (by rw [hc]; simp)
  rw [hc]
  exact takeSign_mark m _ u (digitChar_facts hd).2.2.2.2.1 (digitChar_facts hd).2.2.2.2.2.1

private theorem digits_all (l : DigitsOf) : (digitsText l).all isDigit = true := by
  rw [List.all_eq_true]
  intro c hc
  obtain ⟨d, hd, rfl⟩ := digitsText_chars l c hc
  exact (digitChar_facts hd).1

private theorem exp_power (p : Power) (h : p.digits ≠ []) : expOf p.text = some p.value := by
  unfold Power.text expOf
  simp only
  rw [if_pos (by cases p.capital <;> simp)]
  simp only [takeSign_digits p.mark p.digits h]
  rw [if_pos ⟨by rwa [ne_eq, digitsText_ne], digits_all _⟩, ofDigits_text]
  rfl

private theorem tail_exp (x : Option Power) (h : ∀ p, x = some p → p.digits ≠ []) :
    ∃ e : Int, expOf (powerText x) = some e ∧
      powerSize x = (10 : ℚ) ^ e := by
  cases x with
  | none => exact ⟨0, rfl, by simp [powerSize]⟩
  | some p => exact ⟨p.value, exp_power p (h p rfl), rfl⟩

private theorem tail_stop (x : Option Power) : (powerText x).takeWhile isDigit = [] := by
  cases x with
  | none => rfl
  | some p =>
    show (Power.text p).takeWhile isDigit = []
    unfold Power.text
    cases p.capital
    · exact List.takeWhile_cons_of_neg (by decide)
    · exact List.takeWhile_cons_of_neg (by decide)

private theorem tail_forms (x : Option Power) :
    powerText x = [] ∨ (∃ t, powerText x = 'e' :: t) ∨ ∃ t, powerText x = 'E' :: t := by
  cases x with
  | none => exact .inl rfl
  | some p =>
    obtain ⟨c, m, l⟩ := p
    cases c
    · exact .inr (.inl ⟨_, rfl⟩)
    · exact .inr (.inr ⟨_, rfl⟩)

/-- The first character of a number is a digit or the point. -/
private theorem body_head (x : Numeral) (h : x.Good) : ∃ c t, x.body = c :: t ∧ c ≠ '-' ∧ c ≠ '+' ∧
    c.toLower ≠ 'n' ∧ c.toLower ≠ 'i' := by
  cases hw : x.whole with
  | cons d l =>
    obtain ⟨c, u, hc⟩ := List.exists_cons_of_ne_nil (l := digitsText x.whole) (by
      rw [ne_eq, digitsText_ne, hw]; simp)
    obtain ⟨d, hd, rfl⟩ := digitsText_chars x.whole c (by rw [hc]; simp)
    obtain ⟨_, _, _, _, f1, f2, f3, f4, f5⟩ := digitChar_facts hd
    refine ⟨_, u ++ (fractionText x.fraction ++ powerText x.power), ?_, f1, f2, f4, f5⟩
    unfold Numeral.body
    rw [hc]
    rfl
  | nil =>
    rcases h.1 with h0 | ⟨f, hf, hne⟩
    · exact absurd hw h0
    · refine ⟨'.', digitsText f ++ powerText x.power, ?_, by decide, by decide, by decide, by decide⟩
      unfold Numeral.body
      rw [hw, hf]
      rfl

/-- **C183.** A decimal number, with or without a sign, a fraction, a power of ten and spaces around
it, reads as the double nearest to what it says. -/
theorem C183_numbers (rnd : ℚ → ℚ) (x : Numeral) (h : x.Good) :
    parseFloat rnd x.text = .ok (x.num rnd) := by
  obtain ⟨c, t, hb, f1, f2, f4, f5⟩ := body_head x h
  have hs : strip x.text = x.mark.text ++ x.body :=
    strip_both _ _ _ (fun c hc => (body_inside x c hc).1) (by rw [hb]; simp)
  have hsign : takeSign (x.mark.text ++ x.body) = (x.mark.negative, x.body) := by
    rw [hb]
    exact takeSign_mark _ _ _ f1 f2
  obtain ⟨e, he, hv⟩ := tail_exp x.power h.2
  unfold parseFloat
  simp only [hs, hsign]
  rw [if_neg (by rw [hb]; simp [f4]), if_neg (by rw [hb]; simp [f5])]
  cases hf : x.fraction with
  | none =>
    have hbody : x.body = digitsText x.whole ++ powerText x.power := by
      unfold Numeral.body
      rw [hf]
      rfl
    have hw : x.whole ≠ [] := by
      rcases h.1 with h0 | ⟨f, h0, _⟩
      · exact h0
      · rw [hf] at h0; cases h0
    obtain ⟨t1, t2⟩ := takeWhile_all (r := powerText x.power) (digitsText_chars x.whole) (tail_stop _)
    rw [← hbody] at t1 t2
    have hsz : x.size = (ofDigits (digitsText x.whole ++ []) : ℚ) / 10 ^ ([] : List Char).length *
        (10 : ℚ) ^ e := by
      rw [List.append_nil, ofDigits_text]
      simp only [Numeral.size, fractionSize, hf, hv, List.length_nil, pow_zero, div_one, add_zero]
    unfold Numeral.num
    rw [hsz]
    rcases tail_forms x.power with h0 | ⟨t, h0⟩ | ⟨t, h0⟩ <;>
    · rw [h0] at t2 he
      simp only [t1, t2]
      rw [if_neg (by
        rintro ⟨h1, _⟩
        exact hw (digitsText_ne.1 h1))]
      refine Eq.trans (b := match (some e) with
        | none => Except.error Err.valueError
        | some x_1 => Except.ok (Num.fin x.mark.negative (rnd ((ofDigits (digitsText x.whole ++ []) : ℚ) /
            10 ^ ([] : List Char).length * (10 : ℚ) ^ x_1)))) ?_ rfl
      rw [← he]
      rfl
  | some f =>
    have hbody : x.body = digitsText x.whole ++ '.' :: (digitsText f ++ powerText x.power) := by
      unfold Numeral.body
      rw [hf]
      rfl
    obtain ⟨t1, t2⟩ := takeWhile_all (r := '.' :: (digitsText f ++ powerText x.power))
      (digitsText_chars x.whole) (List.takeWhile_cons_of_neg (by decide))
    obtain ⟨t3, t4⟩ := takeWhile_all (r := powerText x.power) (digitsText_chars f) (tail_stop _)
    rw [← hbody] at t1 t2
    simp only [t1, t2, t3, t4, he]
    have happ : digitsText x.whole ++ digitsText f = digitsText (x.whole ++ f) := by simp [digitsText]
    have hlen : (digitsText f).length = f.length := by simp [digitsText]
    have hval : ((digitsValue (x.whole ++ f) : Nat) : ℚ) / 10 ^ f.length =
        (digitsValue x.whole : ℚ) + (digitsValue f : ℚ) / 10 ^ f.length := by
      rw [digitsValue_append]
      push_cast
      field_simp
    rw [if_neg (by
      rw [digitsText_ne, digitsText_ne]
      rintro ⟨h1, h2⟩
      rcases h.1 with h0 | ⟨g, h0, h3⟩
      · exact h0 h1
      · rw [hf] at h0; cases h0; exact h3 h2), happ, ofDigits_text, hlen, hval]
    simp only [Numeral.num, Numeral.size, fractionSize, hf, hv]

/-- White space of ASCII. -/
def whiteSpace : List Char :=
  [Char.ofNat 32, Char.ofNat 9, Char.ofNat 10, Char.ofNat 11, Char.ofNat 12, Char.ofNat 13]

private theorem drop_white (a t : List Char) (h : ∀ c ∈ a, isSpace c = true) :
    (a ++ t).dropWhile isSpace = t.dropWhile isSpace := by
  induction a with
  | nil => rfl
  | cons c a ih =>
    rw [List.cons_append, List.dropWhile_cons_of_pos (h c (by simp))]
    exact ih fun c hc => h c (by simp [hc])

/-- **C183.** White space around a text makes no difference to what it reads as, or to whether it
reads. -/
theorem C183_white_space (rnd : ℚ → ℚ) (a t b : List Char) (ha : ∀ c ∈ a, c ∈ whiteSpace)
    (hb : ∀ c ∈ b, c ∈ whiteSpace) : parseFloat rnd (a ++ t ++ b) = parseFloat rnd t := by
  have hw : ∀ c ∈ whiteSpace, isSpace c = true := by decide
  have hs : strip (a ++ t ++ b) = strip t := by
    unfold strip
    rw [List.append_assoc, drop_white a _ fun c hc => hw c (ha c hc), List.dropWhile_append]
    split
    · rename_i h
      rw [List.isEmpty_iff] at h
      rw [h]
      have := drop_white b [] fun c hc => hw c (hb c hc)
      rw [List.append_nil] at this
      rw [this]
      rfl
    · rw [List.reverse_append, drop_white b.reverse _ fun c hc => hw c (hb c (List.mem_reverse.mp hc))]
  unfold parseFloat
  rw [hs]

/-- A number between tabs and a form feed. -/
example : parseFloat id ['\t', '\x0c', '-', '2', '.', '5', '\x0b', '\r'] = .ok (.fin true (5 / 2)) ∧
    ∀ c ∈ ['\t', '\x0c'], c ∈ whiteSpace := by
  refine ⟨by decide +kernel, by decide⟩

/-- `nan`, `inf` or `infinity` in small or capital letters, after a sign. -/
structure SpecialWord where
  before : Nat := 0
  mark : Mark := .absent
  letters : List (Char × Bool)
  after : Nat := 0

/-- The letters of the word; those marked are capitals. -/
def SpecialWord.body (x : SpecialWord) : List Char := x.letters.map fun p => if p.2 then p.1.toUpper else p.1

def SpecialWord.text (x : SpecialWord) : List Char :=
  List.replicate x.before ' ' ++ (x.mark.text ++ x.body) ++ List.replicate x.after ' '

def SpecialWord.IsNan (x : SpecialWord) : Prop := x.letters.map Prod.fst = "nan".toList

def SpecialWord.IsInf (x : SpecialWord) : Prop :=
  x.letters.map Prod.fst = "inf".toList ∨ x.letters.map Prod.fst = "infinity".toList

private theorem letter_facts {c : Char} (b : Bool) (h : c ∈ "nanifinity".toList) :
    Inside (if b then c.toUpper else c) ∧ (if b then c.toUpper else c).toLower = c ∧
    (if b then c.toUpper else c) ≠ '-' ∧ (if b then c.toUpper else c) ≠ '+' ∧
    (if b then c.toUpper else c) ≠ '\n' := by
  have h' : c ∈ ['n', 'a', 'n', 'i', 'f', 'i', 'n', 'i', 't', 'y'] := h
  unfold Inside
  simp only [List.mem_cons, List.not_mem_nil, or_false] at h'
  rcases h' with rfl | rfl | rfl | rfl | rfl | rfl | rfl | rfl | rfl | rfl <;> cases b <;> decide

private theorem word_facts (x : SpecialWord) (h : x.IsNan ∨ x.IsInf) :
    (∀ p ∈ x.letters, p.1 ∈ "nanifinity".toList) ∧ x.letters ≠ [] := by
  have hl : ∀ w : String, (∀ c ∈ w.toList, c ∈ "nanifinity".toList) → w.toList ≠ [] →
      x.letters.map Prod.fst = w.toList → (∀ p ∈ x.letters, p.1 ∈ "nanifinity".toList) ∧ x.letters ≠ [] := by
    intro w hw hne he
    refine ⟨fun p hp => hw _ (by rw [← he]; exact List.mem_map_of_mem hp), ?_⟩
    intro h0
    rw [h0] at he
    exact hne he.symm
  rcases h with h | h | h
  · exact hl _ (by decide) (by decide) h
  · exact hl _ (by decide) (by decide) h
  · exact hl _ (by decide) (by decide) h

private theorem word_body (x : SpecialWord) (h : x.IsNan ∨ x.IsInf) :
    x.body.map Char.toLower = x.letters.map Prod.fst := by
  unfold SpecialWord.body
  rw [List.map_map]
  exact List.map_congr_left fun p hp => (letter_facts p.2 ((word_facts x h).1 p hp)).2.1

private theorem word_inside (x : SpecialWord) (h : x.IsNan ∨ x.IsInf) :
    ∀ c ∈ x.mark.text ++ x.body, Inside c := by
  intro c hc
  rcases List.mem_append.mp hc with hc | hc
  · exact mark_inside _ c hc
  · obtain ⟨p, hp, rfl⟩ := List.mem_map.mp hc
    exact (letter_facts p.2 ((word_facts x h).1 p hp)).1

private theorem word_sign (x : SpecialWord) (h : x.IsNan ∨ x.IsInf) :
    takeSign (strip x.text) = (x.mark.negative, x.body) := by
  obtain ⟨hl, hne⟩ := word_facts x h
  obtain ⟨p, l, hpl⟩ := List.exists_cons_of_ne_nil hne
  have hb : x.body = (if p.2 then p.1.toUpper else p.1) :: l.map fun p => if p.2 then p.1.toUpper else p.1 := by
    unfold SpecialWord.body
    rw [hpl]
    rfl
  have hf := letter_facts p.2 (hl p (by rw [hpl]; simp))
  have hs : strip x.text = x.mark.text ++ x.body :=
    strip_both _ _ _ (fun c hc => (word_inside x h c hc).1) (by rw [hb]; simp)
  rw [hs, hb]
  exact takeSign_mark _ _ _ hf.2.2.1 hf.2.2.2.1

/-- **C183.** The words for what is not a number and for infinities read as those. -/
theorem C183_words (rnd : ℚ → ℚ) (x : SpecialWord) :
    (x.IsNan → parseFloat rnd x.text = .ok .nan) ∧
    (x.IsInf → parseFloat rnd x.text = .ok (.inf x.mark.negative)) := by
  constructor
  · intro h
    unfold parseFloat
    simp only [word_sign x (.inl h), word_body x (.inl h)]
    exact if_pos h
  · intro h
    unfold parseFloat
    simp only [word_sign x (.inr h), word_body x (.inr h)]
    rw [if_neg (by
      intro h0
      rcases h with h | h <;> rw [h] at h0 <;> exact absurd h0 (by decide))]
    exact if_pos h

/-- What may stand between the commas. -/
inductive Entry where
  | numeral (x : Numeral)
  | word (x : SpecialWord)

def Entry.text : Entry → List Char
  | .numeral x => x.text
  | .word x => x.text

def Entry.Good : Entry → Prop
  | .numeral x => x.Good
  | .word x => x.IsNan ∨ x.IsInf

/-- A number that is zero, however it is written. -/
def Entry.Zero : Entry → Prop
  | .numeral x => x.size = 0
  | .word _ => False

/-- The double an entry reads as. -/
def Entry.num (rnd : ℚ → ℚ) : Entry → Num
  | .numeral x => x.num rnd
  | .word x => if x.letters.map Prod.fst = "nan".toList then .nan else .inf x.mark.negative

private theorem parse_entry (rnd : ℚ → ℚ) (x : Entry) (h : x.Good) : parseFloat rnd x.text = .ok (x.num rnd) := by
  cases x with
  | numeral x => exact C183_numbers rnd x h
  | word x =>
    unfold Entry.num
    rcases h with h | h
    · have h0 : x.letters.map Prod.fst = "nan".toList := h
      simp only [if_pos h0]
      exact (C183_words rnd x).1 h
    · have : ¬ x.letters.map Prod.fst = "nan".toList := by
        intro h0
        rcases h with h | h <;> rw [h] at h0 <;> exact absurd h0 (by decide)
      simp only [if_neg this]
      exact (C183_words rnd x).2 h

/-! ## Files -/

/-- A row of a file: the number of the point, two coordinates and the depth. -/
structure PointRow where
  index : Entry
  x : Entry
  y : Entry
  depth : Entry

def PointRow.text (r : PointRow) : List Char :=
  r.index.text ++ ',' :: (r.x.text ++ ',' :: (r.y.text ++ ',' :: r.depth.text))

def PointRow.Good (r : PointRow) : Prop := r.index.Good ∧ r.x.Good ∧ r.y.Good ∧ r.depth.Good

/-- All four numbers are zero, however they are written. -/
def PointRow.Zeros (r : PointRow) : Prop :=
  r.index.Zero ∧ r.x.Zero ∧ r.y.Zero ∧ r.depth.Zero

/-- A whole number on a line of its own. -/
structure Whole where
  before : Nat := 0
  digits : DigitsOf
  after : Nat := 0

def Whole.text (w : Whole) : List Char :=
  List.replicate w.before ' ' ++ digitsText w.digits ++ List.replicate w.after ' '

/-- `ws` are the numbers of the last points of loops of the given sizes, counted from 1, when the loops
take the points in order. -/
def EndsAt (start : Nat) : List Nat → List Whole → Prop
  | [], ws => ws = []
  | l :: ls, ws => ∃ w t, ws = w :: t ∧ w.digits ≠ [] ∧ digitsValue w.digits = start + l ∧
      EndsAt (start + l) ls t

/-- The points of the loops, counted from 0. -/
def loopsFrom (start : Nat) : List Nat → List (List Int)
  | [] => []
  | l :: ls => (List.range l).map (fun j => ((start + j : Nat) : Int)) :: loopsFrom (start + l) ls

/-- A verdat file: a first line, the points, a row of zeros, the number of loops, their ends, and
anything. -/
def fileText (header : List Char) (rows : List PointRow) (zeros : PointRow) (count : Whole) (ends : List Whole)
    (rest : List (List Char)) : List Char :=
  ((header :: rows.map PointRow.text) ++ zeros.text :: count.text :: (ends.map Whole.text ++ rest)).flatMap
    fun l => l ++ ['\n']

/-! ### Lemmas -/

private theorem numeral_chars (x : Numeral) : ',' ∉ x.text ∧ '\n' ∉ x.text := by
  have h1 : ∀ c ∈ x.text, c = ' ' ∨ Inside c := by
    intro c hc
    unfold Numeral.text at hc
    rcases List.mem_append.mp hc with hc | hc
    · rcases List.mem_append.mp hc with hc | hc
      · exact .inl (List.eq_of_mem_replicate hc)
      · exact .inr (body_inside x c hc)
    · exact .inl (List.eq_of_mem_replicate hc)
  constructor
  · intro hc
    rcases h1 _ hc with h | h
    · exact absurd h (by decide)
    · exact h.2 rfl
  · intro hc
    rcases h1 _ hc with h | h
    · exact absurd h (by decide)
    · exact absurd h.1 (by decide)

private theorem entry_chars (x : Entry) (h : x.Good) : ',' ∉ x.text ∧ '\n' ∉ x.text := by
  cases x with
  | numeral x => exact numeral_chars x
  | word x =>
    have h1 : ∀ c ∈ x.text, c = ' ' ∨ Inside c := by
      intro c hc
      unfold SpecialWord.text at hc
      rcases List.mem_append.mp hc with hc | hc
      · rcases List.mem_append.mp hc with hc | hc
        · exact .inl (List.eq_of_mem_replicate hc)
        · exact .inr (word_inside x h c hc)
      · exact .inl (List.eq_of_mem_replicate hc)
    constructor
    · intro hc
      rcases h1 _ hc with h | h
      · exact absurd h (by decide)
      · exact h.2 rfl
    · intro hc
      rcases h1 _ hc with h | h
      · exact absurd h (by decide)
      · exact absurd h.1 (by decide)

private theorem row_noeol (r : PointRow) (h : r.Good) : '\n' ∉ r.text := by
  unfold PointRow.text
  simp [(entry_chars r.index h.1).2, (entry_chars r.x h.2.1).2, (entry_chars r.y h.2.2.1).2,
    (entry_chars r.depth h.2.2.2).2]

private theorem whole_noeol (w : Whole) : '\n' ∉ w.text := by
  have : '\n' ∉ digitsText w.digits := fun hc => absurd (digits_inside _ _ hc).1 (by decide)
  unfold Whole.text
  simp [this, List.mem_replicate]

private theorem parse_rowOf (rnd : ℚ → ℚ) (r : PointRow) (h : r.Good) :
    mapE (parseFloat rnd) (splitAt ',' r.text) =
      .ok [r.index.num rnd, r.x.num rnd, r.y.num rnd, r.depth.num rnd] := by
  unfold PointRow.text
  rw [splitAt_cons _ _ _ (entry_chars _ h.1).1, splitAt_cons _ _ _ (entry_chars _ h.2.1).1,
    splitAt_cons _ _ _ (entry_chars _ h.2.2.1).1, splitAt_last _ _ (entry_chars _ h.2.2.2).1]
  simp only [mapE, parse_entry rnd _ h.1, parse_entry rnd _ h.2.1, parse_entry rnd _ h.2.2.1,
    parse_entry rnd _ h.2.2.2]

private theorem size_nonneg (x : Numeral) : 0 ≤ x.size := by
  unfold Numeral.size fractionSize powerSize
  refine mul_nonneg (add_nonneg (Nat.cast_nonneg _) ?_) ?_
  · cases x.fraction with
    | none => exact le_rfl
    | some f => exact div_nonneg (Nat.cast_nonneg _) (by positivity)
  · cases x.power with
    | none => norm_num
    | some p => exact zpow_nonneg (by norm_num) _

private theorem num_zero {rnd : ℚ → ℚ} {u : ℚ} (h : Accurate rnd u) (hu : u < 1) (x : Numeral) :
    (x.num rnd).isZero = true ↔ x.size = 0 := by
  simp only [Numeral.num, Num.isZero, decide_eq_true_eq]
  constructor
  · intro h0
    by_contra hne
    have := acc_ne_zero h hu (lt_of_le_of_ne (size_nonneg x) (Ne.symm hne))
    rw [h0] at this
    exact lt_irrefl _ this
  · intro h0
    rw [h0]
    exact acc_zero' h

private theorem entry_zero {rnd : ℚ → ℚ} {u : ℚ} (h : Accurate rnd u) (hu : u < 1) (x : Entry) :
    (x.num rnd).isZero = true ↔ x.Zero := by
  cases x with
  | numeral x => exact num_zero h hu x
  | word x =>
    simp only [Entry.num, Entry.Zero]
    split_ifs <;> simp [Num.isZero]

private theorem zeros_iff {rnd : ℚ → ℚ} {u : ℚ} (h : Accurate rnd u) (hu : u < 1) (r : PointRow) :
    ((r.index.num rnd).isZero && (r.x.num rnd).isZero && (r.y.num rnd).isZero &&
      (r.depth.num rnd).isZero) = true ↔ r.Zeros := by
  simp only [Bool.and_eq_true, entry_zero h hu, PointRow.Zeros, and_assoc]

private theorem read_rows {rnd : ℚ → ℚ} {u : ℚ} (h : Accurate rnd u) (hu : u < 1) (rows : List PointRow)
    (zeros : PointRow) (hr : ∀ r ∈ rows, r.Good ∧ ¬ r.Zeros) (hz : zeros.Good) (hz' : zeros.Zeros)
    (t : List (List Char)) :
    readRowsT rnd (rows.map PointRow.text ++ zeros.text :: t) =
      .ok (rows.map (fun r => (r.x.num rnd, r.y.num rnd, r.depth.num rnd)), t) := by
  induction rows with
  | nil =>
    rw [List.map_nil, List.nil_append]
    unfold readRowsT
    rw [parse_rowOf rnd zeros hz]
    simp only
    rw [if_pos ((zeros_iff h hu zeros).2 hz')]
    rfl
  | cons r rows ih =>
    rw [List.map_cons, List.cons_append]
    unfold readRowsT
    rw [parse_rowOf rnd r (hr r (by simp)).1]
    simp only
    rw [if_neg (fun hc => (hr r (by simp)).2 ((zeros_iff h hu r).1 hc)),
      ih fun x hx => hr x (by simp [hx])]
    rfl

private theorem strip_whole (w : Whole) (h : w.digits ≠ []) : strip w.text = digitsText w.digits :=
  strip_both _ _ _ (fun c hc => (digits_inside _ c hc).1) (by rwa [ne_eq, digitsText_ne])

private theorem parse_whole (w : Whole) (h : w.digits ≠ []) :
    parseInt w.text = .ok (digitsValue w.digits : Int) := by
  unfold parseInt
  simp only [strip_whole w h]
  have := takeSign_digits .absent w.digits h
  rw [show Mark.absent.text ++ digitsText w.digits = digitsText w.digits from rfl] at this
  simp only [this]
  rw [if_pos ⟨by rwa [ne_eq, digitsText_ne], digits_all _⟩, ofDigits_text]
  rfl

private theorem parse_digits (l : DigitsOf) (h : l ≠ []) :
    parseInt (digitsText l) = .ok (digitsValue l : Int) := by
  have := parse_whole { digits := l } h
  simpa [Whole.text] using this

private theorem pairs_range (start k : Nat) (a : Int) :
    pairs ((List.range (k + 1)).map (fun j => ((start + j : Nat) : Int)) ++ [a]) =
      (List.range k).map (fun j : Nat => ((start : Int) + j, (start : Int) + j + 1)) ++
        [((start : Int) + k, a)] := by
  induction k generalizing start with
  | zero => simp [pairs]
  | succ k ih =>
    have e := ih (start + 1)
    have r1 : ∀ k, (List.range (k + 1)).map (fun j => ((start + j : Nat) : Int)) =
        (start : Int) :: (List.range k).map (fun j => ((start + 1 + j : Nat) : Int)) := by
      intro k
      rw [List.range_succ_eq_map, List.map_cons, List.map_map]
      congr 1
      refine List.map_congr_left fun j _ => ?_
      simp only [Function.comp]
      push_cast
      ring
    rw [r1 (k + 1), List.cons_append]
    have r2 : (List.range (k + 1)).map (fun j => ((start + 1 + j : Nat) : Int)) =
        ((start : Int) + 1) :: (List.range k).map (fun j => ((start + 1 + 1 + j : Nat) : Int)) := by
      rw [List.range_succ_eq_map, List.map_cons, List.map_map]
      congr 1
      refine List.map_congr_left fun j _ => ?_
      simp only [Function.comp]
      push_cast
      ring
    rw [r2] at e ⊢
    rw [List.cons_append] at e ⊢
    show (((start : Int), (start : Int) + 1)) :: pairs _ = _
    rw [e, List.range_succ_eq_map (n := k), List.map_cons, List.map_map, List.cons_append]
    simp only [List.cons.injEq, Function.comp_def]
    refine ⟨by simp, ?_⟩
    congr 1
    · refine List.map_congr_left fun j _ => ?_
      push_cast
      rw [Prod.mk.injEq]
      constructor <;> ring
    · push_cast
      rw [show (start : Int) + 1 + k = start + (k + 1) by ring]

private theorem block_loop (start l : Nat) (hl : 1 ≤ l) :
    blockSegs start l = loopPairs ((List.range l).map (fun j => ((start + j : Nat) : Int))) := by
  obtain ⟨k, rfl⟩ : ∃ k, l = k + 1 := ⟨l - 1, by omega⟩
  have h0 : (List.range (k + 1)).map (fun j => ((start + j : Nat) : Int)) =
      (start : Int) :: (List.range k).map (fun j => ((start + (j + 1) : Nat) : Int)) := by
    rw [List.range_succ_eq_map, List.map_cons, List.map_map]
    rfl
  have h1 := pairs_range start k start
  rw [h0] at h1 ⊢
  show _ = pairs (_ :: _ ++ [_])
  rw [h1]
  unfold blockSegs
  rw [Nat.add_sub_cancel]
  congr 3
  push_cast
  ring

private theorem allSegs_loops (start : Nat) (ls : List Nat) (hl : ∀ l ∈ ls, 2 ≤ l) :
    allSegs start ls = (loopsFrom start ls).flatMap loopPairs := by
  induction ls generalizing start with
  | nil => rfl
  | cons l ls ih =>
    have := hl l (by simp)
    simp only [allSegs, loopsFrom, List.flatMap_cons]
    rw [ih _ (fun x hx => hl x (by simp [hx])), block_loop _ _ (by omega)]

private theorem read_ends (ls : List Nat) (hl : ∀ l ∈ ls, 2 ≤ l) : ∀ (ws : List Whole) (i : Option Int)
    (start : Nat) (_ : EndsAt start ls ws) (tl : List (List Char)),
    readBoundsT ls.length i start (ws.map Whole.text ++ tl) = .ok (allSegs start ls) := by
  induction ls with
  | nil => intro ws i start h tl; rfl
  | cons l ls ih =>
    intro ws i start h tl
    obtain ⟨w, t, rfl, hd, hv, ht⟩ := h
    simp only [List.length_cons, List.map_cons, List.cons_append]
    unfold readBoundsT
    simp only [List.headD_cons, List.tail_cons, parse_whole w hd, hv]
    rw [loopT_block i start l (hl l (by simp))]
    simp only
    rw [ih (fun x hx => hl x (by simp [hx])) t _ _ ht tl]
    rfl

/-- The lines of such a file. -/
private theorem lines_file (header : List Char) (rows : List PointRow) (zeros : PointRow) (count : Whole)
    (ends : List Whole) (rest : List (List Char)) (hh : '\n' ∉ header) (hrest : ∀ l ∈ rest, '\n' ∉ l)
    (hr : ∀ r ∈ rows, r.Good) (hz : zeros.Good) :
    linesOf (fileText header rows zeros count ends rest) =
      (header :: rows.map PointRow.text) ++ zeros.text :: count.text :: (ends.map Whole.text ++ rest) := by
  refine linesOf_join _ ?_
  intro l hl
  simp only [List.cons_append, List.mem_cons, List.mem_append, List.mem_map] at hl
  rcases hl with rfl | ⟨r, hm, rfl⟩ | rfl | rfl | ⟨w, _, rfl⟩ | hl
  · exact hh
  · exact row_noeol r (hr r hm)
  · exact row_noeol _ hz
  · exact whole_noeol _
  · exact whole_noeol w
  · exact hrest l hl

/-- The full claim: loops of any number of points are closed, and no segment leaves its loop. -/
def C183_statement : Prop :=
  ∀ (rnd : ℚ → ℚ) (u : ℚ) (_ : Accurate rnd u) (_ : u < 1) (header : List Char)
    (rows : List PointRow) (zeros : PointRow) (count : Whole) (sizes : List Nat) (ends : List Whole)
    (rest : List (List Char)) (_ : '\n' ∉ header) (_ : ∀ l ∈ rest, '\n' ∉ l)
    (_ : ∀ r ∈ rows, r.Good ∧ ¬ r.Zeros) (_ : zeros.Good ∧ zeros.Zeros)
    (_ : count.digits ≠ [] ∧ digitsValue count.digits = sizes.length)
    (_ : ∀ l ∈ sizes, 1 ≤ l) (_ : EndsAt 0 sizes ends),
    ∃ d, loadText rnd (fileText header rows zeros count ends rest) = .ok d ∧
      d.nodes = rows.map (fun r => (r.x.num rnd, r.y.num rnd)) ∧
      d.depths = rows.map (fun r => r.depth.num rnd) ∧
      ∀ s ∈ d.segs, ∃ loop ∈ loopsFrom 0 sizes, s.1 ∈ loop ∧ s.2 ∈ loop

/-- **C183**, files with loops of two points or more. Whatever the first line and whatever follows the ends of the loops, a file of rows
of four numbers up to a row of zeros gives the points and depths in their order, and the loops closed,
each from the point after the one before. -/
theorem C183_files_partial (rnd : ℚ → ℚ) (u : ℚ) (h : Accurate rnd u) (hu : u < 1) (header : List Char)
    (rows : List PointRow) (zeros : PointRow) (count : Whole) (sizes : List Nat) (ends : List Whole)
    (rest : List (List Char)) (hh : '\n' ∉ header) (hrest : ∀ l ∈ rest, '\n' ∉ l)
    (hr : ∀ r ∈ rows, r.Good ∧ ¬ r.Zeros) (hz : zeros.Good ∧ zeros.Zeros)
    (hc : count.digits ≠ [] ∧ digitsValue count.digits = sizes.length)
    (hs : ∀ l ∈ sizes, 2 ≤ l) (he : EndsAt 0 sizes ends) :
    ∃ d, loadText rnd (fileText header rows zeros count ends rest) = .ok d ∧
      d.nodes = rows.map (fun r => (r.x.num rnd, r.y.num rnd)) ∧
      d.depths = rows.map (fun r => r.depth.num rnd) ∧
      d.segs = (loopsFrom 0 sizes).flatMap loopPairs := by
  have hl := lines_file header rows zeros count ends rest hh hrest (fun r hm => (hr r hm).1) hz.1
  unfold loadText
  simp only [hl, List.cons_append, List.tail_cons]
  rw [read_rows h hu rows zeros hr hz.1 hz.2]
  simp only [List.headD_cons, List.tail_cons, strip_whole count hc.1, parse_digits _ hc.1, hc.2,
    Int.toNat_natCast]
  have hb := read_ends sizes hs ends none 0 he rest
  rw [show ((0 : Nat) : Int) = 0 from rfl] at hb
  rw [hb]
  refine ⟨_, rfl, ?_, ?_, ?_⟩
  · simp
  · simp
  · exact allSegs_loops 0 sizes hs

/-- A first loop of one point stops the loading with an `UnboundLocalError`. -/
theorem C183_one_point_first (rnd : ℚ → ℚ) (u : ℚ) (h : Accurate rnd u) (hu : u < 1) (header : List Char)
    (rows : List PointRow) (zeros : PointRow) (count : Whole) (sizes : List Nat) (ends : List Whole)
    (rest : List (List Char)) (hh : '\n' ∉ header) (hrest : ∀ l ∈ rest, '\n' ∉ l)
    (hr : ∀ r ∈ rows, r.Good ∧ ¬ r.Zeros) (hz : zeros.Good ∧ zeros.Zeros)
    (hc : count.digits ≠ [] ∧ digitsValue count.digits = (1 :: sizes).length)
    (he : EndsAt 0 (1 :: sizes) ends) :
    loadText rnd (fileText header rows zeros count ends rest) = .error .unboundLocal := by
  have hl := lines_file header rows zeros count ends rest hh hrest (fun r hm => (hr r hm).1) hz.1
  obtain ⟨w, t, rfl, hd, hv, ht⟩ := he
  unfold loadText
  simp only [hl, List.cons_append, List.tail_cons]
  rw [read_rows h hu rows zeros hr hz.1 hz.2]
  simp only [List.headD_cons, List.tail_cons, strip_whole count hc.1, parse_digits _ hc.1, hc.2,
    Int.toNat_natCast, List.length_cons, List.map_cons, List.cons_append]
  unfold readBoundsT
  simp only [List.headD_cons, parse_whole w hd, hv]
  rfl

/-- **C183**, files that end early: without the row of zeros, or with nothing after it, the points are
loaded and there is no boundary. -/
theorem C183_without_loops (rnd : ℚ → ℚ) (u : ℚ) (h : Accurate rnd u) (hu : u < 1) (header : List Char)
    (rows : List PointRow) (zeros : Option PointRow) (hh : '\n' ∉ header)
    (hr : ∀ r ∈ rows, r.Good ∧ ¬ r.Zeros) (hz : ∀ z, zeros = some z → z.Good ∧ z.Zeros) :
    ∃ d, loadText rnd (((header :: rows.map PointRow.text) ++ zeros.toList.map PointRow.text).flatMap
        fun l => l ++ ['\n']) = .ok d ∧
      d.nodes = rows.map (fun r => (r.x.num rnd, r.y.num rnd)) ∧
      d.depths = rows.map (fun r => r.depth.num rnd) ∧ d.segs = [] := by
  have hl := linesOf_join ((header :: rows.map PointRow.text) ++ zeros.toList.map PointRow.text) (by
    intro l hl
    simp only [List.cons_append, List.mem_cons, List.mem_append, List.mem_map] at hl
    rcases hl with rfl | ⟨r, hm, rfl⟩ | ⟨r, hm, rfl⟩
    · exact hh
    · exact row_noeol r (hr r hm).1
    · exact row_noeol r (hz r (by simpa using hm)).1)
  have hrows : readRowsT rnd (rows.map PointRow.text ++ zeros.toList.map PointRow.text) =
      .ok (rows.map (fun r => (r.x.num rnd, r.y.num rnd, r.depth.num rnd)), []) := by
    cases zeros with
    | some z => exact read_rows h hu rows z hr (hz z rfl).1 (hz z rfl).2 []
    | none =>
      simp only [Option.toList_none, List.map_nil, List.append_nil]
      induction rows with
      | nil => rfl
      | cons r rows ih =>
        rw [List.map_cons]
        unfold readRowsT
        rw [parse_rowOf rnd r (hr r (by simp)).1]
        simp only
        have ih' := ih (fun x hx => hr x (by simp [hx])) (linesOf_join _ (by
          intro l hl
          simp only [List.cons_append, List.mem_cons, List.mem_append, List.mem_map] at hl
          rcases hl with rfl | ⟨r, hm, rfl⟩ | ⟨r, hm, rfl⟩
          · exact hh
          · exact row_noeol r (hr r (by simp [hm])).1
          · simp at hm))
        rw [if_neg (fun hc => (hr r (by simp)).2 ((zeros_iff h hu r).1 hc)), ih']
        rfl
  unfold loadText
  unfold joinLines at hl
  rw [hl]
  simp only [List.cons_append, List.tail_cons]
  rw [hrows]
  refine ⟨_, rfl, ?_, ?_, rfl⟩
  · simp
  · simp

/-! ### A case -/

/-- ` -12.5e-3`. -/
def exNumeral : Numeral where
  before := 1
  mark := .minus
  whole := [1, 2]
  fraction := some [5]
  power := some ⟨false, .minus, [3]⟩

example : String.ofList exNumeral.text = " -12.5e-3" := by decide +kernel

example : exNumeral.Good ∧ exNumeral.size = 125 / 10000 := by
  refine ⟨⟨.inl (by decide), ?_⟩, by decide +kernel⟩
  intro p hp
  cases hp
  decide

def exPlain (n : DigitsOf) : Numeral := { before := 1, whole := n }

/-- ` Inf`. -/
def exInf : SpecialWord := { before := 1, letters := [('i', true), ('n', false), ('f', false)] }

def exZeros : PointRow where
  index := .numeral (exPlain [0])
  x := .numeral { whole := [0], fraction := some [0, 0] }
  y := .numeral { mark := .minus, whole := [], fraction := some [0] }
  depth := .numeral { whole := [0], power := some ⟨true, .plus, [7]⟩ }

def exRows : List PointRow :=
  [⟨.numeral (exPlain [1]), .numeral exNumeral, .numeral (exPlain [3]), .word exInf⟩,
   ⟨.numeral (exPlain [2]), .numeral (exPlain [0]), .numeral (exPlain [0]), .numeral (exPlain [0])⟩,
   ⟨.numeral (exPlain [3]), .numeral { whole := [], fraction := some [5] }, .numeral (exPlain [7]),
    .numeral (exPlain [1])⟩]

example : String.ofList (fileText "DOGS".toList exRows exZeros { digits := [1] }
      [{ digits := [0, 3], before := 2, after := 1 }] ["the end".toList]) =
    "DOGS\n 1, -12.5e-3, 3, Inf\n 2, 0, 0, 0\n 3,.5, 7, 1\n 0,0.00,-.0,0E+7\n1\n  03 \nthe end\n" := by
  decide +kernel

instance (x : Entry) : Decidable x.Zero :=
  match x with
  | .numeral x => inferInstanceAs (Decidable (x.size = 0))
  | .word _ => .isFalse id

private theorem exRow_good (r : PointRow) (h : r ∈ exZeros :: exRows) : r.Good := by
  simp only [exRows, List.mem_cons, List.not_mem_nil, or_false] at h
  rcases h with rfl | rfl | rfl | rfl <;>
    refine ⟨?_, ?_, ?_, ?_⟩ <;>
    first
      | exact .inr (.inl rfl)
      | refine ⟨?_, ?_⟩
  all_goals
    first
      | (left; decide)
      | (right; exact ⟨_, rfl, by decide⟩)
      | (intro p hp; cases hp <;> decide)

/-- The hypotheses of `C183_files_partial` hold for it. -/
example : ∃ d, loadText (fun x => x) (fileText "DOGS".toList exRows exZeros { digits := [1] }
      [{ digits := [0, 3], before := 2, after := 1 }] ["the end".toList]) = .ok d ∧
    d.nodes = exRows.map (fun r => (r.x.num (fun x => x), r.y.num (fun x => x))) ∧
    d.depths = exRows.map (fun r => r.depth.num (fun x => x)) ∧
    d.segs = (loopsFrom 0 [3]).flatMap loopPairs :=
  C183_files_partial (fun x => x) 0 (by intro x; simp) (by norm_num) _ exRows exZeros _ [3] _ _ (by decide)
    (by decide)
    (fun r hr => ⟨exRow_good r (by simp [hr]), by
      simp only [exRows, List.mem_cons, List.not_mem_nil, or_false] at hr
      rcases hr with rfl | rfl | rfl <;> exact fun h => absurd h.1 (by decide +kernel)⟩)
    ⟨exRow_good _ (by simp), by
      refine ⟨?_, ?_, ?_, ?_⟩ <;> decide +kernel⟩
    ⟨by decide, by decide⟩ (by decide) ⟨_, _, rfl, by decide, by decide, rfl⟩

/-- A file with a loop of two points and a loop of one. -/
def exOnePoint : List Char :=
  fileText "DOGS".toList exRows exZeros { digits := [2] } [{ digits := [2] }, { digits := [3] }] []

example : String.ofList exOnePoint =
    "DOGS\n 1, -12.5e-3, 3, Inf\n 2, 0, 0, 0\n 3,.5, 7, 1\n 0,0.00,-.0,0E+7\n2\n2\n3\n" := by
  decide +kernel

private theorem exRow_nonzero (r : PointRow) (hr : r ∈ exRows) : r.Good ∧ ¬ r.Zeros :=
  ⟨exRow_good r (by simp [hr]), by
    simp only [exRows, List.mem_cons, List.not_mem_nil, or_false] at hr
    rcases hr with rfl | rfl | rfl <;> exact fun h => absurd h.1 (by decide +kernel)⟩

private theorem exZeros_zero : exZeros.Good ∧ exZeros.Zeros :=
  ⟨exRow_good _ (by simp), by refine ⟨?_, ?_, ?_, ?_⟩ <;> decide +kernel⟩

/-- The point of the second loop is joined to a point of the first. -/
theorem C183_joined : ((loadText (fun x => x) exOnePoint).toOption.map (·.segs)) =
    some [(0, 1), (1, 0), (1, 2)] := by decide +kernel

/-- **C183 is false as stated.** -/
theorem C183_refuted : ¬ C183_statement := by
  intro h
  obtain ⟨d, hd, _, _, hs⟩ := h (fun x => x) 0 (by intro x; simp) (by norm_num) "DOGS".toList exRows exZeros
    { digits := [2] } [2, 1] [{ digits := [2] }, { digits := [3] }] [] (by decide) (by decide)
    exRow_nonzero exZeros_zero ⟨by decide, by decide⟩ (by decide)
    ⟨_, _, rfl, by decide, by decide, _, _, rfl, by decide, by decide, rfl⟩
  have hj := C183_joined
  rw [exOnePoint, hd] at hj
  have hj : d.segs = [(0, 1), (1, 0), (1, 2)] := Option.some.inj hj
  obtain ⟨loop, hl, h1, h2⟩ := hs (1, 2) (by rw [hj]; decide)
  simp only [loopsFrom, List.mem_cons, List.not_mem_nil, or_false] at hl
  rcases hl with rfl | rfl
  · exact absurd h2 (by decide)
  · exact absurd h1 (by decide)

/-- The hypotheses of `C183_one_point_first` hold for a file with such a loop. -/
example : loadText (fun x => x) (fileText "DOGS".toList exRows exZeros { digits := [2] }
    [{ digits := [1] }, { digits := [3] }] []) = .error .unboundLocal :=
  C183_one_point_first (fun x => x) 0 (by intro x; simp) (by norm_num) _ exRows exZeros _ [2] _ _ (by decide)
    (by decide) exRow_nonzero exZeros_zero ⟨by decide, by decide⟩
    ⟨_, _, rfl, by decide, by decide, _, _, rfl, by decide, by decide, rfl⟩

/-- Those of `C183_without_loops` for the points alone. -/
example : ∃ d, loadText (fun x => x) ((("DOGS".toList :: exRows.map PointRow.text) ++
      (some exZeros).toList.map PointRow.text).flatMap fun l => l ++ ['\n']) = .ok d ∧
    d.nodes = exRows.map (fun r => (r.x.num (fun x => x), r.y.num (fun x => x))) ∧
    d.depths = exRows.map (fun r => r.depth.num (fun x => x)) ∧ d.segs = [] :=
  C183_without_loops (fun x => x) 0 (by intro x; simp) (by norm_num) _ exRows (some exZeros) (by decide)
    exRow_nonzero (by intro z hz; cases hz; exact exZeros_zero)

example : (loopsFrom 0 [3]).flatMap loopPairs = [(0, 1), (1, 2), (2, 0)] := by decide

end Verif
