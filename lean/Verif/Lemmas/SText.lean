import Verif.Spec.SText
import Mathlib.Data.List.Basic

/-!
# Lemmas on the matching of text attributes
-/

set_option autoImplicit false

namespace Verif.SText
open Verif Verif.Spec

theorem lit_append : ∀ (l s : List Char), lit l (l ++ s) = some s
  | [], _ => rfl
  | a :: l, s => by simp [lit, lit_append l s]

theorem lit_some : ∀ (l s r : List Char), lit l s = some r → s = l ++ r
  | [], s, r, h => by simpa [lit] using h
  | a :: l, [], r, h => by simp [lit] at h
  | a :: l, c :: s, r, h => by
    simp only [lit] at h
    split at h
    · rename_i e
      rw [lit_some l s r h, List.cons_append]
      simp_all
    · cases h

/-- `contains` is the relation of being a part of a text. -/
theorem contains_iff (w s : List Char) : contains w s = true ↔ ∃ pre post, s = pre ++ w ++ post := by
  constructor
  · intro h
    induction s with
    | nil =>
      simp only [contains, List.isEmpty_iff] at h
      exact ⟨[], [], by simp [h]⟩
    | cons c s ih =>
      simp only [contains, Bool.or_eq_true] at h
      rcases h with h | h
      · obtain ⟨r, hr⟩ := Option.isSome_iff_exists.1 h
        exact ⟨[], r, by simpa using lit_some _ _ _ hr⟩
      · obtain ⟨pre, post, e⟩ := ih h
        exact ⟨c :: pre, post, by simp [e]⟩
  · rintro ⟨pre, post, rfl⟩
    induction pre with
    | nil =>
      rw [List.nil_append]
      cases hs : w ++ post with
      | nil =>
        have : w = [] := (List.append_eq_nil_iff.1 hs).1
        simp [contains, this]
      | cons c t =>
        unfold contains
        rw [← hs, lit_append]
        rfl
    | cons c pre ih =>
      rw [List.cons_append, List.cons_append]
      unfold contains
      rw [ih]
      simp

theorem takeWhile_stop (q : Char → Bool) : ∀ (a r : List Char), (∀ c ∈ a, q c = true) →
    (∀ c, r.head? = some c → q c = false) → (a ++ r).takeWhile q = a ∧ (a ++ r).dropWhile q = r
  | [], [], _, _ => ⟨rfl, rfl⟩
  | [], c :: r, _, h => by simp [h c rfl]
  | c :: a, r, ha, h => by
    obtain ⟨h1, h2⟩ := takeWhile_stop q a r (fun x hx => ha x (List.mem_cons_of_mem _ hx)) h
    have := ha c (by simp)
    simp [this, h1, h2]

theorem many1_append (q : Char → Bool) (a r : List Char) (hne : a ≠ []) (ha : ∀ c ∈ a, q c = true)
    (h : ∀ c, r.head? = some c → q c = false) : many1 q (a ++ r) = some (a, r) := by
  obtain ⟨h1, h2⟩ := takeWhile_stop q a r ha h
  simp [many1, h1, h2, hne]

theorem many1_none (q : Char → Bool) (c : Char) (t : List Char) (h : q c = false) :
    many1 q (c :: t) = none := by
  simp [many1, h]

theorem identChar_iff (c : Char) : identChar c = true ↔ c.isAlphanum ∨ c = '_' := by
  simp [identChar]

theorem ident_chars {s : List Char} (h : Ident s) : ∀ c ∈ s, identChar c = true :=
  fun c hc => (identChar_iff c).2 (h.2 c hc)

/-- The pattern on a written declaration. -/
theorem matchPadding_written (d : Decl) (hd : Proper d) (s : List Char) :
    matchPadding (written d ++ s) =
      some ((d.faceDim ++ [':'], d.nodeDim, "(padding: ".toList ++ d.padding ++ [')']), s) := by
  obtain ⟨h1, h2, h3⟩ := hd
  have e : written d ++ s = d.faceDim ++ (": ".toList ++ (d.nodeDim ++ (" (padding: ".toList ++
      (d.padding ++ (")".toList ++ s))))) := by
    simp [written, List.append_assoc]
  rw [e]
  unfold matchPadding
  rw [many1_append identChar _ _ h1.1 (ident_chars h1) (by intro c hc; simp at hc; subst hc; decide)]
  simp only [lit_append]
  rw [many1_append identChar _ _ h2.1 (ident_chars h2) (by intro c hc; simp at hc; subst hc; decide)]
  simp only [lit_append]
  rw [many1_append Char.isAlpha _ _ h3.1 h3.2 (by intro c hc; simp at hc; subst hc; decide)]
  simp only [lit_append]

theorem dropWhile_none (q : Char → Bool) (s : List Char) (h : ∀ c ∈ s, q c = false) :
    s.dropWhile q = s := by
  cases s with
  | nil => rfl
  | cons c t => simp [h c (by simp)]

theorem strip_id (s : List Char) (h : ∀ c ∈ s, c.isWhitespace = false) : strip s = s := by
  unfold strip
  rw [dropWhile_none _ s h, dropWhile_none _ s.reverse (fun c hc => h c (by simpa using hc)),
    List.reverse_reverse]

theorem strip_space (s : List Char) (h : ∀ c ∈ s, c.isWhitespace = false) :
    strip (' ' :: s) = s := by
  have : strip (' ' :: s) = strip s := by
    unfold strip
    rw [List.dropWhile_cons]
    rfl
  rw [this, strip_id s h]

theorem alpha_not (c : Char) (h : c.isAlpha = true) :
    c.isWhitespace = false ∧ c ≠ ':' ∧ c ≠ '(' ∧ c ≠ ')' := by
  refine ⟨?_, ?_, ?_, ?_⟩
  · by_contra hw
    have hw : c.isWhitespace = true := by simpa using hw
    unfold Char.isWhitespace at hw
    simp only [Bool.or_eq_true, decide_eq_true_eq] at hw
    rcases hw with ((rfl | rfl) | rfl) | rfl <;> exact absurd h (by decide)
  · rintro rfl; exact absurd h (by decide)
  · rintro rfl; exact absurd h (by decide)
  · rintro rfl; exact absurd h (by decide)

theorem ident_not (c : Char) (h : c.isAlphanum ∨ c = '_') : c ≠ ':' := by
  rintro rfl
  exact absurd h (by decide)

theorem beforeColon_append (a r : List Char) (h : ∀ c ∈ a, c ≠ ':') :
    beforeColon (a ++ ':' :: r) = a := by
  exact (takeWhile_stop (· != ':') a (':' :: r) (fun c hc => by simpa using h c hc)
    (by intro c hc; simp at hc; subst hc; rfl)).1

theorem afterColon_append (a r : List Char) (h : ∀ c ∈ a, c ≠ ':') (hr : ∀ c ∈ r, c ≠ ':') :
    afterColon (a ++ ':' :: r) = .ok r := by
  have e := (takeWhile_stop (· != ':') a (':' :: r) (fun c hc => by simpa using h c hc)
    (by intro c hc; simp at hc; subst hc; rfl)).2
  have e2 := (takeWhile_stop (· != ':') r [] (fun c hc => by simpa using hr c hc)
    (by intro c hc; simp at hc)).1
  unfold afterColon
  rw [e]
  simp only
  rw [List.append_nil] at e2
  rw [e2]

/-- The groups of a written declaration give it back. -/
theorem declOf_written (d : Decl) (hd : Proper d) :
    declOf (d.faceDim ++ [':'], d.nodeDim, "(padding: ".toList ++ d.padding ++ [')']) = .ok d := by
  obtain ⟨h1, _, h3⟩ := hd
  have e1 : ("(padding: ".toList ++ d.padding ++ [')']).filter (fun c => !(c == '(' || c == ')')) =
      "padding".toList ++ ':' :: (' ' :: d.padding) := by
    rw [List.filter_append, List.filter_append]
    have : d.padding.filter (fun c => !(c == '(' || c == ')')) = d.padding := by
      rw [List.filter_eq_self]
      intro c hc
      have := alpha_not c (h3.2 c hc)
      simp [this.2.2.1, this.2.2.2]
    rw [this]
    have a1 : ("(padding: ".toList).filter (fun c => !(c == '(' || c == ')')) = "padding: ".toList := by
      decide
    have a2 : ([')'] : List Char).filter (fun c => !(c == '(' || c == ')')) = [] := by decide
    rw [a1, a2]
    simp
  unfold declOf
  simp only [e1]
  rw [afterColon_append _ _ (by decide) (by
    intro c hc
    rcases List.mem_cons.1 hc with rfl | hc
    · decide
    · exact (alpha_not c (h3.2 c hc)).2.1)]
  simp only
  rw [strip_space _ (fun c hc => (alpha_not c (h3.2 c hc)).1),
    beforeColon_append _ _ (fun c hc => ident_not c (h1.2 c hc))]

/-- The groups of a declaration. -/
def groups (d : Decl) : List Char × List Char × List Char :=
  (d.faceDim ++ [':'], d.nodeDim, "(padding: ".toList ++ d.padding ++ [')'])

theorem declsOf_groups (ds : List Decl) (h : ∀ d ∈ ds, Proper d) : declsOf (ds.map groups) = .ok ds := by
  induction ds with
  | nil => rfl
  | cons d ds ih =>
    have hd : declOf (groups d) = .ok d := declOf_written d (h d (by simp))
    have ih := ih (fun x hx => h x (List.mem_cons_of_mem _ hx))
    rw [List.map_cons, declsOf, hd, ih]

/-- Text in which nothing matches at the start of a character is skipped. -/
theorem findAll_skip {β : Type} (m : List Char → Option (β × List Char)) : ∀ (g s : List Char)
    (f : Nat), (∀ c ∈ g, ∀ t, m (c :: t) = none) → g.length + s.length ≤ f →
    ∃ f', s.length ≤ f' ∧ findAll m f (g ++ s) = findAll m f' s
  | [], s, f, _, hf => ⟨f, by simpa using hf, rfl⟩
  | c :: g, s, f, h, hf => by
    cases f with
    | zero => simp at hf
    | succ f =>
      obtain ⟨f', h1, h2⟩ := findAll_skip m g s f (fun x hx => h x (List.mem_cons_of_mem _ hx))
        (by simp at hf; omega)
      refine ⟨f', h1, ?_⟩
      rw [List.cons_append, findAll, h c (by simp)]
      exact h2

theorem findAll_nil {β : Type} (m : List Char → Option (β × List Char)) (f : Nat) :
    findAll m f [] = [] := by
  cases f <;> rfl

/-- A match takes its text. -/
theorem findAll_match {β : Type} (m : List Char → Option (β × List Char)) (a s : List Char) (b : β)
    (f : Nat) (hne : a ≠ []) (h : m (a ++ s) = some (b, s)) (hf : a.length + s.length ≤ f) :
    ∃ f', s.length ≤ f' ∧ findAll m f (a ++ s) = b :: findAll m f' s := by
  cases f with
  | zero =>
    cases a with
    | nil => exact absurd rfl hne
    | cons c a => simp at hf
  | succ f =>
    cases a with
    | nil => exact absurd rfl hne
    | cons c a =>
      refine ⟨f, by simp at hf; omega, ?_⟩
      rw [List.cons_append] at h ⊢
      rw [findAll, h]

theorem gap_none {g : List Char} (hg : Gap g) : ∀ c ∈ g, ∀ t, matchPadding (c :: t) = none := by
  intro c hc t
  have : identChar c = false := by
    by_contra h
    exact hg c hc ((identChar_iff c).1 (by simpa using h))
  unfold matchPadding
  rw [many1_none _ _ _ this]

theorem written_ne (d : Decl) : written d ≠ [] := by
  simp [written]

theorem findAll_written (ds : List Decl) (s : List Char) (h : Written ds s) :
    ∀ f, s.length ≤ f → findAll matchPadding f s = ds.map groups := by
  induction h with
  | nil g hg =>
    intro f hf
    obtain ⟨f', _, e⟩ := findAll_skip matchPadding g [] f (gap_none hg) (by simpa using hf)
    rw [List.append_nil] at e
    rw [e, findAll_nil]
    rfl
  | cons g d ds s hg hd _ ih =>
    intro f hf
    rw [List.append_assoc]
    obtain ⟨f1, h1, e1⟩ := findAll_skip matchPadding g (written d ++ s) f (gap_none hg) (by
      simp only [List.length_append] at hf ⊢; omega)
    rw [e1]
    obtain ⟨f2, h2, e2⟩ := findAll_match matchPadding (written d) s _ f1 (written_ne d)
      (matchPadding_written d hd s) (by simpa using h1)
    rw [e2, ih f2 h2]
    rfl

theorem written_proper (ds : List Decl) (s : List Char) (h : Written ds s) : ∀ d ∈ ds, Proper d := by
  induction h with
  | nil => simp
  | cons g d ds s hg hd _ ih =>
    intro x hx
    rcases List.mem_cons.1 hx with rfl | hx
    · exact hd
    · exact ih x hx

/-! ## Axes -/

theorem wordChar_iff (c : Char) : wordChar c = true ↔ c.isAlpha ∨ c = '_' := by
  simp [wordChar]

theorem matchAxis_entry (c : Char) (w r : List Char) (hc : c.isAlpha = true) (hw : PlainName w)
    (hr : ∀ x, r.head? = some x → wordChar x = false) :
    matchAxis ((c :: ':' :: ' ' :: w) ++ r) = some (c :: ':' :: ' ' :: w, r) := by
  have e : (c :: ':' :: ' ' :: w) ++ r = c :: (": ".toList ++ (w ++ r)) := by simp
  rw [e]
  unfold matchAxis
  simp only [hc, if_true, lit_append]
  rw [many1_append wordChar w r hw.1 (fun x hx => (wordChar_iff x).2 (hw.2 x hx)) hr]
  simp

theorem findAll_axes (es : List (Char × List Char)) (h : ∀ e ∈ es, e.1.isAlpha = true ∧ PlainName e.2) :
    ∀ f, (axesText es).length ≤ f →
      findAll matchAxis f (axesText es) = es.map (fun e => e.1 :: ':' :: ' ' :: e.2) := by
  induction es with
  | nil => intro f _; simp [axesText, findAll_nil]
  | cons e es ih =>
    intro f hf
    obtain ⟨c, w⟩ := e
    obtain ⟨hc, hw⟩ := h (c, w) (by simp)
    have hr : ∀ x, (axesText es).head? = some x → wordChar x = false := by
      cases es with
      | nil => simp [axesText]
      | cons e' es' =>
        intro x hx
        simp [axesText] at hx
        subst hx
        decide
    have e1 : axesText ((c, w) :: es) = [' '] ++ ((c :: ':' :: ' ' :: w) ++ axesText es) := by
      simp [axesText]
    rw [e1] at hf ⊢
    obtain ⟨f1, h1, q1⟩ := findAll_skip matchAxis [' '] ((c :: ':' :: ' ' :: w) ++ axesText es) f (by
      intro x hx t
      simp at hx
      subst hx
      rfl) (by rw [List.length_append] at hf; exact hf)
    rw [q1]
    obtain ⟨f2, h2, q2⟩ := findAll_match matchAxis (c :: ':' :: ' ' :: w) (axesText es) _ f1 (by simp)
      (matchAxis_entry c w _ hc hw hr) (by rw [List.length_append] at h1; exact h1)
    rw [q2, ih (fun e he => h e (List.mem_cons_of_mem _ he)) f2 h2]
    rfl

theorem plain_not (c : Char) (h : c.isAlpha ∨ c = '_') : c.isWhitespace = false ∧ c ≠ ':' := by
  rcases h with h | rfl
  · exact ⟨(alpha_not c h).1, (alpha_not c h).2.1⟩
  · exact ⟨by decide, by decide⟩

theorem axisStep_entry (acc : Axes) (c : Char) (w : List Char) (hc : c.isAlpha = true)
    (hw : PlainName w) :
    axisStep acc (c :: ':' :: ' ' :: w) =
      .ok (if c.toLower = 'x' then { acc with x := some w }
        else if c.toLower = 'y' then { acc with y := some w }
        else if c.toLower = 'z' then { acc with z := some w } else acc) := by
  have e1 : afterColon (c :: ':' :: ' ' :: w) = .ok (' ' :: w) :=
    afterColon_append [c] (' ' :: w) (by
      intro x hx; simp at hx; subst hx; exact (alpha_not x hc).2.1) (by
      intro x hx
      rcases List.mem_cons.1 hx with rfl | hx
      · decide
      · exact (plain_not x (hw.2 x hx)).2)
  have e2 : beforeColon (c :: ':' :: ' ' :: w) = [c] :=
    beforeColon_append [c] (' ' :: w) (by
      intro x hx; simp at hx; subst hx; exact (alpha_not x hc).2.1)
  have e3 : strip [c] = [c] := strip_id _ (by
    intro x hx; simp at hx; subst hx; exact (alpha_not x hc).1)
  unfold axisStep
  simp only [e1, e2, e3, strip_space w (fun x hx => (plain_not x (hw.2 x hx)).1)]
  have s1 : ∀ q : Char, ([c].map Char.toLower = [q]) ↔ c.toLower = q := by simp
  have t1 : "x".toList = ['x'] := by decide
  have t2 : "y".toList = ['y'] := by decide
  have t3 : "z".toList = ['z'] := by decide
  rw [t1, t2, t3]
  simp only [s1]
  split_ifs <;> rfl

end Verif.SText
