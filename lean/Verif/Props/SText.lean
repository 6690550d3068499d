import Verif.Lemmas.SText
import Mathlib.Order.Nat
import Mathlib.Data.Nat.Find

/-!
# Properties of text attributes of structured grid files: C51, C75, C76, C77
-/

set_option autoImplicit false

namespace Verif
open Verif.Spec Verif.SText

/-! ## C51 -/

/-- C51. A text made of declarations, with anything but letters, digits and underscores around
them, is parsed to exactly these declarations in order, however many there are. -/
theorem C51_parses (ds : List Decl) (s : List Char) (hne : ds ≠ []) (h : Written ds s) :
    parsePadding s = .ok ds := by
  unfold parsePadding
  rw [findAll_written ds s h _ (Nat.le_refl _), declsOf_groups ds (written_proper ds s h)]
  cases ds with
  | nil => exact absurd rfl hne
  | cons d ds => rfl

/-- C51. The conventional form, declarations with one space between them. -/
theorem C51_conventional (ds : List Decl) (hne : ds ≠ []) (h : ∀ d ∈ ds, Proper d) :
    parsePadding (List.intercalate [' '] (ds.map written)) = .ok ds := by
  refine C51_parses ds _ hne ?_
  have key : ∀ ds : List Decl, (∀ d ∈ ds, Proper d) →
      Written ds (ds.flatMap (fun d => [' '] ++ written d)) := by
    intro ds
    induction ds with
    | nil => intro _; exact .nil [] (by intro c hc; simp at hc)
    | cons d ds ih =>
      intro h
      exact .cons [' '] d ds _ (by intro c hc; simp at hc; subst hc; decide) (h d (by simp))
        (ih (fun x hx => h x (List.mem_cons_of_mem _ hx)))
  cases ds with
  | nil => exact absurd rfl hne
  | cons d ds =>
    have e : List.intercalate [' '] ((d :: ds).map written) =
        [] ++ written d ++ ds.flatMap (fun d => [' '] ++ written d) := by
      clear hne h
      induction ds generalizing d with
      | nil => simp [List.intercalate]
      | cons e ds ih =>
        have := ih e
        simp only [List.map_cons, List.nil_append] at this ⊢
        rw [List.intercalate_cons_cons, this]
        simp
    rw [e]
    exact .cons [] d ds _ (by intro c hc; simp at hc) (h d (by simp))
      (key ds (fun x hx => h x (List.mem_cons_of_mem _ hx)))

/-- C51. A text without an opening parenthesis holds no declaration: `ValueError`. -/
theorem C51_nothing (s : List Char) (h : '(' ∉ s) : parsePadding s = .error .valueError := by
  have hlit : ∀ (l s r : List Char), lit l s = some r → ∀ c ∈ l, c ∈ s := by
    intro l
    induction l with
    | nil => intro s r _ c hc; simp at hc
    | cons a l ih =>
      intro s r hs c hc
      cases s with
      | nil => simp [lit] at hs
      | cons x s =>
        unfold lit at hs
        split at hs
        · next hx =>
          rcases List.mem_cons.1 hc with rfl | hc
          · simp [hx]
          · exact List.mem_cons_of_mem _ (ih s r hs c hc)
        · simp at hs
  have hlit2 : ∀ (l s r : List Char), lit l s = some r → ∀ c ∈ r, c ∈ s := by
    intro l
    induction l with
    | nil => intro s r hs c hc; simp [lit] at hs; subst hs; exact hc
    | cons a l ih =>
      intro s r hs c hc
      cases s with
      | nil => simp [lit] at hs
      | cons x s =>
        unfold lit at hs
        split at hs
        · exact List.mem_cons_of_mem _ (ih s r hs c hc)
        · simp at hs
  have hmany : ∀ (q : Char → Bool) (s a r : List Char), many1 q s = some (a, r) → ∀ c ∈ r, c ∈ s := by
    intro q s a r hs c hc
    unfold many1 at hs
    split at hs
    · simp at hs
    · simp at hs
      rw [← hs.2] at hc
      exact (List.dropWhile_sublist q).subset hc
  have hm : ∀ t : List Char, '(' ∉ t → matchPadding t = none := by
    intro t ht
    by_contra hc
    unfold matchPadding at hc
    split at hc
    · exact hc rfl
    · next a s1 h1 =>
      split at hc
      · exact hc rfl
      · next s2 h2 =>
        split at hc
        · exact hc rfl
        · next b s3 h3 =>
          split at hc
          · exact hc rfl
          · next s4 h4 =>
            exact ht (hmany _ _ _ _ h1 _ (hlit2 _ _ _ h2 _ (hmany _ _ _ _ h3 _
              (hlit _ _ _ h4 '(' (by decide)))))
  have key : ∀ (f : Nat) (t : List Char), '(' ∉ t → findAll matchPadding f t = [] := by
    intro f
    induction f with
    | zero => intro t _; rfl
    | succ f ih =>
      intro t ht
      cases t with
      | nil => rfl
      | cons c t =>
        rw [findAll, hm _ ht]
        exact ih t (fun hc => ht (List.mem_cons_of_mem _ hc))
  unfold parsePadding
  rw [key _ s h]
  rfl

private theorem many1_some {q : Char → Bool} {s a r : List Char} (h : many1 q s = some (a, r)) :
    a ≠ [] ∧ (∀ c ∈ a, q c = true) ∧ s = a ++ r := by
  unfold many1 at h
  split at h
  · simp at h
  · next hn =>
    simp only [Option.some.injEq, Prod.mk.injEq] at h
    obtain ⟨rfl, rfl⟩ := h
    exact ⟨hn, fun c hc => (List.all_eq_true.1 List.all_takeWhile) c hc, (List.takeWhile_append_dropWhile).symm⟩

/-- What the pattern matches is a written declaration. -/
private theorem matchPadding_some {s : List Char} {x : (List Char × List Char × List Char) × List Char}
    (h : matchPadding s = some x) : ∃ d, Proper d ∧ s = written d ++ x.2 ∧ x.1 = groups d := by
  unfold matchPadding at h
  split at h
  · cases h
  next a s1 h1 =>
  split at h
  · cases h
  next s2 h2 =>
  split at h
  · cases h
  next b s3 h3 =>
  split at h
  · cases h
  next s4 h4 =>
  split at h
  · cases h
  next c s5 h5 =>
  split at h
  · cases h
  next s6 h6 =>
  obtain ⟨a1, a2, rfl⟩ := many1_some h1
  obtain ⟨b1, b2, rfl⟩ := many1_some h3
  obtain ⟨c1, c2, rfl⟩ := many1_some h5
  have e2 := lit_some _ _ _ h2
  have e4 := lit_some _ _ _ h4
  have e6 := lit_some _ _ _ h6
  cases h
  refine ⟨⟨a, b, c⟩, ⟨⟨a1, fun x hx => (identChar_iff x).1 (a2 x hx)⟩,
    ⟨b1, fun x hx => (identChar_iff x).1 (b2 x hx)⟩, ⟨c1, c2⟩⟩, ?_, rfl⟩
  rw [e2, e4, e6]
  simp [written]

private theorem written_ne (d : Decl) : written d ≠ [] := by
  simp [written]

private theorem written_unique {d d' : Decl} (hd : Proper d) (hd' : Proper d') {s s' : List Char}
    (h : written d ++ s = written d' ++ s') : d = d' ∧ s = s' := by
  have h1 := matchPadding_written d hd s
  rw [h, matchPadding_written d' hd' s'] at h1
  simp only [Option.some.injEq, Prod.mk.injEq] at h1
  obtain ⟨⟨e1, e2, e3⟩, e4⟩ := h1
  refine ⟨?_, e4.symm⟩
  have e1 := List.append_cancel_right e1
  have e3 := List.append_cancel_right e3
  have e3 := List.append_cancel_left e3
  cases d; cases d'
  simp_all

/-- C51. Every text: the parser returns the declarations found from left to right, or `ValueError`
when none occurs. -/
theorem C51_any (s : List Char) : ∃ ds, Found ds s ∧
    parsePadding s = if ds = [] then .error .valueError else .ok ds := by
  have key : ∀ (f : Nat) (s : List Char), s.length ≤ f →
      ∃ ds, Found ds s ∧ (∀ d ∈ ds, Proper d) ∧ findAll matchPadding f s = ds.map groups := by
    intro f
    induction f with
    | zero =>
      intro s hs
      have : s = [] := List.length_eq_zero_iff.mp (by omega)
      subst this
      refine ⟨[], .nil [] ?_, by simp, rfl⟩
      intro g t d _ h
      have := congrArg List.length h
      have hl := List.length_pos_iff.mpr (written_ne d)
      simp only [List.length_nil, List.length_append] at this
      omega
    | succ f ih =>
      intro s hs
      cases s with
      | nil =>
        refine ⟨[], .nil [] ?_, by simp, rfl⟩
        intro g t d _ h
        have := congrArg List.length h
        have hl := List.length_pos_iff.mpr (written_ne d)
        simp only [List.length_nil, List.length_append] at this
        omega
      | cons c t =>
        rw [findAll]
        cases hm : matchPadding (c :: t) with
        | some x =>
          obtain ⟨d, hd, e, hx⟩ := matchPadding_some hm
          have hl := List.length_pos_iff.mpr (written_ne d)
          have hlen := congrArg List.length e
          simp only [List.length_append, List.length_cons] at hlen hs
          obtain ⟨ds, h1, h2, h3⟩ := ih x.2 (by omega)
          refine ⟨d :: ds, ?_, ?_, ?_⟩
          · rw [e]
            exact .cons [] d ds x.2 hd (fun _ _ _ _ _ => Nat.zero_le _) h1
          · intro y hy
            rcases List.mem_cons.1 hy with rfl | hy
            · exact hd
            · exact h2 y hy
          · simp only [List.map_cons]
            rw [h3, ← hx]
        | none =>
          obtain ⟨ds, h1, h2, h3⟩ := ih t (by simpa using hs)
          have start : ∀ (t' : List Char) (d' : Decl), Proper d' → c :: t ≠ written d' ++ t' := by
            intro t' d' hd' h
            rw [h, matchPadding_written d' hd' t'] at hm
            cases hm
          refine ⟨ds, ?_, h2, h3⟩
          cases h1 with
          | nil _ hn =>
            refine .nil _ ?_
            intro g t' d' hd' h
            cases g with
            | nil => exact start t' d' hd' (by simpa using h)
            | cons x g =>
              simp only [List.cons_append, List.cons.injEq] at h
              exact hn g t' d' hd' h.2
          | cons g d ds s' hd first h =>
            refine Found.cons (c :: g) d ds s' hd ?_ h
            intro g' t' d' hd' h'
            cases g' with
            | nil => exact absurd (by simpa using h') (start t' d' hd')
            | cons x g' =>
              simp only [List.cons_append, List.cons.injEq] at h'
              have := first g' t' d' hd' h'.2
              simpa using this
  obtain ⟨ds, h1, h2, h3⟩ := key s.length s (Nat.le_refl _)
  refine ⟨ds, h1, ?_⟩
  unfold parsePadding
  rw [h3, declsOf_groups ds h2]
  cases ds <;> rfl

/-- C51. The declarations found in a text are determined by it. -/
theorem C51_any_unique (s : List Char) (ds ds' : List Decl) (h : Found ds s) (h' : Found ds' s) :
    ds = ds' := by
  induction h generalizing ds' with
  | nil s hn =>
    cases h' with
    | nil => rfl
    | cons g d ds s' hd => exact absurd rfl (hn g s' d hd)
  | cons g d ds s hd first h ih =>
    generalize hs : g ++ written d ++ s = w at h'
    cases h' with
    | nil _ hn => exact absurd hs.symm (hn g s d hd)
    | cons g' d' ds' s' hd' first' h' =>
      have h1 := first g' s' d' hd' hs
      have h2 := first' g s d hd hs.symm
      rw [List.append_assoc, List.append_assoc] at hs
      obtain ⟨e1, e2⟩ := List.append_inj hs (by omega)
      obtain ⟨e3, e4⟩ := written_unique hd hd' e2
      subst e3 e4
      rw [ih ds' h']

-- Texts without a declaration, and a declaration that starts within another try.
example : parsePadding "xi: psi (padding: both".toList = .error .valueError ∧
    parsePadding "xi: psi (padding: a: b (padding: both) x".toList =
      .ok [⟨"a".toList, "b".toList, "both".toList⟩] := by decide +kernel

/-- C51 speaks of identifiers. Other names, which netCDF allows, are cut or lost: a hyphen in the
first name cuts it, and a hyphen in the second loses the declaration. -/
theorem C51_hyphens :
    parsePadding "xi-rho: psi (padding: both)".toList =
      .ok [⟨"rho".toList, "psi".toList, "both".toList⟩] ∧
    parsePadding "rho: xi-psi (padding: both)".toList = .error .valueError := by
  decide +kernel

example : Proper ⟨"xi_rho".toList, "xi_psi".toList, "both".toList⟩ :=
  ⟨⟨by decide +kernel, by decide +kernel⟩, ⟨by decide +kernel, by decide +kernel⟩,
    by decide +kernel, by decide +kernel⟩

example : parsePadding
    "xi_rho: xi_psi (padding: both) eta_rho: eta_psi (padding: low)".toList =
      .ok [⟨"xi_rho".toList, "xi_psi".toList, "both".toList⟩,
        ⟨"eta_rho".toList, "eta_psi".toList, "low".toList⟩] := by
  decide +kernel

/-! ## C75 -/

/-- C75 as listed: an `axes` attribute is parsed to the names it gives. -/
def C75_statement : Prop :=
  ∀ x y : List Char, Ident x → Ident y →
    parseAxes (axesText [('X', x), ('Y', y)]) = .ok { x := some x, y := some y }

/-- C75 is false: names are cut at the first digit. -/
theorem C75_refuted : ¬ C75_statement := by
  intro h
  have := h "lon2".toList "lat2".toList ⟨by decide +kernel, by decide +kernel⟩
    ⟨by decide +kernel, by decide +kernel⟩
  have e : parseAxes (axesText [('X', "lon2".toList), ('Y', "lat2".toList)]) =
    .ok { x := some "lon".toList, y := some "lat".toList } := by decide +kernel
  rw [e] at this
  exact absurd this (by decide +kernel)

private theorem axisLoop_entries : ∀ (es : List (Char × List Char)) (acc : Axes),
    (∀ e ∈ es, e.1.isAlpha = true ∧ PlainName e.2) →
    axisLoop acc (es.map (fun e => e.1 :: ':' :: ' ' :: e.2)) =
      .ok ⟨(lastOf 'x' es).or acc.x, (lastOf 'y' es).or acc.y, (lastOf 'z' es).or acc.z⟩ := by
  intro es
  induction es with
  | nil => intro acc _; simp [axisLoop, lastOf]
  | cons e es ih =>
    intro acc h
    obtain ⟨hc, hw⟩ := h e (by simp)
    rw [List.map_cons, axisLoop, axisStep_entry acc e.1 e.2 hc hw]
    simp only
    rw [ih _ (fun x hx => h x (List.mem_cons_of_mem _ hx))]
    have hl : ∀ q : Char, lastOf q (e :: es) =
        (lastOf q es).or (if e.1.toLower = q then some e.2 else none) := by
      intro q
      unfold lastOf
      rw [List.reverse_cons, List.find?_append]
      cases hf : List.find? (fun e => e.1.toLower == q) es.reverse with
      | some v => simp
      | none =>
        by_cases hq : e.1.toLower = q
        · simp [hq]
        · have : ¬ (e.1.toLower == q) = true := by simpa using hq
          simp [hq]
    rw [hl, hl, hl]
    by_cases hx : e.1.toLower = 'x'
    · have hy : ¬ e.1.toLower = 'y' := by rw [hx]; decide
      have hz : ¬ e.1.toLower = 'z' := by rw [hx]; decide
      simp [hx, Option.or_assoc]
    · by_cases hy : e.1.toLower = 'y'
      · have hz : ¬ e.1.toLower = 'z' := by rw [hy]; decide
        simp [hy, Option.or_assoc]
      · by_cases hz : e.1.toLower = 'z'
        · simp [hz, Option.or_assoc]
        · simp [hx, hy, hz]
/-- C75, what holds: names of letters and underscores are found, the last one given for each axis,
whatever the case of the letters and whatever other letters occur. -/
theorem C75_partial (es : List (Char × List Char))
    (h : ∀ e ∈ es, e.1.isAlpha = true ∧ PlainName e.2) :
    parseAxes (axesText es) = .ok ⟨lastOf 'x' es, lastOf 'y' es, lastOf 'z' es⟩ := by
  unfold parseAxes
  rw [findAll_axes es h _ (Nat.le_refl _)]
  have := axisLoop_entries es {} h
  simpa using this

private theorem matchAxis_some {s : List Char} {x : List Char × List Char} (h : matchAxis s = some x) :
    ∃ e : Char × List Char, e.1.isAlpha ∧ PlainName e.2 ∧ s = axisEntry e ++ x.2 ∧ x.1 = axisEntry e ∧
      ∀ c, x.2.head? = some c → ¬ (c.isAlpha ∨ c = '_') := by
  unfold matchAxis at h
  split at h
  · cases h
  next c t =>
  split at h
  next hc =>
    split at h
    · cases h
    next s2 h2 =>
    split at h
    · cases h
    next w r h3 =>
    obtain ⟨b1, b2, e3⟩ := many1_some h3
    have e2 := lit_some _ _ _ h2
    cases h
    refine ⟨(c, w), hc, ⟨b1, fun x hx => ?_⟩, ?_, rfl, ?_⟩
    · simpa [wordChar] using b2 x hx
    · rw [e2, e3]
      simp [axisEntry]
    · intro c' hc' hcon
      unfold many1 at h3
      split at h3
      · cases h3
      · simp only [Option.some.injEq, Prod.mk.injEq] at h3
        obtain ⟨_, rfl⟩ := h3
        have := List.head?_dropWhile_not wordChar s2
        rw [show (s2.dropWhile wordChar).head? = some c' from hc'] at this
        have hq : wordChar c' = true := by simpa [wordChar] using hcon
        simp [hq] at this
  · cases h

private theorem matchAxis_entry (e : Char × List Char) (hc : e.1.isAlpha) (hw : PlainName e.2)
    (t : List Char) : matchAxis (axisEntry e ++ t) ≠ none := by
  have e1 : axisEntry e ++ t = e.1 :: (": ".toList ++ (e.2 ++ t)) := by simp [axisEntry]
  rw [e1]
  unfold matchAxis
  simp only
  rw [if_pos hc, lit_append]
  simp only
  obtain ⟨w0, w, hw'⟩ : ∃ w0 w, e.2 = w0 :: w := by
    cases h : e.2 with
    | nil => exact absurd h hw.1
    | cons a b => exact ⟨a, b, rfl⟩
  have : wordChar w0 = true := by
    have := hw.2 w0 (by rw [hw']; simp)
    simpa [wordChar] using this
  rw [hw']
  simp [many1, this]

/-- C75, what holds of every text: the entries are found from left to right, each with the longest
name of letters and underscores, and the last one of each axis counts. Missing: names with other
characters (`C75_refuted`). -/
theorem C75_any_partial (s : List Char) : ∃ es, FoundAxes es s ∧
    parseAxes s = .ok ⟨lastOf 'x' es, lastOf 'y' es, lastOf 'z' es⟩ := by
  have none_nil : FoundAxes [] [] := by
    refine .nil [] ?_
    intro g t e _ _ h
    have := congrArg List.length h
    simp [axisEntry] at this
  have key : ∀ (f : Nat) (s : List Char), s.length ≤ f →
      ∃ es, FoundAxes es s ∧ (∀ e ∈ es, e.1.isAlpha = true ∧ PlainName e.2) ∧
        findAll matchAxis f s = es.map axisEntry := by
    intro f
    induction f with
    | zero =>
      intro s hs
      have : s = [] := List.length_eq_zero_iff.mp (by omega)
      subst this
      exact ⟨[], none_nil, by simp, rfl⟩
    | succ f ih =>
      intro s hs
      cases s with
      | nil => exact ⟨[], none_nil, by simp, rfl⟩
      | cons c t =>
        rw [findAll]
        cases hm : matchAxis (c :: t) with
        | some x =>
          obtain ⟨e, hc, hw, he, hx, hlong⟩ := matchAxis_some hm
          have hlen := congrArg List.length he
          simp only [List.length_append, List.length_cons, axisEntry] at hlen hs
          obtain ⟨es, h1, h2, h3⟩ := ih x.2 (by omega)
          refine ⟨e :: es, ?_, ?_, ?_⟩
          · rw [he]
            exact .cons [] e es x.2 hc hw (fun _ _ _ _ _ _ => Nat.zero_le _) hlong h1
          · intro y hy
            rcases List.mem_cons.1 hy with rfl | hy
            · exact ⟨hc, hw⟩
            · exact h2 y hy
          · simp only [List.map_cons]
            rw [h3, ← hx]
        | none =>
          obtain ⟨es, h1, h2, h3⟩ := ih t (by simpa using hs)
          have start : ∀ (t' : List Char) (e' : Char × List Char), e'.1.isAlpha → PlainName e'.2 →
              c :: t ≠ axisEntry e' ++ t' := by
            intro t' e' hc' hw' h
            rw [h] at hm
            exact matchAxis_entry e' hc' hw' t' hm
          refine ⟨es, ?_, h2, h3⟩
          cases h1 with
          | nil _ hn =>
            refine .nil _ ?_
            intro g t' e' hc' hw' h
            cases g with
            | nil => exact start t' e' hc' hw' (by simpa using h)
            | cons x g =>
              simp only [List.cons_append, List.cons.injEq] at h
              exact hn g t' e' hc' hw' h.2
          | cons g e es s' hc hw first longest h =>
            refine FoundAxes.cons (c :: g) e es s' hc hw ?_ longest h
            intro g' t' e' hc' hw' h'
            cases g' with
            | nil => exact absurd (by simpa using h') (start t' e' hc' hw')
            | cons x g' =>
              simp only [List.cons_append, List.cons.injEq] at h'
              have := first g' t' e' hc' hw' h'.2
              simpa using this
  obtain ⟨es, h1, h2, h3⟩ := key s.length s (Nat.le_refl _)
  refine ⟨es, h1, ?_⟩
  unfold parseAxes
  rw [h3]
  have := axisLoop_entries es {} h2
  simp only [Option.or_none] at this
  exact this

/-- C75. The entries found in a text are determined by it. -/
theorem C75_any_unique (s : List Char) (es es' : List (Char × List Char)) (h : FoundAxes es s)
    (h' : FoundAxes es' s) : es = es' := by
  induction h generalizing es' with
  | nil s hn =>
    cases h' with
    | nil => rfl
    | cons g e es s' hc hw => exact absurd rfl (hn g s' e hc hw)
  | cons g e es s hc hw first longest h ih =>
    generalize hs : g ++ axisEntry e ++ s = w at h'
    cases h' with
    | nil _ hn => exact absurd hs.symm (hn g s e hc hw)
    | cons g' e' es' s' hc' hw' first' longest' h' =>
      have h1 := first g' s' e' hc' hw' hs
      have h2 := first' g s e hc hw hs.symm
      rw [List.append_assoc, List.append_assoc] at hs
      obtain ⟨e1, e2⟩ := List.append_inj hs (by omega)
      simp only [axisEntry, List.cons_append, List.cons.injEq, true_and] at e2
      obtain ⟨e3, e4⟩ := e2
      have q : ∀ {w : List Char}, PlainName w → ∀ c ∈ w, wordChar c = true := by
        intro w hw c hc
        simpa [wordChar] using hw.2 c hc
      have q' : ∀ {s : List Char}, (∀ c, s.head? = some c → ¬ (c.isAlpha ∨ c = '_')) →
          ∀ c, s.head? = some c → wordChar c = false := by
        intro s hl c hc
        simpa [wordChar] using hl c hc
      obtain ⟨a1, a2⟩ := takeWhile_stop wordChar e.2 s (q hw) (q' longest)
      obtain ⟨b1, b2⟩ := takeWhile_stop wordChar e'.2 s' (q hw') (q' longest')
      rw [e4] at a1 a2
      have e5 : e'.2 = e.2 := b1.symm.trans a1
      have e6 : s' = s := b2.symm.trans a2
      subst e6
      rw [ih es' h', show e = e' from Prod.ext e3 e5.symm]

example : parseAxes "X: lon Y: lat t: time y: other".toList =
    .ok { x := some "lon".toList, y := some "other".toList } := by decide +kernel

/-! ## C76 -/

/-- The letter of a direction `_x_`, `_y_` or `_z_` at a place in a name. -/
def DirectionAt (s : List Char) (i : Nat) (c : Char) : Prop :=
  s[i]? = some '_' ∧ s[i + 1]? = some c ∧ s[i + 2]? = some '_' ∧ (c = 'x' ∨ c = 'y' ∨ c = 'z')

/-- A direction with lower case words or underscores before and after it. -/
def InWords (s : List Char) (j : Nat) : Prop :=
  0 < j ∧ (∀ k c, k < j → s[k]? = some c → c.isLower ∨ c = '_') ∧ (∃ c, DirectionAt s j c) ∧
    ∃ d, s[j + 3]? = some d ∧ (d.isLower ∨ d = '_')

theorem dirAt_iff (s : List Char) (c : Char) :
    (∃ t, dirAt s = some (c, t)) ↔ DirectionAt s 0 c := by
  unfold DirectionAt
  constructor
  · rintro ⟨t, h⟩
    unfold dirAt at h
    split at h
    · next c' t' =>
      split at h
      · simp at h
        obtain ⟨rfl, rfl⟩ := h
        next hc => exact ⟨rfl, rfl, rfl, hc⟩
      · simp at h
    · simp at h
  · rintro ⟨h0, h1, h2, hc⟩
    match s, h0, h1, h2 with
    | [a], _, h1, _ => simp at h1
    | [a, b], _, _, h2 => simp at h2
    | a :: b :: d :: t, h0, h1, h2 =>
      simp at h0 h1 h2
      subst h0 h1 h2
      exact ⟨t, by simp [dirAt, hc]⟩

theorem dirAt_tail {s : List Char} {c : Char} {t : List Char} (h : dirAt s = some (c, t)) :
    t = s.drop 3 := by
  unfold dirAt at h
  split at h
  · split at h
    · simp at h; simp [h.2]
    · simp at h
  · simp at h

theorem lowerChar_iff (c : Char) : lowerChar c = true ↔ c.isLower ∨ c = '_' := by
  simp [lowerChar]

theorem directionAt_succ (c : Char) (t : List Char) (i : Nat) (d : Char) :
    DirectionAt (c :: t) (i + 1) d ↔ DirectionAt t i d := by
  unfold DirectionAt
  have e1 : (c :: t)[i + 1 + 1]? = t[i + 1]? := rfl
  have e2 : (c :: t)[i + 1 + 2]? = t[i + 2]? := rfl
  rw [List.getElem?_cons_succ, e1, e2]

theorem tailMatches_iff : ∀ s : List Char, tailMatches s = true ↔
    ∃ j, (∀ k c, k < j → s[k]? = some c → lowerChar c = true) ∧ (∃ c, DirectionAt s j c) ∧
      ∃ d, s[j + 3]? = some d ∧ lowerChar d = true
  | [] => by simp [tailMatches, DirectionAt]
  | c :: t => by
    have ih := tailMatches_iff t
    have e0 : dirThenWord (c :: t) = true ↔ (∃ q, DirectionAt (c :: t) 0 q) ∧
          ∃ d, (c :: t)[0 + 3]? = some d ∧ lowerChar d = true := by
      unfold dirThenWord
      cases hd : dirAt (c :: t) with
      | none =>
        have : ¬ ∃ q, DirectionAt (c :: t) 0 q := by
          rintro ⟨q, hq⟩
          obtain ⟨r, hr⟩ := (dirAt_iff _ _).2 hq
          rw [hd] at hr
          simp at hr
        simp [this]
      | some p =>
        obtain ⟨q, r⟩ := p
        have h1 : ∃ q, DirectionAt (c :: t) 0 q := ⟨q, (dirAt_iff _ _).1 ⟨r, hd⟩⟩
        have h2 := dirAt_tail hd
        have h3 : (c :: t)[0 + 3]? = r.head? := by
          rw [h2, List.head?_drop]
        rw [h3]
        cases r with
        | nil => simp
        | cons x r => simp [h1]
    unfold tailMatches
    rw [Bool.or_eq_true, Bool.and_eq_true, e0, ih]
    constructor
    · rintro (⟨h1, h2⟩ | ⟨hc, j, h1, ⟨q, h2⟩, h3⟩)
      · exact ⟨0, by intro k x hk; omega, h1, h2⟩
      · refine ⟨j + 1, ?_, ⟨q, (directionAt_succ c t j q).2 h2⟩, ?_⟩
        · intro k x hk hx
          cases k with
          | zero => simp at hx; subst hx; exact hc
          | succ k => exact h1 k x (by omega) (by simpa using hx)
        · obtain ⟨d, hd, hl⟩ := h3
          exact ⟨d, hd, hl⟩
    · rintro ⟨j, h1, ⟨q, h2⟩, h3⟩
      cases j with
      | zero => exact Or.inl ⟨⟨q, h2⟩, h3⟩
      | succ j =>
        refine Or.inr ⟨h1 0 c (by omega) rfl, j, ?_, ⟨q, (directionAt_succ c t j q).1 h2⟩, ?_⟩
        · intro k x hk hx
          exact h1 (k + 1) x (by omega) (by simpa using hx)
        · obtain ⟨d, hd, hl⟩ := h3
          exact ⟨d, hd, hl⟩

theorem searchDir_iff : ∀ (s : List Char) (c : Char), searchDir s = some c ↔
    ∃ i, DirectionAt s i c ∧ ∀ k d, k < i → ¬ DirectionAt s k d
  | [], c => by simp [searchDir, DirectionAt]
  | a :: t, c => by
    have ih := searchDir_iff t c
    unfold searchDir
    cases hd : dirAt (a :: t) with
    | some p =>
      obtain ⟨q, r⟩ := p
      have hq := (dirAt_iff _ _).1 ⟨r, hd⟩
      simp only [Option.some.injEq]
      constructor
      · rintro rfl
        exact ⟨0, hq, by intro k d hk; omega⟩
      · rintro ⟨i, h1, h2⟩
        cases i with
        | zero => exact Option.some.inj (hq.2.1.symm.trans h1.2.1)
        | succ i => exact absurd hq (h2 0 q (by omega))
    | none =>
      have h0 : ∀ d, ¬ DirectionAt (a :: t) 0 d := by
        intro d hq
        obtain ⟨r, hr⟩ := (dirAt_iff _ _).2 hq
        rw [hd] at hr
        simp at hr
      simp only
      rw [ih]
      constructor
      · rintro ⟨i, h1, h2⟩
        refine ⟨i + 1, (directionAt_succ a t i c).2 h1, ?_⟩
        intro k d hk
        cases k with
        | zero => exact h0 d
        | succ k => rw [directionAt_succ]; exact h2 k d (by omega)
      · rintro ⟨i, h1, h2⟩
        cases i with
        | zero => exact absurd h1 (h0 c)
        | succ i =>
          refine ⟨i, (directionAt_succ a t i c).1 h1, ?_⟩
          intro k d hk
          rw [← directionAt_succ a t k d]
          exact h2 (k + 1) d (by omega)

theorem nameMatches_iff (s : List Char) : nameMatches s = true ↔ ∃ j, InWords s j := by
  cases s with
  | nil => simp [nameMatches, InWords, DirectionAt]
  | cons c t =>
    unfold nameMatches
    rw [Bool.and_eq_true, tailMatches_iff]
    constructor
    · rintro ⟨hc, j, h1, ⟨q, h2⟩, d, hd, hl⟩
      refine ⟨j + 1, by omega, ?_, ⟨q, (directionAt_succ c t j q).2 h2⟩, d, hd,
        (lowerChar_iff d).1 hl⟩
      intro k x hk hx
      cases k with
      | zero => simp at hx; subst hx; exact (lowerChar_iff _).1 hc
      | succ k => exact (lowerChar_iff _).1 (h1 k x (by omega) (by simpa using hx))
    · rintro ⟨j, hj, h1, ⟨q, h2⟩, d, hd, hl⟩
      cases j with
      | zero => omega
      | succ j =>
        refine ⟨(lowerChar_iff c).2 (h1 0 c (by omega) rfl), j, ?_,
          ⟨q, (directionAt_succ c t j q).1 h2⟩, d, hd, (lowerChar_iff d).2 hl⟩
        intro k x hk hx
        exact (lowerChar_iff x).2 (h1 (k + 1) x (by omega) (by simpa using hx))

/-- C76. A standard name that has a direction among lower case words gives the letter of its first
direction, in upper case; any other name gives none. It never raises. -/
theorem C76_direction (s : List Char) :
    ((∃ j, InWords s j) → ∃ i c, DirectionAt s i c ∧ (∀ k d, k < i → ¬ DirectionAt s k d) ∧
      parseVectorAxis s = .ok (some c.toUpper)) ∧
    ((¬ ∃ j, InWords s j) → parseVectorAxis s = .ok none) := by
  constructor
  · intro h
    have hm := (nameMatches_iff s).2 h
    cases hs : searchDir s with
    | some c =>
      obtain ⟨i, h1, h2⟩ := (searchDir_iff s c).1 hs
      exact ⟨i, c, h1, h2, by simp [parseVectorAxis, hm, hs]⟩
    | none =>
      exfalso
      obtain ⟨j, -, -, ⟨c, hc⟩, -⟩ := h
      -- take the first place
      have : ∃ i, (∃ c, DirectionAt s i c) ∧ ∀ k, k < i → ¬ ∃ d, DirectionAt s k d := by
        classical
        refine ⟨Nat.find ⟨j, c, hc⟩, Nat.find_spec (⟨j, c, hc⟩ : ∃ i, ∃ c, DirectionAt s i c), ?_⟩
        intro k hk
        exact Nat.find_min (⟨j, c, hc⟩ : ∃ i, ∃ c, DirectionAt s i c) hk
      obtain ⟨i, ⟨c, hc⟩, hmin⟩ := this
      have := (searchDir_iff s c).2 ⟨i, hc, fun k d hk hd => hmin k hk ⟨d, hd⟩⟩
      rw [hs] at this
      simp at this
  · intro h
    have hm : nameMatches s = false := by
      by_contra hc
      exact h ((nameMatches_iff s).1 (by simpa using hc))
    simp [parseVectorAxis, hm]

example : parseVectorAxis "sea_water_x_velocity".toList = .ok (some 'X') ∧
    parseVectorAxis "sea_water_velocity".toList = .ok none ∧
    parseVectorAxis "Sea_water_x_velocity".toList = .ok none := by decide +kernel

example : InWords "sea_y_a".toList 3 := by
  refine ⟨by omega, ?_, ⟨'y', by decide +kernel, by decide +kernel, by decide +kernel,
    by decide +kernel⟩, 'a', by decide +kernel, by decide +kernel⟩
  intro k c hk hc
  have : k = 0 ∨ k = 1 ∨ k = 2 := by omega
  rcases this with rfl | rfl | rfl <;> simp at hc <;> subst hc <;> decide

/-! ## C77 -/

/-- C77 as listed, for one more variable: what else lies on the node dimensions does not change the
coordinates found, `lon` and `lat`. -/
def C77_statement : Prop :=
  ∀ (dims : List (List Char)) (other : FVar),
    findNodeCoordinates dims [⟨"lon".toList, dims, none⟩, other, ⟨"lat".toList, dims, none⟩] =
      some ("lon".toList, "lat".toList)

/-- C77 is false: `bathymetry` has a `y` in it and is taken for the latitude. -/
theorem C77_refuted : ¬ C77_statement := by
  intro h
  have e : findNodeCoordinates ["j".toList, "i".toList]
      [⟨"lon".toList, ["j".toList, "i".toList], none⟩,
        ⟨"bathymetry".toList, ["j".toList, "i".toList], none⟩,
        ⟨"lat".toList, ["j".toList, "i".toList], none⟩] =
      some ("lon".toList, "bathymetry".toList) := by decide +kernel
  have := h ["j".toList, "i".toList] ⟨"bathymetry".toList, ["j".toList, "i".toList], none⟩
  rw [e] at this
  exact absurd this (by decide +kernel)

/-- One of these words is in the name or in the standard name, in any case. -/
def Mentions (words : List String) (v : FVar) : Prop :=
  ∃ w ∈ words, ∃ pre post : List Char, v.name.map Char.toLower = pre ++ w.toList ++ post ∨
    ∃ s, v.standardName = some s ∧ s.map Char.toLower = pre ++ w.toList ++ post

/-- A variable on the node dimensions, in any order, that counts as an x coordinate. -/
def CountsAsX (dims : List (List Char)) (v : FVar) : Prop :=
  (∀ d, d ∈ v.dims ↔ d ∈ dims) ∧ Mentions ["x", "lon", "longitude"] v

/-- A variable on the node dimensions that counts as a y coordinate. -/
def CountsAsY (dims : List (List Char)) (v : FVar) : Prop :=
  (∀ d, d ∈ v.dims ↔ d ∈ dims) ∧ ¬ Mentions ["x", "lon", "longitude"] v ∧
    Mentions ["y", "lat", "latitude"] v

/-- What the search takes for an x coordinate. -/
def HitX (dims : List (List Char)) (v : FVar) : Prop :=
  sameSet v.dims dims = true ∧ named xWords v = true

/-- What the search takes for a y coordinate. -/
def HitY (dims : List (List Char)) (v : FVar) : Prop :=
  sameSet v.dims dims = true ∧ named xWords v = false ∧ named yWords v = true

theorem findLoop_spec (dims : List (List Char)) (nx ny : List Char) : ∀ (vars : List FVar)
    (x y : Option (List Char)), (∀ v ∈ vars, HitX dims v → v.name = nx) →
    (∀ v ∈ vars, HitY dims v → v.name = ny) →
    (x = none ∨ x = some nx) → (y = none ∨ y = some ny) →
    (x = some nx ∨ ∃ v ∈ vars, HitX dims v) → (y = some ny ∨ ∃ v ∈ vars, HitY dims v) →
    ¬ (x.isSome ∧ y.isSome) →
    findLoop dims x y vars = (some nx, some ny)
  | [], x, y, _, _, _, _, hx, hy, hn => by
    rcases hx with rfl | ⟨v, hv, _⟩
    · rcases hy with rfl | ⟨v, hv, _⟩
      · exact absurd ⟨rfl, rfl⟩ hn
      · simp at hv
    · simp at hv
  | v :: vs, x, y, h1, h2, h3, h4, hx, hy, _ => by
    unfold findLoop
    simp only
    generalize hx' : (if (sameSet v.dims dims && named xWords v) = true then some v.name else x) = x'
    generalize hy' : (if (sameSet v.dims dims && !named xWords v && named yWords v) = true
      then some v.name else y) = y'
    have a1 : (x' = none ∨ x' = some nx) ∧ (HitX dims v → x' = some nx) ∧
        (x = some nx → x' = some nx) := by
      subst hx'
      split
      · next hc =>
        rw [Bool.and_eq_true] at hc
        have := h1 v (by simp) hc
        simp [this]
      · next hc =>
        rw [Bool.and_eq_true] at hc
        exact ⟨h3, fun h => absurd h hc, id⟩
    have a2 : (y' = none ∨ y' = some ny) ∧ (HitY dims v → y' = some ny) ∧
        (y = some ny → y' = some ny) := by
      subst hy'
      split
      · next hc =>
        rw [Bool.and_eq_true, Bool.and_eq_true, Bool.not_eq_true'] at hc
        have := h2 v (by simp) ⟨hc.1.1, hc.1.2, hc.2⟩
        simp [this]
      · next hc =>
        rw [Bool.and_eq_true, Bool.and_eq_true, Bool.not_eq_true'] at hc
        exact ⟨h4, fun h => absurd ⟨⟨h.1, h.2.1⟩, h.2.2⟩ hc, id⟩
    split
    · next hs =>
      rw [Bool.and_eq_true] at hs
      rcases a1.1 with q | q
      · rw [q] at hs; simp at hs
      · rcases a2.1 with q' | q'
        · rw [q'] at hs; simp at hs
        · rw [q, q']
    · next hs =>
      apply findLoop_spec dims nx ny vs x' y' (fun u hu => h1 u (List.mem_cons_of_mem _ hu))
        (fun u hu => h2 u (List.mem_cons_of_mem _ hu)) a1.1 a2.1
      · rcases hx with hx | ⟨u, hu, hc⟩
        · exact Or.inl (a1.2.2 hx)
        · rcases List.mem_cons.1 hu with rfl | hu
          · exact Or.inl (a1.2.1 hc)
          · exact Or.inr ⟨u, hu, hc⟩
      · rcases hy with hy | ⟨u, hu, hc⟩
        · exact Or.inl (a2.2.2 hy)
        · rcases List.mem_cons.1 hu with rfl | hu
          · exact Or.inl (a2.2.1 hc)
          · exact Or.inr ⟨u, hu, hc⟩
      · rwa [← Bool.and_eq_true]

theorem sameSet_iff (a b : List (List Char)) : sameSet a b = true ↔ ∀ d, d ∈ a ↔ d ∈ b := by
  unfold sameSet
  simp only [Bool.and_eq_true, List.all_eq_true, List.contains_iff_mem]
  exact ⟨fun h d => ⟨h.1 d, h.2 d⟩, fun h => ⟨fun d => (h d).1, fun d => (h d).2⟩⟩

theorem mentions_iff (words : List String) (hw : "" ∉ words) (v : FVar) :
    named (words.map String.toList) v = true ↔ Mentions words v := by
  unfold named Mentions
  simp only [Bool.or_eq_true, List.any_map, List.any_eq_true, Function.comp, contains_iff]
  constructor
  · rintro (⟨x, hx, pre, post, h⟩ | ⟨x, hx, pre, post, h⟩)
    · exact ⟨x, hx, pre, post, Or.inl h⟩
    · refine ⟨x, hx, pre, post, Or.inr ?_⟩
      cases hs : v.standardName with
      | some s => rw [hs] at h; exact ⟨s, rfl, h⟩
      | none =>
        rw [hs] at h
        have := congrArg List.length h
        simp only [Option.getD_none, List.map_nil, List.length_nil, List.length_append] at this
        have h0 : x.toList = [] := List.length_eq_zero_iff.1 (by omega)
        exact absurd (by rw [← String.toList_eq_nil_iff.1 h0]; exact hx) hw
  · rintro ⟨x, hx, pre, post, h | ⟨s, hs, h⟩⟩
    · exact Or.inl ⟨x, hx, pre, post, h⟩
    · exact Or.inr ⟨x, hx, pre, post, by rw [hs]; exact h⟩

theorem hitX_iff (dims : List (List Char)) (v : FVar) : HitX dims v ↔ CountsAsX dims v := by
  unfold HitX CountsAsX
  rw [sameSet_iff, show named xWords v = true ↔ _ from
    mentions_iff ["x", "lon", "longitude"] (by decide) v]

theorem hitY_iff (dims : List (List Char)) (v : FVar) : HitY dims v ↔ CountsAsY dims v := by
  unfold HitY CountsAsY
  rw [sameSet_iff, ← Bool.not_eq_true, show named xWords v = true ↔ _ from
    mentions_iff ["x", "lon", "longitude"] (by decide) v, show named yWords v = true ↔ _ from
    mentions_iff ["y", "lat", "latitude"] (by decide) v]

/-- C77, what holds: if one name on the node dimensions counts as x and one as y, these are found
in any order and among any other variables. -/
theorem C77_partial (dims : List (List Char)) (vars : List FVar) (vx vy : FVar) (hx : vx ∈ vars)
    (hy : vy ∈ vars) (cx : CountsAsX dims vx) (cy : CountsAsY dims vy)
    (ux : ∀ v ∈ vars, CountsAsX dims v → v.name = vx.name)
    (uy : ∀ v ∈ vars, CountsAsY dims v → v.name = vy.name) :
    findNodeCoordinates dims vars = some (vx.name, vy.name) := by
  simp only [← hitX_iff, ← hitY_iff] at cx cy ux uy
  unfold findNodeCoordinates
  rw [findLoop_spec dims vx.name vy.name vars none none ux uy (Or.inl rfl) (Or.inl rfl)
    (Or.inr ⟨vx, hx, cx⟩) (Or.inr ⟨vy, hy, cy⟩) (by simp)]

theorem findLoop_none (dims : List (List Char)) : ∀ (vars : List FVar) (x y : Option (List Char)),
    ((x = none ∧ ∀ v ∈ vars, ¬ HitX dims v) → (findLoop dims x y vars).1 = none) ∧
    ((y = none ∧ ∀ v ∈ vars, ¬ HitY dims v) → (findLoop dims x y vars).2 = none)
  | [], x, y => by simp [findLoop]
  | v :: vs, x, y => by
    unfold findLoop
    simp only
    constructor
    · rintro ⟨rfl, h⟩
      have h0 : ¬ (sameSet v.dims dims && named xWords v) = true := by
        rw [Bool.and_eq_true]; exact h v (by simp)
      rw [if_neg h0]
      simp only [Option.isSome_none, Bool.false_and, Bool.false_eq_true, if_false]
      exact (findLoop_none dims vs _ _).1 ⟨rfl, fun u hu => h u (List.mem_cons_of_mem _ hu)⟩
    · rintro ⟨rfl, h⟩
      have h0 : ¬ (sameSet v.dims dims && !named xWords v && named yWords v) = true := by
        rw [Bool.and_eq_true, Bool.and_eq_true, Bool.not_eq_true']
        rintro ⟨⟨a, b⟩, c⟩
        exact h v (by simp) ⟨a, b, c⟩
      rw [if_neg h0]
      simp only [Option.isSome_none, Bool.and_false, Bool.false_eq_true, if_false]
      exact (findLoop_none dims vs _ _).2 ⟨rfl, fun u hu => h u (List.mem_cons_of_mem _ hu)⟩

/-- C77. If no variable on the node dimensions counts as x, or none as y, nothing is found. -/
theorem C77_nothing (dims : List (List Char)) (vars : List FVar)
    (h : (∀ v ∈ vars, ¬ CountsAsX dims v) ∨ (∀ v ∈ vars, ¬ CountsAsY dims v)) :
    findNodeCoordinates dims vars = none := by
  simp only [← hitX_iff, ← hitY_iff] at h
  unfold findNodeCoordinates
  rcases h with h | h
  · have := (findLoop_none dims vars none none).1 ⟨rfl, h⟩
    split
    · next e => rw [e] at this; simp at this
    · rfl
  · have := (findLoop_none dims vars none none).2 ⟨rfl, h⟩
    split
    · next e => rw [e] at this; simp at this
    · rfl

example : findNodeCoordinates ["j".toList, "i".toList]
    [⟨"depth".toList, ["j".toList, "i".toList], none⟩,
      ⟨"g1".toList, ["i".toList, "j".toList], some "Latitude".toList⟩,
      ⟨"lon_rho".toList, ["r".toList, "i".toList], none⟩,
      ⟨"LON".toList, ["j".toList, "i".toList], none⟩] = some ("LON".toList, "g1".toList) := by
  decide +kernel

/-- Non-vacuity of `C77_partial`: the hypotheses of the example hold. -/
example : ∃ (dims : List (List Char)) (vars : List FVar), ∃ vx ∈ vars, ∃ vy ∈ vars, CountsAsX dims vx ∧ CountsAsY dims vy ∧
    (∀ v ∈ vars, CountsAsX dims v → v.name = vx.name) ∧
    (∀ v ∈ vars, CountsAsY dims v → v.name = vy.name) ∧ vars.length = 3 := by
  refine ⟨["j".toList, "i".toList], [⟨"depth".toList, ["j".toList, "i".toList], none⟩,
      ⟨"g1".toList, ["i".toList, "j".toList], some "Latitude".toList⟩,
      ⟨"LON".toList, ["j".toList, "i".toList], none⟩], _, List.mem_cons_of_mem _
      (List.mem_cons_of_mem _ List.mem_cons_self), _, List.mem_cons_of_mem _ List.mem_cons_self, ?_⟩
  simp only [← hitX_iff, ← hitY_iff, HitX, HitY]
  decide +kernel

end Verif
