import Verif.Model.SFile
import Verif.Lemmas.SText
import Verif.Props.SText
import Mathlib.Data.List.Forall2
import Mathlib.Data.List.Nodup
import Mathlib.Data.List.TakeWhile

/-!
# Lemmas on structured grid files
-/

set_option autoImplicit false

namespace Verif.SFile
open Verif Verif.Spec
open Verif.SText (wordChar_iff axisStep_entry)

theorem bind_ok {ε α β : Type} {x : Except ε α} {k : α → Except ε β} {b : β} :
    (x >>= k) = .ok b ↔ ∃ a, x = .ok a ∧ k a = .ok b := by
  cases x with
  | error e => simp [bind, Except.bind]
  | ok a => simp [bind, Except.bind]

theorem mapM_iff {ε α β : Type} (k : α → Except ε β) : ∀ (l : List α) (r : List β),
    l.mapM k = .ok r ↔ List.Forall₂ (fun a b => k a = .ok b) l r
  | [], r => by
    rw [List.mapM_nil]
    cases r with
    | nil => simp [pure, Except.pure]
    | cons b r => simp [pure, Except.pure]
  | a :: l, r => by
    rw [List.mapM_cons, bind_ok]
    simp only [bind_ok, mapM_iff k l, pure, Except.pure, Except.ok.injEq]
    constructor
    · rintro ⟨b, hb, bs, hbs, rfl⟩
      exact .cons hb hbs
    · intro h
      cases h with
      | cons hb hbs => exact ⟨_, hb, _, hbs, rfl⟩

theorem mapM_exists {ε α β : Type} (k : α → Except ε β) : ∀ (l : List α),
    (∀ a ∈ l, ∃ b, k a = .ok b) → ∃ r, l.mapM k = .ok r
  | [], _ => ⟨[], rfl⟩
  | a :: l, h => by
    obtain ⟨b, hb⟩ := h a (by simp)
    obtain ⟨r, hr⟩ := mapM_exists k l (fun x hx => h x (List.mem_cons_of_mem _ hx))
    refine ⟨b :: r, ?_⟩
    rw [mapM_iff] at hr ⊢
    exact .cons hb hr

theorem forall₂_left {α β : Type} {R : α → β → Prop} {l : List α} {r : List β}
    (h : List.Forall₂ R l r) : ∀ a ∈ l, ∃ b ∈ r, R a b := by
  induction h with
  | nil => simp
  | cons hab _ ih =>
    intro a ha
    rcases List.mem_cons.1 ha with rfl | ha
    · exact ⟨_, by simp, hab⟩
    · obtain ⟨b, hb, hr⟩ := ih a ha
      exact ⟨b, List.mem_cons_of_mem _ hb, hr⟩

theorem forall₂_right {α β : Type} {R : α → β → Prop} {l : List α} {r : List β}
    (h : List.Forall₂ R l r) : ∀ b ∈ r, ∃ a ∈ l, R a b := by
  induction h with
  | nil => simp
  | cons hab _ ih =>
    intro a ha
    rcases List.mem_cons.1 ha with rfl | ha
    · exact ⟨_, by simp, hab⟩
    · obtain ⟨b, hb, hr⟩ := ih a ha
      exact ⟨b, List.mem_cons_of_mem _ hb, hr⟩

theorem forall₂_map {α β γ : Type} {R : α → β → Prop} {l : List α} {r : List β} (p : α → γ)
    (q : β → γ) (hpq : ∀ a b, R a b → p a = q b) (h : List.Forall₂ R l r) : l.map p = r.map q := by
  induction h with
  | nil => rfl
  | cons hab _ ih => rw [List.map_cons, List.map_cons, hpq _ _ hab, ih]

/-! ## Splitting and joining -/

theorem splitAt_ne (q : Char → Bool) : ∀ s : Txt, splitAt q s ≠ []
  | [] => by simp [splitAt]
  | c :: s => by
    unfold splitAt
    split
    · simp
    · split <;> simp

theorem splitAt_word (q : Char → Bool) : ∀ w : Txt, (∀ c ∈ w, q c = false) → splitAt q w = [w]
  | [], _ => rfl
  | c :: w, h => by
    unfold splitAt
    rw [if_neg (by simp [h c (by simp)]), splitAt_word q w (fun x hx => h x (List.mem_cons_of_mem _ hx))]

theorem splitAt_sep (q : Char → Bool) (x : Char) (hx : q x = true) (s : Txt) :
    ∀ w : Txt, (∀ c ∈ w, q c = false) → splitAt q (w ++ x :: s) = w :: splitAt q s
  | [], _ => by rw [List.nil_append, splitAt, if_pos hx]
  | c :: w, h => by
    rw [List.cons_append, splitAt, if_neg (by simp [h c (by simp)]),
      splitAt_sep q x hx s w (fun y hy => h y (List.mem_cons_of_mem _ hy))]

theorem splitAt_join (q : Char → Bool) (hq : q ' ' = true) : ∀ ws : List Txt, ws ≠ [] →
    (∀ w ∈ ws, ∀ c ∈ w, q c = false) → splitAt q (joinSpace ws) = ws
  | [], h, _ => absurd rfl h
  | [w], _, h => by rw [joinSpace, splitAt_word q w (h w (by simp))]
  | w :: v :: ws, _, h => by
    rw [joinSpace, splitAt_sep q ' ' hq _ w (h w (by simp)),
      splitAt_join q hq (v :: ws) (by simp) (fun x hx => h x (List.mem_cons_of_mem _ hx))]

theorem splitAt_parts (q : Char → Bool) : ∀ (s : Txt), ∀ w ∈ splitAt q s, ∀ c ∈ w, q c = false
  | [], w, hw, c, hc => by simp [splitAt] at hw; subst hw; simp at hc
  | a :: s, w, hw, c, hc => by
    unfold splitAt at hw
    split at hw
    · rcases List.mem_cons.1 hw with rfl | hw
      · simp at hc
      · exact splitAt_parts q s w hw c hc
    · next ha =>
      split at hw
      · simp at hw
        subst hw
        simp at hc
        subst hc
        simpa using ha
      · next v vs e =>
        rcases List.mem_cons.1 hw with rfl | hw
        · rcases List.mem_cons.1 hc with rfl | hc
          · simpa using ha
          · exact splitAt_parts q s v (by rw [e]; simp) c hc
        · exact splitAt_parts q s w (by rw [e]; exact List.mem_cons_of_mem _ hw) c hc

theorem join_split : ∀ s : Txt, joinSpace (splitSpace s) = s
  | [] => rfl
  | c :: s => by
    have ih := join_split s
    unfold splitSpace at ih ⊢
    rw [splitAt]
    have hne := splitAt_ne (· == ' ') s
    generalize splitAt (· == ' ') s = l at ih hne
    split
    · next hc =>
      have hc : c = ' ' := by simpa using hc
      subst hc
      cases l with
      | nil => exact absurd rfl hne
      | cons w ws => rw [joinSpace, ih]; rfl
    · cases l with
      | nil => exact absurd rfl hne
      | cons w ws =>
        cases ws with
        | nil => simp only [joinSpace] at ih ⊢; rw [ih]
        | cons v vs => simp only [joinSpace] at ih ⊢; rw [← ih]; rfl

theorem split_join (ws : List Txt) (hne : ws ≠ []) (h : ∀ w ∈ ws, ' ' ∉ w) :
    splitSpace (joinSpace ws) = ws :=
  splitAt_join _ (by decide) ws hne (fun w hw c hc => by
    have : c ≠ ' ' := fun e => h w hw (e ▸ hc)
    simpa using this)

theorem split_no_space (s : Txt) : ∀ w ∈ splitSpace s, ' ' ∉ w := by
  intro w hw hc
  have := splitAt_parts _ s w hw ' ' hc
  simp at this

theorem words_parts (s : Txt) : ∀ w ∈ words s, w ≠ [] ∧ ∀ c ∈ w, c.isWhitespace = false := by
  intro w hw
  obtain ⟨h1, h2⟩ := List.mem_filter.1 hw
  exact ⟨by rintro rfl; simp at h2, splitAt_parts _ s w h1⟩

theorem words_join (ws : List Txt) (h : ∀ w ∈ ws, w ≠ [] ∧ ∀ c ∈ w, c.isWhitespace = false) :
    words (joinSpace ws) = ws := by
  cases ws with
  | nil => decide
  | cons w ws =>
    unfold words
    rw [splitAt_join Char.isWhitespace (by decide) _ (by simp) (fun x hx => (h x hx).2),
      List.filter_eq_self]
    intro x hx
    have := (h x hx).1
    cases x with
    | nil => exact absurd rfl this
    | cons c x => rfl

/-! ## Axes -/

/-- Every match of the pattern is a letter and a plain name. -/
theorem matchAxis_form {s b r : Txt} (h : SText.matchAxis s = some (b, r)) :
    ∃ c w, b = c :: ':' :: ' ' :: w ∧ c.isAlpha = true ∧ PlainName w := by
  unfold SText.matchAxis at h
  split at h
  · cases h
  · next c t =>
    split at h
    · next hc =>
      split at h
      · cases h
      · next s2 hs2 =>
        split at h
        · cases h
        · next w r' hw =>
          simp only [Option.some.injEq, Prod.mk.injEq] at h
          refine ⟨c, w, by rw [← h.1]; rfl, hc, ?_⟩
          unfold SText.many1 at hw
          split at hw
          · cases hw
          · next hne =>
            simp only [Option.some.injEq, Prod.mk.injEq] at hw
            rw [← hw.1]
            refine ⟨hne, fun x hx => ?_⟩
            exact (wordChar_iff x).1 (List.mem_takeWhile_imp hx)
    · cases h

theorem findAll_forms : ∀ (f : Nat) (s : Txt), ∀ b ∈ SText.findAll SText.matchAxis f s,
    ∃ c w, b = c :: ':' :: ' ' :: w ∧ c.isAlpha = true ∧ PlainName w
  | 0, _, b, h => by simp [SText.findAll] at h
  | f + 1, [], b, h => by simp [SText.findAll] at h
  | f + 1, c :: t, b, h => by
    rw [SText.findAll] at h
    split at h
    · next b' r hm =>
      rcases List.mem_cons.1 h with rfl | h
      · exact matchAxis_form hm
      · exact findAll_forms f _ b h
    · exact findAll_forms f _ b h

/-- Plain names for the axes that are there. -/
def PlainAxes (a : SText.Axes) : Prop :=
  (∀ n, a.x = some n → PlainName n) ∧ (∀ n, a.y = some n → PlainName n) ∧
    (∀ n, a.z = some n → PlainName n)

theorem axisLoop_forms : ∀ (ms : List Txt) (a : SText.Axes), PlainAxes a →
    (∀ b ∈ ms, ∃ c w, b = c :: ':' :: ' ' :: w ∧ c.isAlpha = true ∧ PlainName w) →
    ∃ a', SText.axisLoop a ms = .ok a' ∧ PlainAxes a'
  | [], a, h, _ => ⟨a, rfl, h⟩
  | m :: ms, a, h, hm => by
    obtain ⟨c, w, rfl, hc, hw⟩ := hm m (by simp)
    rw [SText.axisLoop, axisStep_entry a c w hc hw]
    simp only
    apply axisLoop_forms ms _ ?_ (fun b hb => hm b (List.mem_cons_of_mem _ hb))
    have : ∀ n, some w = some n → PlainName n := by rintro n ⟨⟩; exact hw
    split
    · exact ⟨this, h.2.1, h.2.2⟩
    · split
      · exact ⟨h.1, this, h.2.2⟩
      · split
        · exact ⟨h.1, h.2.1, this⟩
        · exact h

theorem parseAxes_ok (s : Txt) : ∃ a, SText.parseAxes s = .ok a ∧ PlainAxes a :=
  axisLoop_forms _ {} ⟨by simp, by simp, by simp⟩ (findAll_forms _ s)

theorem parseAxes_space (t : Txt) : SText.parseAxes (' ' :: t) = SText.parseAxes t := rfl

theorem parseAxes_texts (a : SText.Axes) (h : PlainAxes a) :
    SText.parseAxes (joinSpace (axesTexts a)) = .ok a := by
  have key : ∀ es : List (Char × Txt), (∀ e ∈ es, e.1.isAlpha = true ∧ PlainName e.2) → es ≠ [] →
      Spec.axesText es = ' ' :: joinSpace (es.map (fun e => e.1 :: ':' :: ' ' :: e.2)) := by
    intro es
    induction es with
    | nil => intro _ h; exact absurd rfl h
    | cons e es ih =>
      intro he _
      cases es with
      | nil => simp [Spec.axesText, joinSpace]
      | cons e' es =>
        obtain ⟨c, w⟩ := e
        rw [Spec.axesText, ih (fun x hx => he x (List.mem_cons_of_mem _ hx)) (by simp)]
        simp [joinSpace]
  obtain ⟨x, y, z⟩ := a
  obtain ⟨hx, hy, hz⟩ := h
  have run : ∀ es : List (Char × Txt), (∀ e ∈ es, e.1.isAlpha = true ∧ PlainName e.2) → es ≠ [] →
      SText.parseAxes (joinSpace (es.map (fun e => e.1 :: ':' :: ' ' :: e.2))) =
        .ok ⟨lastOf 'x' es, lastOf 'y' es, lastOf 'z' es⟩ := by
    intro es he hne
    have := C75_partial es he
    rw [key es he hne, parseAxes_space] at this
    exact this
  have all : ∀ es : List (Char × Txt), es = (x.toList.map (Prod.mk 'X')) ++
      (y.toList.map (Prod.mk 'Y')) ++ (z.toList.map (Prod.mk 'Z')) →
      ∀ e ∈ es, e.1.isAlpha = true ∧ PlainName e.2 := by
    rintro es rfl e he
    simp only [List.mem_append, List.mem_map, Option.mem_toList] at he
    rcases he with (⟨n, hn, rfl⟩ | ⟨n, hn, rfl⟩) | ⟨n, hn, rfl⟩
    · exact ⟨rfl, hx n hn⟩
    · exact ⟨rfl, hy n hn⟩
    · exact ⟨rfl, hz n hn⟩
  have := run _ (all _ rfl)
  cases x with
  | none =>
    cases y with
    | none =>
      cases z with
      | none => rfl
      | some z => exact this (by simp)
    | some y =>
      cases z with
      | none => exact this (by simp)
      | some z => exact this (by simp)
  | some x =>
    cases y with
    | none =>
      cases z with
      | none => exact this (by simp)
      | some z => exact this (by simp)
    | some y =>
      cases z with
      | none => exact this (by simp)
      | some z => exact this (by simp)

theorem direction_ok (s : Txt) : ∃ d, SText.parseVectorAxis s = .ok d := by
  obtain ⟨h1, h2⟩ := C76_direction s
  by_cases h : ∃ j, InWords s j
  · obtain ⟨i, c, -, -, e⟩ := h1 h
    exact ⟨_, e⟩
  · exact ⟨_, h2 h⟩

end Verif.SFile
