import Verif.Model.Vector
import Verif.Spec.Vector
import Verif.Lemmas.Vector
import Verif.Props.Util

/-!
# Properties of vector variables: C58, C82, C83
-/

set_option autoImplicit false

namespace Verif
open Verif.Spec Verif.Vector
open Verif.Util (Arr FVar reorganize)
open Verif.Cache (lookup Obj query store)

/-! ## C58: values -/

section
variable {K T O κ δ ν : Type} [DecidableEq κ]

theorem allAt_ok (f : Obj κ δ (List ν) → Obj κ δ (List ν) × Except Err (List ν))
    (os : List (Obj κ δ (List ν))) (cols : List (List ν)) :
    (allAt f os).2 = .ok cols ↔ List.Forall₂ (fun o c => (f o).2 = .ok c) os cols := by
  induction os generalizing cols with
  | nil =>
    simp only [allAt, List.forall₂_nil_left_iff, Except.ok.injEq]
    exact eq_comm
  | cons o os ih =>
    rw [List.forall₂_cons_left_iff]
    unfold allAt
    cases hf : f o with
    | mk o' r =>
      cases r with
      | error e => simp
      | ok v =>
        simp only
        cases hr : (allAt f os).2 with
        | error e =>
          constructor
          · intro h; cases h
          · rintro ⟨c, cs, -, h, -⟩
            rw [← ih cs, hr] at h
            cases h
        | ok vs =>
          constructor
          · intro h
            cases h
            exact ⟨v, vs, rfl, (ih vs).1 hr, rfl⟩
          · rintro ⟨c, cs, h1, h2, rfl⟩
            cases h1
            rw [← ih cs, hr] at h2
            cases h2
            rfl

theorem allAt_error (f : Obj κ δ (List ν) → Obj κ δ (List ν) × Except Err (List ν))
    (os : List (Obj κ δ (List ν))) (pre post : List (Obj κ δ (List ν))) (o : Obj κ δ (List ν))
    (e : Err) (h : os = pre ++ o :: post) (he : (f o).2 = .error e)
    (hpre : ∀ u ∈ pre, ∃ c, (f u).2 = .ok c) : (allAt f os).2 = .error e := by
  subst h
  induction pre with
  | nil =>
    rw [List.nil_append]
    unfold allAt
    cases hf : f o with
    | mk o' r => rw [hf] at he; simp only at he; subst he; rfl
  | cons u pre ih =>
    obtain ⟨c, hc⟩ := hpre u List.mem_cons_self
    have := ih (fun w hw => hpre w (List.mem_cons_of_mem _ hw))
    rw [List.cons_append]
    unfold allAt
    cases hf : f u with
    | mk o' r =>
      rw [hf] at hc
      simp only at hc
      subst hc
      simp only [this]
      rfl

theorem allAt_states (f : Obj κ δ (List ν) → Obj κ δ (List ν) × Except Err (List ν))
    (os : List (Obj κ δ (List ν))) :
    List.Forall₂ (fun o o' => o' = o ∨ o' = (f o).1) os (allAt f os).1 := by
  induction os with
  | nil => exact List.Forall₂.nil
  | cons o os ih =>
    unfold allAt
    cases hf : f o with
    | mk o' r =>
      cases r with
      | error e =>
        refine List.Forall₂.cons (Or.inr (by rw [hf])) ?_
        exact List.forall₂_same.2 (fun x _ => Or.inl rfl)
      | ok v => exact List.Forall₂.cons (Or.inr (by rw [hf])) ih

/-- The points passed on to the components, and the hash passed on, are those the component would
have worked out itself. -/
theorem component_same (key : List K → T → κ) (eval : δ → Query K T O → Except Err (List ν))
    (o : Obj κ δ (List ν)) (g : Given K) (t : T) (opts : O) (mem : Bool) (p p' : Arr K)
    (h1 : g.resolve = .ok p) (h2 : reorganize p = .ok p') :
    componentAt key eval o { points := some p' } t opts (some (key p'.data t)) mem =
      componentAt key eval o g t opts none mem := by
  unfold componentAt
  rw [h1]
  simp only [Given.resolve, h2, C54_twice p p' h2]
  rfl

/-- C58. A vector that has not been asked for these points and this time, or is asked without its
cache, answers exactly with the rows of what its components answer to the same question, and answers
only if all of them do. -/
theorem C58_rows (key : List K → T → κ) (eval : δ → Query K T O → Except Err (List ν))
    (s : Vec κ δ ν) (g : Given K) (t : T) (opts : O) (mem : Bool)
    (hs : mem = false ∨ ∀ p p', g.resolve = .ok p → reorganize p = .ok p' →
      lookup s.memo (key p'.data t) = none)
    (hne : s.comps ≠ []) (rows : List (List ν)) :
    (vectorAt key eval s g t opts mem).2 = .ok rows ↔
      ∃ cols n, List.Forall₂ (fun o c => (componentAt key eval o g t opts none mem).2 = .ok c)
        s.comps cols ∧ RowsOf rows cols n := by
  have hbad : ∀ e, (∀ o, (componentAt key eval o g t opts none mem).2 = .error e) →
      ¬ ∃ cols n, List.Forall₂ (fun o c => (componentAt key eval o g t opts none mem).2 = .ok c)
        s.comps cols ∧ RowsOf rows cols n := by
    rintro e he ⟨cols, n, h, -⟩
    cases hc : s.comps with
    | nil => exact hne hc
    | cons o os =>
      rw [hc, List.forall₂_cons_left_iff] at h
      obtain ⟨c, _, h, -⟩ := h
      rw [he o] at h
      cases h
  unfold vectorAt
  cases h1 : g.resolve with
  | error e =>
    simp only [reduceCtorEq, false_iff]
    exact hbad e (fun o => by unfold componentAt; rw [h1])
  | ok p =>
    cases h2 : reorganize p with
    | error e =>
      simp only [h2, reduceCtorEq, false_iff]
      exact hbad e (fun o => by unfold componentAt; rw [h1]; simp only [h2])
    | ok p' =>
      have hm : (if mem = true then lookup s.memo (key p'.data t) else none) = none := by
        rcases hs with rfl | hs
        · rfl
        · rw [hs p p' h1 h2]; simp
      simp only [h2, hm, component_same key eval _ g t opts mem p p' h1 h2]
      cases hr : (allAt (fun o => componentAt key eval o g t opts none mem) s.comps).2 with
      | error e =>
        simp only [reduceCtorEq, false_iff]
        rintro ⟨cols, n, h, -⟩
        rw [← allAt_ok, hr] at h
        cases h
      | ok cols =>
        have hcols := (allAt_ok _ _ _).1 hr
        have hcn : cols ≠ [] := by
          rintro rfl
          rw [List.forall₂_nil_right_iff] at hcols
          exact hne hcols
        have huniq : ∀ cols', List.Forall₂
            (fun o c => (componentAt key eval o g t opts none mem).2 = .ok c) s.comps cols' →
            cols' = cols := by
          intro cols' h
          rw [← allAt_ok, hr] at h
          cases h
          rfl
        simp only
        cases hst : stack cols with
        | error e =>
          simp only [reduceCtorEq, false_iff]
          rintro ⟨cols', n, h, hrow⟩
          rw [huniq cols' h] at hrow
          rw [(stack_spec cols rows).2 ⟨hcn, n, hrow⟩] at hst
          cases hst
        | ok v =>
          simp only [Except.ok.injEq]
          constructor
          · rintro rfl
            obtain ⟨-, n, h⟩ := (stack_spec cols v).1 hst
            exact ⟨cols, n, hcols, h⟩
          · rintro ⟨cols', n, h, hrow⟩
            rw [huniq cols' h] at hrow
            rw [(stack_spec cols rows).2 ⟨hcn, n, hrow⟩] at hst
            cases hst
            rfl

/-- C58. In the same situation the first component that fails decides the error. -/
theorem C58_error (key : List K → T → κ) (eval : δ → Query K T O → Except Err (List ν))
    (s : Vec κ δ ν) (g : Given K) (t : T) (opts : O) (mem : Bool)
    (hs : mem = false ∨ ∀ p p', g.resolve = .ok p → reorganize p = .ok p' →
      lookup s.memo (key p'.data t) = none)
    (pre post : List (Obj κ δ (List ν))) (o : Obj κ δ (List ν)) (e : Err)
    (hc : s.comps = pre ++ o :: post)
    (he : (componentAt key eval o g t opts none mem).2 = .error e)
    (hpre : ∀ u ∈ pre, ∃ c, (componentAt key eval u g t opts none mem).2 = .ok c) :
    (vectorAt key eval s g t opts mem).2 = .error e := by
  unfold vectorAt
  cases h1 : g.resolve with
  | error e' =>
    unfold componentAt at he
    rw [h1] at he
    cases he
    rfl
  | ok p =>
    cases h2 : reorganize p with
    | error e' =>
      unfold componentAt at he
      rw [h1] at he
      simp only [h2] at he ⊢
      cases he
      rfl
    | ok p' =>
      have hm : (if mem = true then lookup s.memo (key p'.data t) else none) = none := by
        rcases hs with rfl | hs
        · rfl
        · rw [hs p p' h1 h2]; simp
      simp only [h2, hm, component_same key eval _ g t opts mem p p' h1 h2]
      rw [allAt_error _ _ pre post o e hc he hpre]

/-- The question of an action, if it is put to the vector through its cache. -/
def askedOf : Op K T O δ → Option (Given K × T)
  | .ask g t _ true => some (g, t)
  | _ => none

theorem vector_memo (key : List K → T → κ) (eval : δ → Query K T O → Except Err (List ν))
    (s : Vec κ δ ν) (g : Given K) (t : T) (opts : O) (mem : Bool) :
    (vectorAt key eval s g t opts mem).1.memo = s.memo ∨
      (mem = true ∧ ∃ p p' v, g.resolve = .ok p ∧ reorganize p = .ok p' ∧
        (vectorAt key eval s g t opts mem).2 = .ok v ∧
        (vectorAt key eval s g t opts mem).1.memo = store .vector s.memo (key p'.data t) v) := by
  unfold vectorAt
  cases h1 : g.resolve with
  | error e => exact Or.inl rfl
  | ok p =>
    simp only
    cases h2 : reorganize p with
    | error e => exact Or.inl rfl
    | ok p' =>
      simp only
      cases hl : (if mem = true then lookup s.memo (key p'.data t) else none) with
      | some v => exact Or.inl rfl
      | none =>
        simp only
        generalize allAt _ s.comps = r
        obtain ⟨r1, r2⟩ := r
        cases r2 with
        | error e => exact Or.inl rfl
        | ok cols =>
          simp only
          cases hst : stack cols with
          | error e => exact Or.inl rfl
          | ok v =>
            cases mem
            · exact Or.inl rfl
            · exact Or.inr ⟨rfl, p, p', v, rfl, h2, rfl, rfl⟩

theorem vector_comps (key : List K → T → κ) (eval : δ → Query K T O → Except Err (List ν))
    (s : Vec κ δ ν) (g : Given K) (t : T) (opts : O) (mem : Bool) :
    List.Forall₂ (fun o o' => o' = o ∨ o' = (componentAt key eval o g t opts none mem).1) s.comps
      (vectorAt key eval s g t opts mem).1.comps := by
  have hsame : List.Forall₂ (fun o o' => o' = o ∨
      o' = (componentAt key eval o g t opts none mem).1) s.comps s.comps :=
    List.forall₂_same.2 (fun x _ => Or.inl rfl)
  unfold vectorAt
  cases h1 : g.resolve with
  | error e => exact hsame
  | ok p =>
    simp only
    cases h2 : reorganize p with
    | error e => exact hsame
    | ok p' =>
      simp only [component_same key eval _ g t opts mem p p' h1 h2]
      cases hl : (if mem = true then lookup s.memo (key p'.data t) else none) with
      | some v => exact hsame
      | none =>
        have := allAt_states (fun o => componentAt key eval o g t opts none mem) s.comps
        simp only
        generalize allAt _ s.comps = r at this
        obtain ⟨r1, r2⟩ := r
        cases r2 with
        | error e => exact this
        | ok cols =>
          simp only
          cases hst : stack cols with
          | error e => exact this
          | ok v => exact this

theorem run_memo (key : List K → T → κ) (eval : δ → Query K T O → Except Err (List ν))
    (ds : List δ) (h : List (Op K T O δ)) :
    (run key eval ds h).comps.length = ds.length ∧
      ∀ e ∈ (run key eval ds h).memo, ∃ op ∈ h, ∃ g t p p', askedOf op = some (g, t) ∧
        g.resolve = .ok p ∧ reorganize p = .ok p' ∧ e.1 = key p'.data t := by
  induction h using List.reverseRecOn with
  | nil => simp [run]
  | append_singleton h op ih =>
    have e1 : run key eval ds (h ++ [op]) = step key eval (run key eval ds h) op := by
      unfold run
      rw [List.foldl_append]
      rfl
    rw [e1]
    generalize run key eval ds h = s at ih
    obtain ⟨i1, i2⟩ := ih
    have up : ∀ e ∈ s.memo, ∃ op' ∈ h ++ [op], ∃ g t p p', askedOf op' = some (g, t) ∧
        g.resolve = .ok p ∧ reorganize p = .ok p' ∧ e.1 = key p'.data t := by
      intro e he
      obtain ⟨op', ho, hh⟩ := i2 e he
      exact ⟨op', by simp [ho], hh⟩
    cases op with
    | ask g t opts mem =>
      constructor
      · exact (vector_comps key eval s g t opts mem).length_eq.symm.trans i1
      · intro e he
        have he' : e ∈ (vectorAt key eval s g t opts mem).1.memo := he
        rcases vector_memo key eval s g t opts mem with hm | ⟨hmem, p, p', v, h1, h2, -, h3⟩
        · rw [hm] at he'
          exact up e he'
        · rw [h3] at he'
          rcases Cache.mem_store _ _ _ _ _ he' with he' | he'
          · exact up e he'
          · subst hmem
            exact ⟨.ask g t opts true, by simp, g, t, p, p', rfl, h1, h2, by rw [he']⟩
    | askPart i g t opts mem =>
      exact ⟨by simpa [step] using i1, up⟩
    | setData i d =>
      exact ⟨by simpa [step] using i1, up⟩

/-- C58 after any history in which these points were not asked of this vector at this time through
its cache: the rows of what the components answer now. The other histories are missing, see
`C58_refuted` and `C58_transparent_partial`. -/
theorem C58_first_partial (key : List K → T → κ)
    (hkey : ∀ a b t t', key a t = key b t' → a = b ∧ t = t')
    (eval : δ → Query K T O → Except Err (List ν)) (ds : List δ) (hds : ds ≠ [])
    (h : List (Op K T O δ)) (g : Given K) (t : T) (opts : O) (mem : Bool)
    (hnew : mem = false ∨ ∀ op ∈ h, ∀ g' t' p p' q q', askedOf op = some (g', t') →
      g.resolve = .ok p → reorganize p = .ok p' → g'.resolve = .ok q → reorganize q = .ok q' →
      q'.data ≠ p'.data ∨ t' ≠ t) (rows : List (List ν)) :
    (vectorAt key eval (run key eval ds h) g t opts mem).2 = .ok rows ↔
      ∃ cols n, List.Forall₂ (fun o c => (componentAt key eval o g t opts none mem).2 = .ok c)
        (run key eval ds h).comps cols ∧ RowsOf rows cols n := by
  obtain ⟨r1, r2⟩ := run_memo key eval ds h
  apply C58_rows
  · rcases hnew with hm | hnew
    · exact Or.inl hm
    · refine Or.inr ?_
      intro p p' h1 h2
      cases hl : lookup (run key eval ds h).memo (key p'.data t) with
      | none => rfl
      | some v =>
        exfalso
        obtain ⟨op, hop, g', t', q, q', ha, hq1, hq2, hk⟩ := r2 _ (Cache.lookup_mem hl)
        obtain ⟨e1, e2⟩ := hkey _ _ _ _ hk
        rcases hnew op hop g' t' p p' q q' ha h1 h2 hq1 hq2 with hn | hn
        · exact hn e1.symm
        · exact hn e2.symm
  · intro hc
    rw [hc] at r1
    exact hds (List.length_eq_zero_iff.1 r1.symm)

/-- An action with these options, on points with `k` coordinates, that does not assign data. -/
def Steady (k : Nat) (o : O) : Op K T O δ → Prop
  | .ask g _ opts _ => opts = o ∧ ∀ p p', g.resolve = .ok p → reorganize p = .ok p' → Columns k p'
  | .askPart _ g _ opts _ =>
    opts = o ∧ ∀ p p', g.resolve = .ok p → reorganize p = .ok p' → Columns k p'
  | .setData _ _ => False

theorem columns_unique (k : Nat) (hk : 0 < k) (p q : Arr K) (hp : Columns k p) (hq : Columns k q)
    (h : p.data = q.data) : p = q := by
  obtain ⟨n, h1, h2⟩ := hp
  obtain ⟨m, h3, h4⟩ := hq
  have : n = m := by
    rw [h, h4] at h2
    exact (Nat.eq_of_mul_eq_mul_right hk h2).symm
  obtain ⟨ps, pd⟩ := p
  obtain ⟨qs, qd⟩ := q
  simp only at h1 h3 h
  rw [h1, h3, h, this]

theorem forall₂_imp_mem {α β : Type} {R S : α → β → Prop} :
    ∀ {l : List α} {m : List β}, (∀ a ∈ l, ∀ b, R a b → S a b) → List.Forall₂ R l m →
      List.Forall₂ S l m
  | _, _, _, .nil => .nil
  | _, _, h, .cons h1 h2 =>
    .cons (h _ (by simp) _ h1) (forall₂_imp_mem (fun a ha => h a (by simp [ha])) h2)

theorem forall₂_det {α β : Type} {R : α → β → Prop} (hR : ∀ a b b', R a b → R a b' → b = b') :
    ∀ {l : List α} {m m' : List β}, List.Forall₂ R l m → List.Forall₂ R l m' → m = m'
  | _, _, _, .nil, .nil => rfl
  | _, _, _, .cons h1 h2, .cons h3 h4 => by rw [hR _ _ _ h1 h3, forall₂_det hR h2 h4]

theorem forall₂_map_eq {α β : Type} {f : α → β} :
    ∀ {l m : List α}, List.Forall₂ (fun a b => f a = f b) l m → m.map f = l.map f
  | _, _, .nil => rfl
  | _, _, .cons h1 h2 => by rw [List.map_cons, List.map_cons, h1, forall₂_map_eq h2]

theorem forall₂_right {α β : Type} {P : β → Prop} :
    ∀ {l : List α} {m : List β}, List.Forall₂ (fun _ b => P b) l m → ∀ b ∈ m, P b
  | _, _, .nil, _, h => by cases h
  | _, _, .cons h1 h2, b, h => by
    rcases List.mem_cons.1 h with rfl | h
    · exact h1
    · exact forall₂_right h2 b h

theorem forall₂_modify {α : Type} (f : α → α) :
    ∀ (l : List α) (i : Nat), List.Forall₂ (fun a b => b = a ∨ b = f a) l (l.modify i f)
  | [], i => by simp
  | a :: l, 0 => by
    rw [List.modify_zero_cons]
    exact .cons (Or.inr rfl) (List.forall₂_same.2 (fun x _ => Or.inl rfl))
  | a :: l, i + 1 => by
    rw [List.modify_succ_cons]
    exact .cons (Or.inl rfl) (forall₂_modify f l i)

section steady
variable (key : List K → T → κ) (hkey : ∀ a b t t', key a t = key b t' → a = b ∧ t = t')
  (eval : δ → Query K T O → Except Err (List ν)) (k : Nat) (hk : 0 < k) (o : O)

/-- Everything remembered by a component is right. -/
def GoodObj (c : Obj κ δ (List ν)) : Prop :=
  ∀ e ∈ c.memo, ∃ p' t, Columns k p' ∧ e.1 = key p'.data t ∧ eval c.data ⟨p', t, o⟩ = .ok e.2

include hkey hk in
theorem component_fresh (c : Obj κ δ (List ν)) (hc : GoodObj key eval k o c) (g : Given K) (t : T)
    (mem : Bool) (hg : ∀ p p', g.resolve = .ok p → reorganize p = .ok p' → Columns k p') :
    (componentAt key eval c g t o none mem).1.data = c.data ∧
    GoodObj key eval k o (componentAt key eval c g t o none mem).1 ∧
    ∀ p p', g.resolve = .ok p → reorganize p = .ok p' →
      (componentAt key eval c g t o none mem).2 = eval c.data ⟨p', t, o⟩ := by
  unfold componentAt
  cases h1 : g.resolve with
  | error e => exact ⟨rfl, hc, fun p p' h => by cases h⟩
  | ok p =>
    simp only
    cases h2 : reorganize p with
    | error e =>
      refine ⟨rfl, hc, fun q p' h h' => ?_⟩
      cases h
      rw [h2] at h'
      cases h'
    | ok p' =>
      have hp' := hg p p' h1 h2
      simp only
      refine ⟨Cache.query_data _ _ _ _ _ _, ?_, ?_⟩
      · intro e he
        rw [Cache.query_data]
        rcases Cache.query_memo .variable (fun _ : Query K T O => (none : Option κ).getD (key p'.data t))
          eval c ⟨p', t, o⟩ mem with hm | ⟨-, v, hv, hm⟩
        · rw [hm] at he
          exact hc e he
        · rw [hm] at he
          rcases Cache.mem_store _ _ _ _ _ he with he | he
          · exact hc e he
          · rw [he]
            exact ⟨p', t, hp', rfl, hv⟩
      · intro q q' hq hq'
        cases hq
        rw [h2] at hq'
        cases hq'
        unfold query
        cases hl : (if mem = true then lookup c.memo ((none : Option κ).getD (key p'.data t)) else none) with
        | none =>
          cases he : eval c.data ⟨p', t, o⟩ <;> simp [he]
        | some v =>
          have hl' : lookup c.memo (key p'.data t) = some v := by
            cases mem
            · cases hl
            · exact hl
          obtain ⟨q', t', hq', e1, e2⟩ := hc _ (Cache.lookup_mem hl')
          obtain ⟨e3, e4⟩ := hkey _ _ _ _ e1
          have := columns_unique k hk p' q' hp' hq' e3
          subst this e4
          exact e2.symm

/-- Everything remembered by a vector and its components is right, and the data are `ds`. -/
def GoodVec (ds : List δ) (s : Vec κ δ ν) : Prop :=
  s.comps.map Obj.data = ds ∧ (∀ c ∈ s.comps, GoodObj key eval k o c) ∧
    ∀ e ∈ s.memo, ∃ p' t cols, Columns k p' ∧ e.1 = key p'.data t ∧
      List.Forall₂ (fun d c => eval d ⟨p', t, o⟩ = .ok c) ds cols ∧ stack cols = .ok e.2

include hkey hk in
theorem vector_fresh (ds : List δ) (hds : ds ≠ []) (s : Vec κ δ ν) (hs : GoodVec key eval k o ds s)
    (g : Given K) (t : T) (mem : Bool)
    (hg : ∀ p p', g.resolve = .ok p → reorganize p = .ok p' → Columns k p') (rows : List (List ν)) :
    (vectorAt key eval s g t o mem).2 = .ok rows ↔
      ∃ p p' cols n, g.resolve = .ok p ∧ reorganize p = .ok p' ∧
        List.Forall₂ (fun d c => eval d ⟨p', t, o⟩ = .ok c) ds cols ∧ RowsOf rows cols n := by
  obtain ⟨hd, hc, hm⟩ := hs
  by_cases hnew : mem = false ∨ ∀ p p', g.resolve = .ok p → reorganize p = .ok p' →
      lookup s.memo (key p'.data t) = none
  · have hne : s.comps ≠ [] := by
      rintro e
      rw [e] at hd
      exact hds hd.symm
    rw [C58_rows key eval s g t o mem hnew hne]
    constructor
    · rintro ⟨cols, n, h, hr⟩
      obtain ⟨c0, cs, hcs⟩ : ∃ c0 cs, s.comps = c0 :: cs := List.exists_cons_of_ne_nil hne
      have h0 : ∃ p p', g.resolve = .ok p ∧ reorganize p = .ok p' := by
        rw [hcs, List.forall₂_cons_left_iff] at h
        obtain ⟨c, _, h, -⟩ := h
        unfold componentAt at h
        split at h
        · cases h
        · next p h1 =>
          split at h
          · cases h
          · next p' h2 => exact ⟨p, p', h1, h2⟩
      obtain ⟨p, p', h1, h2⟩ := h0
      refine ⟨p, p', cols, n, h1, h2, ?_, hr⟩
      rw [← hd, List.forall₂_map_left_iff]
      refine forall₂_imp_mem (fun c hcm v hv => ?_) h
      rw [← (component_fresh key hkey eval k hk o c (hc c hcm) g t mem hg).2.2 p p' h1 h2]
      exact hv
    · rintro ⟨p, p', cols, n, h1, h2, h, hr⟩
      refine ⟨cols, n, ?_, hr⟩
      rw [← hd, List.forall₂_map_left_iff] at h
      refine forall₂_imp_mem (fun c hcm v hv => ?_) h
      rw [(component_fresh key hkey eval k hk o c (hc c hcm) g t mem hg).2.2 p p' h1 h2]
      exact hv
  · push Not at hnew
    obtain ⟨hmem, p, p', h1, h2, h3⟩ := hnew
    have hmem : mem = true := by simpa using hmem
    obtain ⟨v, hv⟩ := Option.ne_none_iff_exists'.1 h3
    obtain ⟨q', t', cols, hq', e1, hf, hst⟩ := hm _ (Cache.lookup_mem hv)
    obtain ⟨e3, e4⟩ := hkey _ _ _ _ e1
    have := columns_unique k hk p' q' (hg p p' h1 h2) hq' e3
    subst this e4
    have hans : (vectorAt key eval s g t o mem).2 = .ok v := by
      unfold vectorAt
      rw [h1]
      simp only [h2, hmem, if_true, hv]
    rw [hans]
    constructor
    · intro h
      cases h
      obtain ⟨-, n, hr⟩ := (stack_spec _ _).1 hst
      exact ⟨p, p', cols, n, h1, h2, hf, hr⟩
    · rintro ⟨q, q', cols', n, g1, g2, hf', hr⟩
      rw [h1] at g1
      cases g1
      rw [h2] at g2
      cases g2
      have hcc : cols' = cols := by
        refine forall₂_det (fun a b b' hb hb' => ?_) hf' hf
        rw [hb] at hb'
        exact Except.ok.inj hb'
      subst hcc
      have hne : cols' ≠ [] := by
        rintro rfl
        cases hf'
        exact hds rfl
      have := (stack_spec cols' rows).2 ⟨hne, n, hr⟩
      rw [hst] at this
      exact this

include hkey hk in
theorem comps_good (l : List (Obj κ δ (List ν))) (hl : ∀ c ∈ l, GoodObj key eval k o c)
    (g : Given K) (t : T) (mem : Bool)
    (hg : ∀ p p', g.resolve = .ok p → reorganize p = .ok p' → Columns k p')
    (m : List (Obj κ δ (List ν)))
    (h : List.Forall₂ (fun c c' => c' = c ∨ c' = (componentAt key eval c g t o none mem).1) l m) :
    m.map Obj.data = l.map Obj.data ∧ ∀ c ∈ m, GoodObj key eval k o c := by
  constructor
  · refine forall₂_map_eq (forall₂_imp_mem (fun c hcm c' hv => ?_) h)
    rcases hv with rfl | rfl
    · rfl
    · exact (component_fresh key hkey eval k hk o c (hl c hcm) g t mem hg).1.symm
  · refine forall₂_right (forall₂_imp_mem (fun c hcm c' hv => ?_) h)
    rcases hv with rfl | rfl
    · exact hl _ hcm
    · exact (component_fresh key hkey eval k hk o c (hl c hcm) g t mem hg).2.1

include hkey hk in
theorem run_good (ds : List δ) (hds : ds ≠ []) (h : List (Op K T O δ))
    (hh : ∀ op ∈ h, Steady k o op) : GoodVec key eval k o ds (run key eval ds h) := by
  induction h using List.reverseRecOn with
  | nil =>
    refine ⟨?_, ?_, ?_⟩
    · simp only [run, List.foldl_nil, List.map_map]
      exact List.map_id _
    · intro c hc
      simp only [run, List.foldl_nil, List.mem_map] at hc
      obtain ⟨d, -, rfl⟩ := hc
      intro e he
      cases he
    · intro e he
      cases he
  | append_singleton h op ih =>
    have e1 : run key eval ds (h ++ [op]) = step key eval (run key eval ds h) op := by
      unfold run
      rw [List.foldl_append]
      rfl
    rw [e1]
    have ih := ih (fun op' ho => hh op' (by simp [ho]))
    have hop := hh op (by simp)
    generalize run key eval ds h = s at ih
    have hs := ih
    obtain ⟨hd, hc, hm⟩ := ih
    cases op with
    | ask g t opts mem =>
      obtain ⟨rfl, hg⟩ := hop
      have hcs := vector_comps key eval s g t opts mem
      obtain ⟨u1, u2⟩ := comps_good key hkey eval k hk opts s.comps hc g t mem hg _ hcs
      refine ⟨u1.trans hd, u2, ?_⟩
      intro e he
      have he' : e ∈ (vectorAt key eval s g t opts mem).1.memo := he
      rcases vector_memo key eval s g t opts mem with hm' | ⟨hmem, p, p', v, h1, h2, h4, h3⟩
      · rw [hm'] at he'
        exact hm e he'
      · rw [h3] at he'
        rcases Cache.mem_store _ _ _ _ _ he' with he' | he'
        · exact hm e he'
        · rw [he']
          obtain ⟨q, q', cols, n, g1, g2, hf, hr⟩ :=
            (vector_fresh key hkey eval k hk opts ds hds s hs g t mem hg v).1 h4
          rw [h1] at g1
          cases g1
          rw [h2] at g2
          cases g2
          refine ⟨p', t, cols, hg p p' h1 h2, rfl, hf, (stack_spec _ _).2 ⟨?_, n, hr⟩⟩
          rintro rfl
          cases hf
          exact hds rfl
    | askPart i g t opts mem =>
      obtain ⟨rfl, hg⟩ := hop
      obtain ⟨u1, u2⟩ := comps_good key hkey eval k hk opts s.comps hc g t mem hg _
        (forall₂_modify (fun c => (componentAt key eval c g t opts none mem).1) s.comps i)
      exact ⟨u1.trans hd, u2, hm⟩
    | setData i d => exact hop.elim

end steady

/-- C58 after any history that assigns no data, with one choice of options and points of one
number of coordinates: the rows are those the components compute from these very points and this
time, whatever is remembered. The histories that assign data are missing, see `C58_refuted`. -/
theorem C58_transparent_partial (key : List K → T → κ)
    (hkey : ∀ a b t t', key a t = key b t' → a = b ∧ t = t')
    (eval : δ → Query K T O → Except Err (List ν)) (k : Nat) (hk : 0 < k) (o : O)
    (ds : List δ) (hds : ds ≠ []) (h : List (Op K T O δ)) (hh : ∀ op ∈ h, Steady k o op)
    (g : Given K) (t : T) (mem : Bool)
    (hg : ∀ p p', g.resolve = .ok p → reorganize p = .ok p' → Columns k p')
    (rows : List (List ν)) :
    (vectorAt key eval (run key eval ds h) g t o mem).2 = .ok rows ↔
      ∃ p p' cols n, g.resolve = .ok p ∧ reorganize p = .ok p' ∧
        List.Forall₂ (fun d c => eval d ⟨p', t, o⟩ = .ok c) ds cols ∧ RowsOf rows cols n :=
  vector_fresh key hkey eval k hk o ds hds _ (run_good key hkey eval k hk o ds hds h hh) g t mem hg
    rows

/-- Separate longitudes and latitudes are the points with these coordinates. -/
theorem C58_lons_lats (key : List K → T → κ) (eval : δ → Query K T O → Except Err (List ν))
    (s : Vec κ δ ν) (xs ys : List K) (hl : xs.length = ys.length) (t : T) (opts : O) (mem : Bool) :
    ∃ l : List K, l.length = xs.length * 2 ∧
      (∀ i, i < xs.length → l[2 * i]? = xs[i]? ∧ l[2 * i + 1]? = ys[i]?) ∧
      vectorAt key eval s { lons := some xs, lats := some ys } t opts mem =
        vectorAt key eval s { points := some ⟨[xs.length, 2], l⟩ } t opts mem := by
  refine ⟨interleave xs ys, ?_, ?_, ?_⟩
  · induction xs generalizing ys with
    | nil => rfl
    | cons x xs ih =>
      cases ys with
      | nil => simp at hl
      | cons y ys =>
        have := ih ys (by simpa using hl)
        simp only [interleave, List.length_cons, this]
        omega
  · induction xs generalizing ys with
    | nil => simp
    | cons x xs ih =>
      cases ys with
      | nil => simp at hl
      | cons y ys =>
        intro i hi
        cases i with
        | zero => simp [interleave]
        | succ i =>
          have := ih ys (by simpa using hl) i (by simpa using hi)
          simpa [interleave, Nat.mul_add] using this
  · unfold vectorAt Given.resolve
    simp [hl]

/-- Without points and without both coordinates a vector variable raises `ValueError` and
remembers nothing. -/
theorem C58_no_points (key : List K → T → κ) (eval : δ → Query K T O → Except Err (List ν))
    (s : Vec κ δ ν) (g : Given K) (t : T) (opts : O) (mem : Bool) (hp : g.points = none)
    (hc : g.lons = none ∨ g.lats = none) :
    vectorAt key eval s g t opts mem = (s, .error .valueError) := by
  have : g.resolve = .error .valueError := by
    unfold Given.resolve
    rw [hp]
    rcases hc with h | h
    · simp [h]
    · rw [h]
      cases g.lons <;> rfl
  unfold vectorAt
  rw [this]

end

/-- C58 for every history: the rows of the components' own answers. -/
def C58_statement : Prop :=
  ∀ (K T O κ δ ν : Type) (_ : DecidableEq κ) (key : List K → T → κ)
    (_ : ∀ a b t t', key a t = key b t' → a = b ∧ t = t')
    (eval : δ → Query K T O → Except Err (List ν)) (ds : List δ) (_ : ds ≠ [])
    (h : List (Op K T O δ)) (g : Given K) (t : T) (opts : O) (mem : Bool) (rows : List (List ν)),
    (vectorAt key eval (run key eval ds h) g t opts mem).2 = .ok rows →
      ∃ cols n, List.Forall₂ (fun o c => (componentAt key eval o g t opts none mem).2 = .ok c)
        (run key eval ds h).comps cols ∧ RowsOf rows cols n

namespace VectorEx

def at' (i : Nat) : Given Nat := { points := some ⟨[1, 2], [i, 0]⟩ }

/-- The vector is asked, the data of the first component are replaced, and the component is asked
at five other points, so that it has forgotten its first answer. -/
def stale : List (Op Nat Unit Unit Nat) :=
  [.ask (at' 0) () () true, .setData 0 7] ++
    [1, 2, 3, 4, 5].map (fun i => .askPart 0 (at' i) () () true)

def key (l : List Nat) (_ : Unit) : List Nat := l

/-- Constant in space. -/
def eval (d : Nat) (_ : Query Nat Unit Unit) : Except Err (List Nat) := .ok [d]

theorem key_inj : ∀ a b t t', key a t = key b t' → a = b ∧ t = t' := fun _ _ _ _ h => ⟨h, rfl⟩

end VectorEx

open VectorEx in
/-- The code is wrong: the cache of a vector is not emptied when a component gets new data. -/
theorem C58_refuted : ¬ C58_statement := by
  intro h
  obtain ⟨cols, n, h1, h2⟩ := h Nat Unit Unit (List Nat) Nat Nat inferInstance key key_inj eval
    [0, 1] (by simp) stale (at' 0) () () true [[0, 1]] rfl
  have h3 : (run key eval [0, 1] stale).comps[0]?.map (fun o =>
      (componentAt key eval o (at' 0) () () none true).2) = some (.ok [7]) := rfl
  cases hc : (run key eval [0, 1] stale).comps with
  | nil =>
    rw [hc] at h3
    cases h3
  | cons c cs =>
    rw [hc] at h3 h1
    cases h1 with
    | cons g1 g2 =>
      rw [List.getElem?_cons_zero, Option.map_some, g1] at h3
      cases h3
      obtain ⟨-, hl, hr⟩ := h2
      simp only [List.length_cons, List.length_nil] at hl
      obtain ⟨row, e1, -, e2⟩ := hr 0 (by omega)
      cases e1
      have := e2 0 _ rfl
      simp at this

/-- The hypotheses of `C58_first_partial` and `C58_transparent_partial` are met after a history
with questions to the vector and to a component, and the answer has a row for each point. -/
example :
    let h : List (Op Nat Unit Unit Nat) :=
      [.ask (VectorEx.at' 0) () () true, .askPart 1 (VectorEx.at' 3) () () true]
    (∀ op ∈ h, Steady 2 () op) ∧
      (∀ op ∈ h, ∀ g' t' p p' q q', askedOf op = some (g', t') → (VectorEx.at' 3).resolve = .ok p →
        reorganize p = .ok p' → g'.resolve = .ok q → reorganize q = .ok q' →
        q'.data ≠ p'.data ∨ t' ≠ ()) ∧
      (vectorAt VectorEx.key VectorEx.eval (run VectorEx.key VectorEx.eval [4, 6] h) (VectorEx.at' 3)
        () () true).2 = .ok [[4, 6]] := by
  intro h
  have hcol : ∀ i p p', (VectorEx.at' i).resolve = .ok p → reorganize p = .ok p' →
      p' = ⟨[1, 2], [i, 0]⟩ := by
    intro i p p' h1 h2
    cases h1
    exact (Except.ok.inj h2).symm
  have hcol' : ∀ i p p', (VectorEx.at' i).resolve = .ok p → reorganize p = .ok p' →
      Columns 2 p' := by
    intro i p p' h1 h2
    rw [hcol i p p' h1 h2]
    exact ⟨1, rfl, rfl⟩
  refine ⟨?_, ?_, rfl⟩
  · intro op hop
    simp only [h, List.mem_cons, List.not_mem_nil, or_false] at hop
    rcases hop with rfl | rfl
    · exact ⟨rfl, hcol' 0⟩
    · exact ⟨rfl, hcol' 3⟩
  · intro op hop g' t' p p' q q' ha h1 h2 h3 h4
    simp only [h, List.mem_cons, List.not_mem_nil, or_false] at hop
    rcases hop with rfl | rfl
    · cases ha
      rw [hcol 3 p p' h1 h2, hcol 0 q q' h3 h4]
      exact Or.inl (by decide)
    · cases ha

/-! ## C58: names -/

/-- C58 for names: of the candidates for a component the first one in the file is chosen. -/
def C58_names_statement : Prop :=
  ∀ (order : List String) (names stdNames : List (String × List String)) (ds : List FVar)
    (k : String) (cands : List String) (n : String), k ∈ order → lookup names k = some cands →
    FirstOf cands (Present ds) n → (k, some n) ∈ genVarnames order names stdNames ds

/-- The code is wrong: `continue` where `break` was meant, and the last one is chosen. -/
theorem C58_names_refuted : ¬ C58_names_statement := by
  intro h
  have := h ["u"] [("u", ["a", "b"])] [] [⟨"a", none, none⟩, ⟨"b", none, none⟩] "u" ["a", "b"] "a"
    (by simp) rfl ⟨[], ["b"], rfl, ⟨⟨"a", none, none⟩, by simp, rfl⟩, by simp⟩
  revert this
  decide

theorem byName_none (ds : List FVar) (names : List String) :
    byName ds names = none ↔ ∀ n ∈ names, ¬ Present ds n := by
  unfold byName
  induction names using List.reverseRecOn with
  | nil => simp
  | append_singleton l a ih =>
    rw [List.foldl_append]
    simp only [List.foldl_cons, List.foldl_nil]
    by_cases ha : ds.any (fun v => v.name == a) = true
    · rw [if_pos ha]
      simp only [reduceCtorEq, false_iff, not_forall]
      exact ⟨a, by simp, fun hn => hn ((any_present ds a).1 ha)⟩
    · rw [if_neg ha, ih]
      rw [any_present] at ha
      simp only [List.mem_append, List.mem_singleton]
      constructor
      · rintro h n (hn | rfl)
        · exact h n hn
        · exact ha
      · exact fun h n hn => h n (Or.inl hn)

theorem byDescription_none (ds : List FVar) (names : List String) :
    byDescription ds names = none ↔ ∀ n ∈ names, ∀ v ∈ ds, ¬ Described n v := by
  unfold byDescription
  induction names using List.reverseRecOn with
  | nil => simp
  | append_singleton l a ih =>
    rw [List.foldl_append]
    simp only [List.foldl_cons, List.foldl_nil]
    cases hf : ds.find? (described a) with
    | some v =>
      simp only [reduceCtorEq, false_iff, not_forall]
      obtain ⟨x, y, rfl, h, -⟩ := (find_described ds a v).1 hf
      exact ⟨a, by simp, v, by simp, fun hn => hn h⟩
    | none =>
      simp only
      rw [ih]
      rw [find_described_none] at hf
      simp only [List.mem_append, List.mem_singleton]
      constructor
      · rintro h n (hn | rfl)
        · exact h n hn
        · exact hf
      · exact fun h n hn => h n (Or.inl hn)

/-- C58 for names, as the code has it: the last candidate in the file; if there is none, the first
variable with the last standard or long name in the file; else nothing. That it is the first
candidate is missing, see `C58_names_refuted`. -/
theorem C58_names_partial (order : List String) (names stdNames : List (String × List String))
    (ds : List FVar) (k : String) (hk : k ∈ order) (r : Option String) :
    (k, r) ∈ genVarnames order names stdNames ds ↔
      (∃ n, LastSuch ((lookup names k).getD []) (Present ds) n ∧ r = some n) ∨
      ((∀ n ∈ (lookup names k).getD [], ¬ Present ds n) ∧
        ((∃ n v, LastSuch ((lookup stdNames k).getD []) (fun n => ∃ v ∈ ds, Described n v) n ∧
          FirstDescribed ds n v ∧ r = some v.name) ∨
        ((∀ n ∈ (lookup stdNames k).getD [], ∀ v ∈ ds, ¬ Described n v) ∧ r = none))) := by
  have e1 : (k, r) ∈ genVarnames order names stdNames ds ↔
      r = (match byName ds ((lookup names k).getD []) with
        | some n => some n
        | none => byDescription ds ((lookup stdNames k).getD [])) := by
    unfold genVarnames
    rw [List.mem_map]
    constructor
    · rintro ⟨k', -, h⟩
      cases h
      rfl
    · rintro rfl
      exact ⟨k, hk, rfl⟩
  rw [e1]
  cases hb : byName ds ((lookup names k).getD []) with
  | some m =>
    simp only
    have hm := (byName_spec _ _ _).1 hb
    constructor
    · intro h
      exact Or.inl ⟨m, hm, h⟩
    · rintro (⟨n, hn, rfl⟩ | ⟨hn, -⟩)
      · rw [← byName_spec, hb] at hn
        exact hn.symm
      · obtain ⟨x, y, e, h, -⟩ := hm
        exact absurd h (hn m (by rw [e]; simp))
  | none =>
    simp only
    have hn := (byName_none _ _).1 hb
    cases hd : byDescription ds ((lookup stdNames k).getD []) with
    | some m =>
      obtain ⟨n, v, h1, h2, h3⟩ := (byDescription_spec _ _ _).1 hd
      constructor
      · rintro rfl
        exact Or.inr ⟨hn, Or.inl ⟨n, v, h1, h2, by rw [h3]⟩⟩
      · rintro (⟨n', ⟨x, y, e, h, -⟩, rfl⟩ | ⟨-, ⟨n', v', g1, g2, rfl⟩ | ⟨h, -⟩⟩)
        · exact absurd h (hn n' (by rw [e]; simp))
        · rw [← hd]
          exact ((byDescription_spec _ _ _).2 ⟨n', v', g1, g2, rfl⟩).symm
        · obtain ⟨x, y, e, ⟨w, hw, hw'⟩, -⟩ := h1
          exact absurd hw' (h n (by rw [e]; simp) w hw)
    | none =>
      have hd' := (byDescription_none _ _).1 hd
      constructor
      · rintro rfl
        exact Or.inr ⟨hn, Or.inr ⟨hd', rfl⟩⟩
      · rintro (⟨n', ⟨x, y, e, h, -⟩, rfl⟩ | ⟨-, ⟨n', v', ⟨x, y, e, ⟨w, hw, hw'⟩, -⟩, g2, rfl⟩ | ⟨h, rfl⟩⟩)
        · exact absurd h (hn n' (by rw [e]; simp))
        · exact absurd hw' (hd' n' (by rw [e]; simp) w hw)
        · rfl

/-- If one candidate only is in the file, it is chosen. -/
theorem C58_names_only_partial (order : List String) (names stdNames : List (String × List String))
    (ds : List FVar) (k : String) (hk : k ∈ order) (cands : List String)
    (hc : lookup names k = some cands) (n : String) (hn : n ∈ cands) (hp : Present ds n)
    (ho : ∀ m ∈ cands, Present ds m → m = n) :
    (k, some n) ∈ genVarnames order names stdNames ds := by
  rw [C58_names_partial order names stdNames ds k hk]
  rw [hc]
  simp only [Option.getD_some, Option.some.injEq]
  cases hb : byName ds cands with
  | none => exact absurd hp ((byName_none _ _).1 hb n hn)
  | some m =>
    have hm := (byName_spec _ _ _).1 hb
    have hmn : m = n := by
      obtain ⟨x, y, e, h, -⟩ := hm
      exact ho m (by rw [e]; simp) h
    subst hmn
    exact Or.inl ⟨m, hm, rfl⟩

/-- There is a choice for each component, in order. -/
theorem C58_names_order (order : List String) (names stdNames : List (String × List String))
    (ds : List FVar) : (genVarnames order names stdNames ds).map Prod.fst = order := by
  unfold genVarnames
  rw [List.map_map]
  exact List.map_id _

/-- A single variable gets the first candidate in the file; else the first variable with the first
standard or long name in the file. -/
theorem C58_single_name (names stdNames : List String) (ds : List FVar) (m : String) :
    genVarname names stdNames ds = .ok m ↔
      FirstOf names (Present ds) m ∨
        ((∀ n ∈ names, ¬ Present ds n) ∧ ∃ n v,
          FirstOf stdNames (fun n => ∃ v ∈ ds, Described n v) n ∧ FirstDescribed ds n v ∧
          v.name = m) := by
  have hfirst : ∀ n, names.find? (fun n => ds.any (fun v => v.name == n)) = some n ↔
      FirstOf names (Present ds) n := by
    intro n
    rw [List.find?_eq_some_iff_append]
    unfold FirstOf
    simp only [any_present, Bool.not_eq_eq_eq_not, Bool.not_true, ← Bool.not_eq_true]
    constructor
    · rintro ⟨h, x, y, e, hx⟩
      exact ⟨x, y, e, h, hx⟩
    · rintro ⟨x, y, e, h, hx⟩
      exact ⟨h, x, y, e, hx⟩
  have hnone : names.find? (fun n => ds.any (fun v => v.name == n)) = none ↔
      ∀ n ∈ names, ¬ Present ds n := by
    rw [List.find?_eq_none]
    simp only [any_present]
  have hstd : ∀ v, stdNames.findSome? (fun n => ds.find? (described n)) = some v ↔
      ∃ n, FirstOf stdNames (fun n => ∃ v ∈ ds, Described n v) n ∧ FirstDescribed ds n v := by
    intro v
    rw [List.findSome?_eq_some_iff]
    constructor
    · rintro ⟨x, n, y, e, h, hx⟩
      have h' := (find_described ds n v).1 h
      refine ⟨n, ⟨x, y, e, ?_, ?_⟩, h'⟩
      · obtain ⟨a, b, rfl, hd, -⟩ := h'
        exact ⟨v, by simp, hd⟩
      · rintro b hb ⟨w, hw, hw'⟩
        exact (find_described_none ds b).1 (hx b hb) w hw hw'
    · rintro ⟨n, ⟨x, y, e, -, hx⟩, h⟩
      refine ⟨x, n, y, e, (find_described ds n v).2 h, fun b hb => ?_⟩
      exact (find_described_none ds b).2 (fun w hw hw' => hx b hb ⟨w, hw, hw'⟩)
  unfold genVarname
  cases hf : names.find? (fun n => ds.any (fun v => v.name == n)) with
  | some n =>
    simp only [Except.ok.injEq]
    have hn := (hfirst n).1 hf
    constructor
    · rintro rfl
      exact Or.inl hn
    · rintro (h | ⟨h, -⟩)
      · rw [← hfirst, hf] at h
        exact Option.some.inj h
      · obtain ⟨x, y, e, hp, -⟩ := hn
        exact absurd hp (h n (by rw [e]; simp))
  | none =>
    simp only
    have hn := hnone.1 hf
    have hno : ¬ FirstOf names (Present ds) m := by
      rintro ⟨x, y, e, hp, -⟩
      exact hn m (by rw [e]; simp) hp
    cases hg : stdNames.findSome? (fun n => ds.find? (described n)) with
    | some v =>
      simp only [Except.ok.injEq]
      obtain ⟨n, h1, h2⟩ := (hstd v).1 hg
      constructor
      · rintro rfl
        exact Or.inr ⟨hn, n, v, h1, h2, rfl⟩
      · rintro (h | ⟨-, n', v', g1, g2, rfl⟩)
        · exact absurd h hno
        · have := (hstd v').2 ⟨n', g1, g2⟩
          rw [hg] at this
          rw [Option.some.inj this]
    | none =>
      simp only [reduceCtorEq, false_iff, not_or, not_and, not_exists]
      refine ⟨hno, fun _ n v h1 h2 _ => ?_⟩
      rw [(hstd v).2 ⟨n, h1, h2⟩] at hg
      cases hg

/-- A single variable with no candidate in the file raises `ValueError`. -/
theorem C58_single_name_error (names stdNames : List String) (ds : List FVar)
    (h1 : ∀ n ∈ names, ¬ Present ds n) (h2 : ∀ n ∈ stdNames, ∀ v ∈ ds, ¬ Described n v) :
    genVarname names stdNames ds = .error .valueError := by
  cases h : genVarname names stdNames ds with
  | ok m =>
    exfalso
    rcases (C58_single_name names stdNames ds m).1 h with ⟨x, y, e, hp, -⟩ |
      ⟨-, n, v, ⟨x, y, e, ⟨w, hw, hw'⟩, -⟩, -, -⟩
    · exact h1 m (by rw [e]; simp) hp
    · exact h2 n (by rw [e]; simp) w hw hw'
  | error e =>
    unfold genVarname at h
    split at h
    · cases h
    · split at h
      · cases h
      · exact h.symm

example :
    let ds : List FVar := [⟨"b", some "speed", none⟩, ⟨"a", none, some "speed"⟩]
    genVarname ["x", "a", "b"] [] ds = .ok "a" ∧ genVarname ["x"] ["depth", "speed"] ds = .ok "b" ∧
      genVarname ["x"] ["depth"] ds = .error .valueError ∧
      genVarnames ["u", "v", "w"] [("u", ["x", "a"])] [("v", ["speed"])] ds =
        [("u", some "a"), ("v", some "b"), ("w", none)] :=
  ⟨rfl, rfl, rfl, by decide⟩

/-! ## C82: units -/

theorem varied_iff {α : Type} [DecidableEq α] (l : List α) :
    varied l = true ↔ ∃ a ∈ l, ∃ b ∈ l, a ≠ b := by
  cases l with
  | nil => simp [varied]
  | cons a t =>
    simp only [varied, List.any_eq_true, decide_eq_true_eq]
    constructor
    · rintro ⟨b, hb, h⟩
      exact ⟨b, by simp [hb], a, by simp, h⟩
    · rintro ⟨x, hx, y, hy, h⟩
      by_cases hxa : x = a
      · subst hxa
        have hy' : y ∈ t := by
          rcases List.mem_cons.1 hy with rfl | hy
          · exact absurd rfl h
          · exact hy
        exact ⟨y, hy', fun e => h e.symm⟩
      · rcases List.mem_cons.1 hx with rfl | hx
        · exact absurd rfl hxa
        · exact ⟨x, hx, hxa⟩

/-- C82: the units given as a text are reported. -/
def C82_statement : Prop := ∀ s : String, reportedUnits (.text s) = .ok (.text s)

/-- The code is wrong: a text is taken for a list of its letters. -/
theorem C82_refuted : ¬ C82_statement := by
  intro h
  have := h "mm"
  revert this
  simp only [reportedUnits]
  decide +kernel

/-- C82 for texts, exactly: those of one letter or of different letters are reported. The others
are missing, see `C82_refuted`. -/
theorem C82_text_partial (s : String) :
    reportedUnits (.text s) = .ok (.text s) ↔
      s.toList.length = 1 ∨ ∃ a ∈ s.toList, ∃ b ∈ s.toList, a ≠ b := by
  rw [← varied_iff]
  unfold reportedUnits
  by_cases hv : varied s.toList = true
  · simp [hv]
  · simp only [hv, Bool.false_eq_true, if_false, or_false]
    cases hs : s.toList with
    | nil => simp
    | cons c t =>
      simp only [Except.ok.injEq, Units.text.injEq, List.length_cons, Nat.add_eq_right,
        List.length_eq_zero_iff]
      constructor
      · intro h
        rw [← h, String.toList_ofList] at hs
        exact (List.cons.inj hs).2.symm
      · rintro rfl
        rw [← hs, String.ofList_toList]

/-- Missing units are reported as missing. -/
theorem C82_missing : reportedUnits .missing = .ok .missing := rfl

/-- If all components have the same units, these are reported. -/
theorem C82_common (us : List (Option String)) (u : Option String) (hne : us ≠ [])
    (h : ∀ v ∈ us, v = u) :
    reportedUnits (.each us) = .ok (match u with
      | none => .missing
      | some s => .text s) := by
  have hv : ¬ varied us = true := by
    rw [varied_iff]
    rintro ⟨a, ha, b, hb, hab⟩
    exact hab ((h a ha).trans (h b hb).symm)
  obtain ⟨a, t, rfl⟩ := List.exists_cons_of_ne_nil hne
  have := h a (by simp)
  subst this
  unfold reportedUnits
  simp only [hv]
  cases a <;> rfl

/-- If the components have different units, all of them are reported. -/
theorem C82_different (us : List (Option String)) (a b : Option String) (ha : a ∈ us) (hb : b ∈ us)
    (hab : a ≠ b) : reportedUnits (.each us) = .ok (.each us) := by
  have hv : varied us = true := (varied_iff us).2 ⟨a, ha, b, hb, hab⟩
  unfold reportedUnits
  simp [hv]

/-- Units collected from the components of a file are what would be reported for their list. -/
theorem C82_collected (us : List (Option String)) : collectUnits us = reportedUnits (.each us) := by
  cases us with
  | nil => rfl
  | cons u t =>
    by_cases h : ∀ v ∈ t, v = u
    · rw [C82_common (u :: t) u (by simp) (by simpa using h)]
      unfold collectUnits
      have : t.all (fun b => b == u) = true := by
        rw [List.all_eq_true]
        exact fun v hv => by simp [h v hv]
      simp only [this, if_true]
      cases u <;> rfl
    · push Not at h
      obtain ⟨v, hv, hne⟩ := h
      rw [C82_different (u :: t) v u (by simp [hv]) (by simp) hne]
      unfold collectUnits
      have : t.all (fun b => b == u) = false := by
        rw [List.all_eq_false]
        exact ⟨v, hv, by simpa using hne⟩
      simp [this]

example : reportedUnits (.text "m/s") = .ok (.text "m/s") ∧
    reportedUnits (.each [some "m", some "m"]) = .ok (.text "m") ∧
    reportedUnits (.each [some "m", none]) = .ok (.each [some "m", none]) ∧
    reportedUnits (.text "") = .error .indexError := by
  decide +kernel

/-! ## C83: construction -/

section
variable {τ γ : Type}

/-- C83: fewer than two components are refused with `ValueError`. -/
def C83_statement : Prop :=
  ∀ (τ γ : Type) (order : List String) (units : Units) (time : Option τ) (grid : Option γ)
    (vs : Option (List (Part τ γ))), (vs.getD []).length < 2 →
    make order units time grid vs = .error .valueError

/-- The code is wrong: the components are used before they are counted. -/
theorem C83_refuted : ¬ C83_statement := by
  intro h
  have he := h Unit Unit [] .missing none none (some []) (by simp)
  cases he

theorem nameParts_spec : ∀ (order : List String) (vs : List (Part τ γ)),
    order.length ≤ vs.length → ∃ r, nameParts order vs = .ok r ∧ r.length = order.length ∧
      ∀ (i : Nat) (n : String) (p : Part τ γ), order[i]? = some n → vs[i]? = some p →
        r[i]? = some (n, p)
  | [], _, _ => ⟨[], rfl, rfl, by simp⟩
  | n :: ns, [], h => by simp at h
  | n :: ns, p :: ps, h => by
    obtain ⟨r, h1, h2, h3⟩ := nameParts_spec ns ps (by simpa using h)
    refine ⟨(n, p) :: r, by simp [nameParts, h1], by simp [h2], ?_⟩
    intro i m q hm hq
    cases i with
    | zero =>
      cases hm
      cases hq
      rfl
    | succ i => exact h3 i m q hm hq

theorem nameParts_error : ∀ (order : List String) (vs : List (Part τ γ)),
    vs.length < order.length → nameParts order vs = .error .indexError
  | [], _, h => by simp at h
  | n :: ns, [], _ => rfl
  | n :: ns, p :: ps, h => by
    simp [nameParts, nameParts_error ns ps (by simpa using h)]

/-- C83 for what is missing: no components at all raise `TypeError`. -/
theorem C83_none_partial (order : List String) (units : Units) (time : Option τ) (grid : Option γ) :
    make order units time grid none = .error .typeError := rfl

/-- C83 for an empty list of components: `ValueError` if units and time are given, else
`IndexError`. -/
theorem C83_empty_partial (order : List String) (units : Units) (time : Option τ) (grid : Option γ) :
    make order units time grid (some []) =
      .error (if units ≠ .missing ∧ time.isSome then .valueError else .indexError) := by
  by_cases hu : units = .missing
  · subst hu
    rfl
  · cases time <;> simp [make, hu, firstTime, pure, Except.pure, bind, Except.bind, Except.map]

/-- C83 for a single variable: `ValueError`. Together with `C83_none_partial` and
`C83_empty_partial` this says what is raised in each case of fewer than two variables. -/
theorem C83_one_partial (order : List String) (units : Units) (time : Option τ) (grid : Option γ)
    (u : Units) (t : τ) (g : γ) :
    make order units time grid (some [.variable u t g]) = .error .valueError := by
  unfold make
  by_cases hu : units = .missing
  · subst hu
    cases time <;> cases u <;>
      simp [Part.isVariable, firstUnits, firstTime, pure, Except.pure, bind, Except.bind, Except.map]
  · cases time <;>
      simp [hu, Part.isVariable, firstTime, pure, Except.pure, bind, Except.bind, Except.map]

/-- C83 for two or more variables: the vector has these components, under the names of its class
in order; units, time and grid are those given and otherwise those of the first component. -/
theorem C83_made (order : List String) (units : Units) (time : Option τ) (grid : Option γ)
    (vs : List (Part τ γ)) (u0 : Units) (t0 : τ) (g0 : γ) (h0 : vs[0]? = some (.variable u0 t0 g0))
    (hv : ∀ v ∈ vs, v.isVariable = true) (h2 : 2 ≤ vs.length) (ho : order.length ≤ vs.length) :
    ∃ m, make order units time grid (some vs) = .ok m ∧ m.parts = vs ∧
      (units ≠ .missing → m.units = units) ∧ (units = .missing → m.units = u0) ∧
      m.time = some (time.getD t0) ∧ m.grid = some (grid.getD g0) ∧
      m.named.length = order.length ∧
      ∀ (i : Nat) (n : String) (p : Part τ γ), order[i]? = some n → vs[i]? = some p →
        m.named[i]? = some (n, p) := by
  obtain ⟨r, r1, r2, r3⟩ := nameParts_spec order vs ho
  cases vs with
  | nil => simp at h2
  | cons v vs =>
    have hv0 : v = .variable u0 t0 g0 := by simpa using h0
    subst hv0
    have hall : (Part.variable u0 t0 g0 :: vs).all Part.isVariable = true := by
      rw [List.all_eq_true]
      exact hv
    have hlt : ¬ (Part.variable u0 t0 g0 :: vs).length < 2 := by omega
    refine ⟨⟨if units = .missing then u0 else units, some (time.getD t0), some (grid.getD g0),
      _, r⟩, ?_, rfl, ?_, ?_, rfl, rfl, r2, r3⟩
    · unfold make
      simp only [hall, if_true]
      by_cases hu : units = .missing
      · subst hu
        cases time <;> by_cases hu0 : u0 = .missing <;>
          simp [hu0, hlt, r1, firstUnits, firstTime, pure, Except.pure, bind, Except.bind,
            Except.map] <;> simp_all
      · cases time <;>
          simp [hu, hlt, r1, firstTime, pure, Except.pure, bind, Except.bind, Except.map] <;>
          simp_all
    · intro h
      simp [h]
    · intro h
      simp [h]

/-- A class that names more components than there are raises `IndexError`. -/
theorem C83_too_few (order : List String) (units : Units) (time : Option τ) (grid : Option γ)
    (vs : List (Part τ γ)) (hv : ∀ v ∈ vs, v.isVariable = true) (h2 : 2 ≤ vs.length)
    (ho : vs.length < order.length) :
    make order units time grid (some vs) = .error .indexError := by
  have r1 := nameParts_error order vs ho
  cases vs with
  | nil => simp at h2
  | cons v vs =>
    cases v with
    | array => simpa [Part.isVariable] using hv .array (by simp)
    | «variable» u0 t0 g0 =>
      have hall : (Part.variable u0 t0 g0 :: vs).all Part.isVariable = true := by
        rw [List.all_eq_true]
        exact hv
      have hlt : ¬ (Part.variable u0 t0 g0 :: vs).length < 2 := by omega
      unfold make
      simp only [hall, if_true]
      by_cases hu : units = .missing
      · subst hu
        cases time <;> by_cases hu0 : u0 = .missing <;>
          simp [hu0, hlt, r1, firstUnits, firstTime, pure, Except.pure, bind, Except.bind,
            Except.map] <;> simp_all
      · cases time <;>
          simp [hu, hlt, r1, firstTime, pure, Except.pure, bind, Except.bind, Except.map] <;>
          simp_all

end

example : ∃ m, make ["u", "v"] .missing none (some 5) (some [.variable (.text "m") 3 4,
    .variable (.text "s") 6 7]) = .ok m ∧ m.units = .text "m" ∧ m.time = some 3 ∧ m.grid = some 5 ∧
    m.named = [("u", .variable (.text "m") 3 4), ("v", .variable (.text "s") 6 7)] :=
  ⟨_, rfl, rfl, rfl, rfl, rfl⟩

end Verif
