import Verif.Model.Vector
import Verif.Spec.Vector
import Verif.Lemmas.Util
import Verif.Lemmas.Cache
import Mathlib.Data.List.Forall2

set_option autoImplicit false

namespace Verif.Vector
open Verif Verif.Spec
open Verif.Util (Arr FVar reorganize)
open Verif.Cache (lookup Obj query store)

section stack
variable {ν : Type}

theorem rowsOf_unique (rows rows' cols : List (List ν)) (n : Nat) (h : RowsOf rows cols n)
    (h' : RowsOf rows' cols n) : rows = rows' := by
  apply List.ext_getElem?
  intro i
  by_cases hi : i < n
  · obtain ⟨r, e, hl, hr⟩ := h.2.2 i hi
    obtain ⟨r', e', hl', hr'⟩ := h'.2.2 i hi
    rw [e, e']
    congr 1
    apply List.ext_getElem?
    intro j
    by_cases hj : j < cols.length
    · rw [hr j _ (List.getElem?_eq_getElem hj), hr' j _ (List.getElem?_eq_getElem hj)]
    · rw [List.getElem?_eq_none (by omega), List.getElem?_eq_none (by omega)]
  · rw [List.getElem?_eq_none (by have := h.2.1; omega),
      List.getElem?_eq_none (by have := h'.2.1; omega)]

theorem filterMap_getElem (cols : List (List ν)) (i : Nat) (h : ∀ c ∈ cols, i < c.length) :
    (cols.filterMap (fun d => d[i]?)).length = cols.length ∧
      ∀ (j : Nat) (c : List ν), cols[j]? = some c →
        (cols.filterMap (fun d => d[i]?))[j]? = c[i]? := by
  induction cols with
  | nil => simp
  | cons d t ih =>
    obtain ⟨h1, h2⟩ := ih (fun c hc => h c (List.mem_cons_of_mem _ hc))
    have hd : d[i]? = some (d[i]'(h d List.mem_cons_self)) :=
      List.getElem?_eq_getElem _
    have e : (d :: t).filterMap (fun d => d[i]?) = (d[i]'(h d List.mem_cons_self)) ::
        t.filterMap (fun d => d[i]?) := by
      rw [List.filterMap_cons, hd]
    rw [e]
    refine ⟨by simp [h1], ?_⟩
    intro j c hj
    cases j with
    | zero =>
      simp only [List.getElem?_cons_zero, Option.some.injEq] at hj ⊢
      subst hj
      exact hd.symm
    | succ j =>
      simp only [List.getElem?_cons_succ] at hj ⊢
      exact h2 j c hj

theorem stack_spec (cols rows : List (List ν)) :
    stack cols = .ok rows ↔ cols ≠ [] ∧ ∃ n, RowsOf rows cols n := by
  cases cols with
  | nil => simp [stack]
  | cons c cs =>
    have build : (∀ d ∈ c :: cs, d.length = c.length) →
        RowsOf ((List.range c.length).map (fun i => (c :: cs).filterMap (fun d => d[i]?))) (c :: cs)
          c.length := by
      intro hl
      refine ⟨hl, by simp, ?_⟩
      intro i hi
      obtain ⟨h1, h2⟩ := filterMap_getElem (c :: cs) i (fun d hd => by rw [hl d hd]; exact hi)
      refine ⟨_, ?_, h1, h2⟩
      rw [List.getElem?_map, List.getElem?_range hi]
      rfl
    unfold stack
    simp only [ne_eq, reduceCtorEq, not_false_eq_true, true_and]
    constructor
    · intro h
      split at h
      · next hl =>
        cases h
        refine ⟨c.length, build ?_⟩
        intro d hd
        rcases List.mem_cons.1 hd with rfl | hd
        · rfl
        · simpa using (List.all_eq_true.1 hl) d hd
      · cases h
    · rintro ⟨n, h⟩
      have hn := h.1 c List.mem_cons_self
      have hl : ∀ d ∈ c :: cs, d.length = c.length := fun d hd => by rw [h.1 d hd, hn]
      rw [if_pos]
      · have := rowsOf_unique _ _ _ _ (build hl) (hn ▸ h)
        rw [this]
      · rw [List.all_eq_true]
        intro d hd
        simpa using hl d (List.mem_cons_of_mem _ hd)

theorem stack_error (cols : List (List ν)) (e : Err) (h : stack cols = .error e) :
    e = .valueError := by
  unfold stack at h
  split at h
  · cases h; rfl
  · split at h <;> cases h
    rfl

end stack

section names

theorem any_present (ds : List FVar) (n : String) :
    (ds.any (fun v => v.name == n)) = true ↔ Present ds n := by
  simp [Present]

theorem described_iff (n : String) (v : FVar) : described n v = true ↔ Described n v := by
  simp [described, Described]

theorem find_described (ds : List FVar) (n : String) (v : FVar) :
    ds.find? (described n) = some v ↔ FirstDescribed ds n v := by
  rw [List.find?_eq_some_iff_append]
  unfold FirstDescribed
  simp only [described_iff, Bool.not_eq_eq_eq_not, Bool.not_true, ← Bool.not_eq_true]
  constructor
  · rintro ⟨h, a, b, e, hn⟩
    exact ⟨a, b, e, h, hn⟩
  · rintro ⟨a, b, e, h, hn⟩
    exact ⟨h, a, b, e, hn⟩

theorem find_described_none (ds : List FVar) (n : String) :
    ds.find? (described n) = none ↔ ∀ v ∈ ds, ¬ Described n v := by
  rw [List.find?_eq_none]
  simp only [described_iff]

/-- A loop that keeps the last hit. -/
theorem foldl_last {α β : Type} (l : List α) (f : α → Option β) (acc : Option β) :
    (∀ b, l.foldl (fun acc a => (f a).or acc) acc = some b ↔
      (∃ a, LastSuch l (fun a => ∃ b, f a = some b) a ∧ f a = some b) ∨
        (∀ a ∈ l, f a = none) ∧ acc = some b) := by
  intro b
  induction l using List.reverseRecOn with
  | nil => simp [LastSuch]
  | append_singleton l x ih =>
    rw [List.foldl_append]
    simp only [List.foldl_cons, List.foldl_nil]
    cases hx : f x with
    | some c =>
      constructor
      · intro h
        simp only [Option.some_or] at h
        exact Or.inl ⟨x, ⟨l, [], by simp, ⟨c, hx⟩, by simp⟩, hx.trans h⟩
      · rintro (⟨a, ⟨pre, post, e, ⟨_, _⟩, hpost⟩, ha⟩ | ⟨h, -⟩)
        · rcases List.eq_nil_or_concat post with rfl | ⟨p, y, rfl⟩
          · have := List.append_inj' e rfl
            simp only [List.cons.injEq, and_true] at this
            rw [← this.2, hx] at ha
            exact ha
          · have e' : l ++ [x] = (pre ++ a :: p) ++ [y] := by rw [e]; simp
            have := List.append_inj' e' rfl
            simp only [List.cons.injEq, and_true] at this
            exact absurd ⟨c, this.2 ▸ hx⟩ (hpost y (by simp))
        · rw [h x (by simp)] at hx
          cases hx
    | none =>
      rw [Option.none_or, ih]
      constructor
      · rintro (⟨a, ⟨pre, post, e, h1, hpost⟩, ha⟩ | ⟨h, hacc⟩)
        · refine Or.inl ⟨a, ⟨pre, post ++ [x], by rw [e]; simp, h1, ?_⟩, ha⟩
          intro y hy
          rcases List.mem_append.1 hy with hy | hy
          · exact hpost y hy
          · rw [List.mem_singleton] at hy
            subst hy
            rintro ⟨_, hh⟩
            rw [hx] at hh
            cases hh
        · refine Or.inr ⟨?_, hacc⟩
          intro y hy
          rcases List.mem_append.1 hy with hy | hy
          · exact h y hy
          · rw [List.mem_singleton] at hy
            subst hy
            exact hx
      · rintro (⟨a, ⟨pre, post, e, h1, hpost⟩, ha⟩ | ⟨h, hacc⟩)
        · rcases List.eq_nil_or_concat post with rfl | ⟨p, y, rfl⟩
          · have := List.append_inj' e rfl
            simp only [List.cons.injEq, and_true] at this
            rw [← this.2, hx] at ha
            cases ha
          · have e' : l ++ [x] = (pre ++ a :: p) ++ [y] := by rw [e]; simp
            have := List.append_inj' e' rfl
            exact Or.inl ⟨a, ⟨pre, p, this.1, h1, fun z hz => hpost z (by simp [hz])⟩, ha⟩
        · exact Or.inr ⟨fun a ha => h a (by simp [ha]), hacc⟩

open Classical in
theorem byName_spec (ds : List FVar) (names : List String) (n : String) :
    byName ds names = some n ↔ LastSuch names (Present ds) n := by
  have key := foldl_last names (fun n => if Present ds n then some n else none) none n
  have e : byName ds names = names.foldl (fun acc a =>
      (if Present ds a then some a else none : Option String).or acc) none := by
    unfold byName
    congr 1
    funext acc a
    by_cases h : Present ds a
    · rw [if_pos ((any_present ds a).2 h), if_pos h]
      rfl
    · rw [if_neg (fun hh => h ((any_present ds a).1 hh)), if_neg h]
      rfl
  rw [e, key]
  constructor
  · rintro (⟨a, ⟨pre, post, e, h1, h2⟩, ha⟩ | ⟨-, h⟩)
    · split at ha
      · next hp =>
        cases ha
        refine ⟨pre, post, e, hp, ?_⟩
        intro b hb hpb
        exact h2 b hb ⟨b, by rw [if_pos hpb]⟩
      · cases ha
    · cases h
  · rintro ⟨pre, post, e, h1, h2⟩
    refine Or.inl ⟨n, ⟨pre, post, e, ⟨n, by rw [if_pos h1]⟩, ?_⟩, by rw [if_pos h1]⟩
    rintro b hb ⟨c, hc⟩
    rw [if_neg (h2 b hb)] at hc
    cases hc

theorem byDescription_spec (ds : List FVar) (names : List String) (m : String) :
    byDescription ds names = some m ↔
      ∃ n v, LastSuch names (fun n => ∃ v ∈ ds, Described n v) n ∧ FirstDescribed ds n v ∧
        v.name = m := by
  have key := foldl_last names (fun n => (ds.find? (described n)).map FVar.name) none m
  have e : byDescription ds names = names.foldl (fun acc a =>
      ((ds.find? (described a)).map FVar.name).or acc) none := by
    unfold byDescription
    congr 1
    funext acc a
    cases ds.find? (described a) <;> rfl
  have hex : ∀ n, (∃ b, (ds.find? (described n)).map FVar.name = some b) ↔
      ∃ v ∈ ds, Described n v := by
    intro n
    cases hf : ds.find? (described n) with
    | none =>
      rw [find_described_none] at hf
      simp only [Option.map_none, reduceCtorEq, exists_false, false_iff, not_exists, not_and]
      exact hf
    | some v =>
      simp only [Option.map_some, Option.some.injEq, exists_eq', true_iff]
      rw [find_described] at hf
      obtain ⟨a, b, rfl, h, -⟩ := hf
      exact ⟨v, by simp, h⟩
  rw [e, key]
  simp only [hex, reduceCtorEq, and_false, or_false]
  constructor
  · rintro ⟨n, h, hn⟩
    rw [Option.map_eq_some_iff] at hn
    obtain ⟨v, hv, rfl⟩ := hn
    exact ⟨n, v, h, (find_described ds n v).1 hv, rfl⟩
  · rintro ⟨n, v, h, hv, rfl⟩
    exact ⟨n, h, by rw [(find_described ds n v).2 hv]; rfl⟩

end names

end Verif.Vector
