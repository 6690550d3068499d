import Verif.Spec.Util
import Verif.Lemmas.Cache
import Verif.Lemmas.SText
import Mathlib.Tactic.Ring
import Mathlib.Tactic.Linarith
import Mathlib.Data.List.Induction

/-!
# Lemmas on utilities
-/

set_option autoImplicit false

namespace Verif.Cache
section
variable {κ ν : Type*} [DecidableEq κ]

theorem lookup_assign_ne (d : List (κ × ν)) (k k' : κ) (v : ν) (h : k ≠ k') :
    lookup (assign d k v) k' = lookup d k' := by
  induction d with
  | nil => simp [assign, lookup, h]
  | cons p t ih =>
    obtain ⟨a, b⟩ := p
    simp only [assign]
    split
    · rename_i e; subst e; simp [lookup, h]
    · simp only [lookup, ih]

theorem lookup_none {d : List (κ × ν)} {k : κ} : lookup d k = none ↔ k ∉ d.map Prod.fst := by
  induction d with
  | nil => simp [lookup]
  | cons p t ih =>
    obtain ⟨a, b⟩ := p
    simp only [lookup, List.map_cons, List.mem_cons, not_or]
    split
    · rename_i e; subst e; simp
    · rename_i e; rw [ih]; simp [Ne.symm e]

theorem lookup_iff {d : List (κ × ν)} (hd : (d.map Prod.fst).Nodup) {k : κ} {v : ν} :
    lookup d k = some v ↔ (k, v) ∈ d := by
  refine ⟨lookup_mem, ?_⟩
  induction d with
  | nil => simp
  | cons p t ih =>
    obtain ⟨a, b⟩ := p
    simp only [List.map_cons, List.nodup_cons] at hd
    simp only [lookup, List.mem_cons, Prod.mk.injEq]
    rintro (⟨rfl, rfl⟩ | h)
    · simp
    · have : a ≠ k := by
        rintro rfl
        exact hd.1 (List.mem_map.2 ⟨_, h, rfl⟩)
      simp [this, ih hd.2 h]

theorem keys_assign (d : List (κ × ν)) (k : κ) (v : ν) :
    (assign d k v).map Prod.fst =
      if k ∈ d.map Prod.fst then d.map Prod.fst else d.map Prod.fst ++ [k] := by
  induction d with
  | nil => simp [assign]
  | cons p t ih =>
    obtain ⟨a, b⟩ := p
    simp only [assign]
    split
    · rename_i e; subst e; simp
    · rename_i e
      simp only [List.map_cons, ih, List.mem_cons, Ne.symm e, false_or]
      split <;> simp

theorem nodup_assign (d : List (κ × ν)) (k : κ) (v : ν) (h : (d.map Prod.fst).Nodup) :
    ((assign d k v).map Prod.fst).Nodup := by
  rw [keys_assign]
  split
  · exact h
  · rename_i hk
    rw [List.nodup_append]
    refine ⟨h, by simp, ?_⟩
    intro a ha b hb e
    simp only [List.mem_singleton] at hb
    subst e
    subst hb
    exact hk ha

end
end Verif.Cache

namespace Verif.Util
open Verif Verif.Cache Verif.Spec

/-! ## Searches -/

theorem find_first (ds : List FVar) (P : FVar → Prop) [DecidablePred P] (v : FVar) :
    ds.find? (fun u => decide (P u)) = some v ↔ FirstVar ds P v := by
  rw [List.find?_eq_some_iff_append]
  unfold FirstVar
  constructor
  · rintro ⟨h, as, bs, e, hn⟩
    exact ⟨as, bs, e, by simpa using h, fun u hu => by simpa using hn u hu⟩
  · rintro ⟨as, bs, e, h, hn⟩
    exact ⟨by simpa using h, as, bs, e, fun u hu => by simpa using hn u hu⟩

theorem head_filter (ds : List FVar) (p : FVar → Bool) : (ds.filter p).head? = ds.find? p := by
  induction ds with
  | nil => rfl
  | cons a t ih =>
    simp only [List.filter_cons, List.find?_cons]
    split
    · rename_i h; simp [h]
    · rename_i h; simp [h, ih]

theorem byAttr_head (ds : List FVar) (q : String) (v : FVar) :
    (byAttr ds q).head? = some v ↔ LongHit ds q v := by
  unfold byAttr LongHit
  rw [List.head?_append, head_filter, head_filter, ← find_first, ← find_first]
  have e1 : (fun v : FVar => v.longName == some q) = fun v => decide (v.longName = some q) := by
    funext v; rw [Bool.eq_iff_iff]; simp
  have e2 : (fun v : FVar => v.standardName == some q) =
      fun v => decide (v.standardName = some q) := by
    funext v; rw [Bool.eq_iff_iff]; simp
  rw [e1, e2]
  cases h : ds.find? (fun v => decide (v.longName = some q)) with
  | none =>
    rw [List.find?_eq_none] at h
    simp only [decide_eq_true_eq] at h
    simp only [Option.or, reduceCtorEq, false_or]
    exact ⟨fun hh => ⟨h, hh⟩, fun hh => hh.2⟩
  | some u =>
    simp only [Option.or]
    constructor
    · exact fun e => Or.inl e
    · rintro (e | ⟨hn, -⟩)
      · exact e
      · have := List.find?_some h
        exact absurd (by simpa using this) (hn u (List.mem_of_find?_eq_some h))

theorem firstLong_iff (ds : List FVar) (qs : List String) (v : FVar) :
    firstLong ds qs = some v ↔ Best (LongHit ds) qs v := by
  induction qs with
  | nil => simp [firstLong, Best]
  | cons q qs ih =>
    simp only [firstLong]
    have hb := byAttr_head ds q
    split
    · next u l e =>
      rw [e] at hb
      have hu : LongHit ds q u := (hb u).1 rfl
      constructor
      · rintro ⟨⟩
        exact ⟨[], q, qs, rfl, hu, by simp⟩
      · rintro ⟨pre, q', post, e', h, hn⟩
        cases pre with
        | nil =>
          simp only [List.nil_append, List.cons.injEq] at e'
          have := (hb v).2 (e'.1 ▸ h)
          simpa using this
        | cons a pre =>
          simp only [List.cons_append, List.cons.injEq] at e'
          exact absurd hu (e'.1 ▸ hn a (List.mem_cons_self ..) u)
    · next e =>
      rw [e] at hb
      have hno : ∀ u, ¬ LongHit ds q u := fun u hu => by simpa using (hb u).2 hu
      rw [ih]
      constructor
      · rintro ⟨pre, q', post, e', h, hn⟩
        refine ⟨q :: pre, q', post, by simp [e'], h, ?_⟩
        intro a ha
        rcases List.mem_cons.1 ha with rfl | ha
        · exact hno
        · exact hn a ha
      · rintro ⟨pre, q', post, e', h, hn⟩
        cases pre with
        | nil =>
          simp only [List.nil_append, List.cons.injEq] at e'
          exact absurd (e'.1 ▸ h) (hno v)
        | cons a pre =>
          simp only [List.cons_append, List.cons.injEq] at e'
          exact ⟨pre, q', post, e'.2, h, fun b hb => hn b (List.mem_cons_of_mem _ hb)⟩

theorem firstName_iff (ds : List FVar) (qs : List String) (v : FVar) :
    firstName ds qs = some v ↔ Best (NameHit ds) qs v := by
  induction qs with
  | nil => simp [firstName, Best]
  | cons q qs ih =>
    simp only [firstName]
    have e1 : (fun v : FVar => v.name == q) = fun v => decide (v.name = q) := by
      funext v; rw [Bool.eq_iff_iff]; simp
    have hb : ∀ u, ds.find? (fun v => v.name == q) = some u ↔ NameHit ds q u := by
      intro u; rw [e1]; exact find_first ds (fun v => v.name = q) u
    split
    · next u e =>
      rw [e] at hb
      have hu : NameHit ds q u := (hb u).1 rfl
      constructor
      · rintro ⟨⟩
        exact ⟨[], q, qs, rfl, hu, by simp⟩
      · rintro ⟨pre, q', post, e', h, hn⟩
        cases pre with
        | nil =>
          simp only [List.nil_append, List.cons.injEq] at e'
          exact (hb v).2 (e'.1 ▸ h)
        | cons a pre =>
          simp only [List.cons_append, List.cons.injEq] at e'
          exact absurd hu (e'.1 ▸ hn a (List.mem_cons_self ..) u)
    · next e =>
      rw [e] at hb
      have hno : ∀ u, ¬ NameHit ds q u := fun u hu => by simpa using (hb u).2 hu
      rw [ih]
      constructor
      · rintro ⟨pre, q', post, e', h, hn⟩
        refine ⟨q :: pre, q', post, by simp [e'], h, ?_⟩
        intro a ha
        rcases List.mem_cons.1 ha with rfl | ha
        · exact hno
        · exact hn a ha
      · rintro ⟨pre, q', post, e', h, hn⟩
        cases pre with
        | nil =>
          simp only [List.nil_append, List.cons.injEq] at e'
          exact absurd (e'.1 ▸ h) (hno v)
        | cons a pre =>
          simp only [List.cons_append, List.cons.injEq] at e'
          exact ⟨pre, q', post, e'.2, h, fun b hb => hn b (List.mem_cons_of_mem _ hb)⟩

theorem lookup_searchAll (find : List String → Option FVar) (t : List (String × List String))
    (k : String) : lookup (searchAll find t) k = (lookup t k).map find := by
  induction t with
  | nil => rfl
  | cons p t ih =>
    obtain ⟨a, b⟩ := p
    simp only [searchAll, List.map_cons, lookup] at ih ⊢
    split
    · rfl
    · exact ih

theorem keys_searchAll (find : List String → Option FVar) (t : List (String × List String)) :
    (searchAll find t).map Prod.fst = t.map Prod.fst := by
  simp [searchAll]

/-- What one step of the merge leaves under a key. -/
theorem merge_step (d1 r : List (String × Option FVar)) (d2 : List (String × Option FVar))
    (h2 : (d2.map Prod.fst).Nodup) (k : String) :
    lookup (d2.foldl (fun result kv =>
      match lookup d1 kv.1 with
      | none => assign result kv.1 kv.2
      | some _ => match lookup result kv.1 with
        | some none => assign result kv.1 kv.2
        | _ => result) r) k =
      match lookup d2 k with
      | none => lookup r k
      | some y => if (lookup d1 k).isNone ∨ lookup r k = some none then some y else lookup r k := by
  induction d2 generalizing r with
  | nil => rfl
  | cons p t ih =>
    obtain ⟨a, b⟩ := p
    simp only [List.map_cons, List.nodup_cons] at h2
    rw [List.foldl_cons, ih _ h2.2]
    by_cases hk : a = k
    · subst hk
      have : lookup t a = none := lookup_none.2 h2.1
      rw [this]
      simp only [lookup, if_true]
      cases h : lookup d1 a with
      | none => simp [lookup_assign_self]
      | some x =>
        simp only [Option.isNone_some, Bool.false_eq_true, false_or]
        split
        · next e => rw [if_pos e, lookup_assign_self]
        · next e => rw [if_neg (by simpa using e)]
    · have e : lookup (match lookup d1 a with
          | none => assign r a b
          | some _ => match lookup r a with
            | some none => assign r a b
            | _ => r) k = lookup r k := by
        split
        · exact lookup_assign_ne _ _ _ _ hk
        · split
          · exact lookup_assign_ne _ _ _ _ hk
          · rfl
      simp only [lookup, if_neg hk]
      rw [e]

theorem lookup_merge (d1 d2 : List (String × Option FVar)) (h2 : (d2.map Prod.fst).Nodup)
    (k : String) :
    lookup (merge d1 d2) k =
      match lookup d2 k with
      | none => lookup d1 k
      | some y => if (lookup d1 k).isNone ∨ lookup d1 k = some none then some y else lookup d1 k :=
  merge_step d1 d1 d2 h2 k

theorem nodup_merge (d1 d2 : List (String × Option FVar)) (h1 : (d1.map Prod.fst).Nodup) :
    ((merge d1 d2).map Prod.fst).Nodup := by
  unfold merge
  refine foldl_inv _ (fun r : List (String × Option FVar) => (r.map Prod.fst).Nodup) ?_ _ _ h1
  intro s o hs
  split
  · exact nodup_assign _ _ _ hs
  · split
    · exact nodup_assign _ _ _ hs
    · exact hs

theorem candidates_lookup (t : List (String × List String)) (ht : (t.map Prod.fst).Nodup)
    (k : String) :
    lookup t k = if k ∈ t.map Prod.fst then some (candidates t k) else none := by
  induction t with
  | nil => simp [lookup]
  | cons p t ih =>
    obtain ⟨a, b⟩ := p
    simp only [List.map_cons, List.nodup_cons] at ht
    simp only [lookup, List.map_cons, List.mem_cons]
    by_cases h : a = k
    · subst h
      have : t.filter (fun kv => kv.1 = a) = [] := by
        rw [List.filter_eq_nil_iff]
        intro x hx
        simp only [decide_eq_true_eq]
        rintro rfl
        exact ht.1 (List.mem_map.2 ⟨x, hx, rfl⟩)
      simp [candidates, this]
    · rw [if_neg h, ih ht.2]
      have h' : ¬ k = a := fun e => h e.symm
      simp only [h', false_or]
      simp [candidates, h]

theorem candidates_not_mem (t : List (String × List String)) (k : String)
    (h : k ∉ t.map Prod.fst) : candidates t k = [] := by
  have : t.filter (fun kv => kv.1 = k) = [] := by
    rw [List.filter_eq_nil_iff]
    intro x hx
    simp only [decide_eq_true_eq]
    rintro rfl
    exact h (List.mem_map.2 ⟨x, hx, rfl⟩)
  simp [candidates, this]

theorem lookup_both (d1 d2 : List (String × Option FVar)) (h2 : (d2.map Prod.fst).Nodup)
    (k : String) (P1 P2 : Prop) [Decidable P1] [Decidable P2] (o1 o2 : Option FVar)
    (e1 : lookup d1 k = if P1 then some o1 else none)
    (e2 : lookup d2 k = if P2 then some o2 else none)
    (n1 : ¬ P1 → o1 = none) (n2 : ¬ P2 → o2 = none) :
    lookup (merge d1 d2) k = if P1 ∨ P2 then some (o1.or o2) else none := by
  rw [lookup_merge d1 d2 h2, e1, e2]
  by_cases p1 : P1 <;> by_cases p2 : P2
  · cases o1 <;> simp [p1, p2]
  · simp [p1, p2, n2 p2]
  · simp [p1, p2, n1 p1]
  · simp [p1, p2]

/-- What is found for a key in one file. -/
def inFile (defaults cf : List (String × List String)) (k : String) (ds : List FVar) :
    Option FVar :=
  (firstLong ds (candidates cf k)).or (firstName ds (candidates defaults k))

theorem lookup_file (defaults cf : List (String × List String))
    (hd : (defaults.map Prod.fst).Nodup) (hc : (cf.map Prod.fst).Nodup) (ds : List FVar)
    (k : String) :
    lookup (merge (searchAll (firstLong ds) cf) (searchAll (firstName ds) defaults)) k =
      if k ∈ cf.map Prod.fst ∨ k ∈ defaults.map Prod.fst then some (inFile defaults cf k ds)
      else none := by
  refine lookup_both _ _ ?_ k _ _ _ _ ?_ ?_ ?_ ?_
  · rw [keys_searchAll]; exact hd
  · rw [lookup_searchAll, candidates_lookup cf hc]
    split <;> rfl
  · rw [lookup_searchAll, candidates_lookup defaults hd]
    split <;> rfl
  · intro h; rw [candidates_not_mem _ _ h]; rfl
  · intro h; rw [candidates_not_mem _ _ h]; rfl

theorem lookup_search (defaults cf : List (String × List String))
    (hd : (defaults.map Prod.fst).Nodup) (hc : (cf.map Prod.fst).Nodup) (ds : List FVar)
    (dg : Option (List FVar)) (k : String) :
    lookup (search defaults cf ds dg) k =
      if k ∈ cf.map Prod.fst ∨ k ∈ defaults.map Prod.fst then
        some ((inFile defaults cf k ds).or (dg.elim none (inFile defaults cf k)))
      else none := by
  unfold search
  cases dg with
  | none =>
    simp only [Option.elim_none, Option.or_none]
    exact lookup_file defaults cf hd hc ds k
  | some g =>
    simp only [Option.elim_some]
    have hn : ∀ f, ¬ (k ∈ cf.map Prod.fst ∨ k ∈ defaults.map Prod.fst) →
        inFile defaults cf k f = none := by
      intro f h
      rw [not_or] at h
      unfold inFile
      rw [candidates_not_mem _ _ h.1, candidates_not_mem _ _ h.2]
      rfl
    have := lookup_both _ _ (nodup_merge (searchAll (firstLong g) cf)
        (searchAll (firstName g) defaults) (by rw [keys_searchAll]; exact hc)) k _ _ _ _
      (lookup_file defaults cf hd hc ds k) (lookup_file defaults cf hd hc g k) (hn ds) (hn g)
    rw [this]
    simp only [or_self]

theorem nodup_search (defaults cf : List (String × List String)) (hc : (cf.map Prod.fst).Nodup)
    (ds : List FVar) (dg : Option (List FVar)) :
    ((search defaults cf ds dg).map Prod.fst).Nodup := by
  unfold search
  cases dg with
  | none => exact nodup_merge _ _ (by rw [keys_searchAll]; exact hc)
  | some g => exact nodup_merge _ _ (nodup_merge _ _ (by rw [keys_searchAll]; exact hc))

theorem firstWay_nil (v : FVar) : (none : Option FVar) = some v ↔ FirstWay [] v := by
  simp [FirstWay]

theorem firstWay_cons (o o' : Option FVar) (w : FVar → Prop) (ws : List (FVar → Prop))
    (h : ∀ v, o = some v ↔ w v) (h' : ∀ v, o' = some v ↔ FirstWay ws v) (v : FVar) :
    o.or o' = some v ↔ FirstWay (w :: ws) v := by
  cases o with
  | some u =>
    have hu : w u := (h u).1 rfl
    simp only [Option.some_or]
    constructor
    · intro e
      exact ⟨[], w, ws, rfl, (h v).1 e, by simp⟩
    · rintro ⟨pre, w', post, e, hw, hn⟩
      cases pre with
      | nil =>
        simp only [List.nil_append, List.cons.injEq] at e
        exact (h v).2 (e.1 ▸ hw)
      | cons a pre =>
        simp only [List.cons_append, List.cons.injEq] at e
        exact absurd hu (e.1 ▸ hn a (List.mem_cons_self ..) u)
  | none =>
    have hno : ∀ u, ¬ w u := fun u hu => by simpa using (h u).2 hu
    simp only [Option.none_or]
    rw [h']
    constructor
    · rintro ⟨pre, w', post, e, hw, hn⟩
      refine ⟨w :: pre, w', post, by simp [e], hw, ?_⟩
      intro a ha
      rcases List.mem_cons.1 ha with rfl | ha
      · exact hno
      · exact hn a ha
    · rintro ⟨pre, w', post, e, hw, hn⟩
      cases pre with
      | nil =>
        simp only [List.nil_append, List.cons.injEq] at e
        exact absurd (e.1 ▸ hw) (hno v)
      | cons a pre =>
        simp only [List.cons_append, List.cons.injEq] at e
        exact ⟨pre, w', post, e.2, hw, fun b hb => hn b (List.mem_cons_of_mem _ hb)⟩

theorem firstLong_none (ds : List FVar) (qs : List String) :
    firstLong ds qs = none ↔
      ¬ ∃ q ∈ qs, ∃ v ∈ ds, v.longName = some q ∨ v.standardName = some q := by
  induction qs with
  | nil => simp [firstLong]
  | cons q qs ih =>
    simp only [firstLong]
    split
    · next u l e =>
      have hm : u ∈ byAttr ds q := by rw [e]; exact List.mem_cons_self ..
      simp only [byAttr, List.mem_append, List.mem_filter, beq_iff_eq] at hm
      simp only [reduceCtorEq, false_iff, not_not]
      refine ⟨q, List.mem_cons_self .., u, ?_⟩
      rcases hm with h | h
      · exact ⟨h.1, Or.inl h.2⟩
      · exact ⟨h.1, Or.inr h.2⟩
    · next e =>
      rw [ih]
      simp only [byAttr, List.append_eq_nil_iff, List.filter_eq_nil_iff, beq_iff_eq] at e
      rw [not_iff_not]
      constructor
      · rintro ⟨q', hq, h⟩
        exact ⟨q', List.mem_cons_of_mem _ hq, h⟩
      · rintro ⟨q', hq, v, hv, h⟩
        rcases List.mem_cons.1 hq with rfl | hq
        · rcases h with h | h
          · exact absurd h (e.1 v hv)
          · exact absurd h (e.2 v hv)
        · exact ⟨q', hq, v, hv, h⟩

theorem firstName_none (ds : List FVar) (qs : List String) :
    firstName ds qs = none ↔ ¬ ∃ q ∈ qs, ∃ v ∈ ds, v.name = q := by
  induction qs with
  | nil => simp [firstName]
  | cons q qs ih =>
    simp only [firstName]
    split
    · next u e =>
      simp only [reduceCtorEq, false_iff, not_not]
      exact ⟨q, List.mem_cons_self .., u, List.mem_of_find?_eq_some e, by
        simpa using List.find?_some e⟩
    · next e =>
      rw [ih]
      simp only [List.find?_eq_none, beq_iff_eq] at e
      rw [not_iff_not]
      constructor
      · rintro ⟨q', hq, h⟩
        exact ⟨q', List.mem_cons_of_mem _ hq, h⟩
      · rintro ⟨q', hq, v, hv, h⟩
        rcases List.mem_cons.1 hq with rfl | hq
        · exact absurd h (e v hv)
        · exact ⟨q', hq, v, hv, h⟩

theorem inFile_none (defaults cf : List (String × List String)) (k : String) (ds : List FVar) :
    inFile defaults cf k ds = none ↔ ¬ Somewhere defaults cf k ds := by
  unfold inFile Somewhere
  rw [Option.or_eq_none_iff, firstLong_none, firstName_none, not_or]

/-! ## Points -/

section
variable {K : Type*}

theorem rows_length (c r : Nat) (g : Nat → Nat → K) :
    ((List.range c).flatMap (fun j => (List.range r).map (g j))).length = c * r := by
  induction c with
  | zero => simp
  | succ c ih =>
    rw [List.range_succ, List.flatMap_append, List.length_append, ih]
    simp [Nat.succ_mul]

theorem rows_get (c r : Nat) (g : Nat → Nat → K) (j i : Nat) (hj : j < c) (hi : i < r) :
    ((List.range c).flatMap (fun j => (List.range r).map (g j)))[j * r + i]? = some (g j i) := by
  induction c with
  | zero => omega
  | succ c ih =>
    rw [List.range_succ, List.flatMap_append]
    by_cases h : j < c
    · rw [List.getElem?_append_left]
      · exact ih h
      · rw [rows_length]
        calc j * r + i < j * r + r := by omega
          _ = (j + 1) * r := by ring
          _ ≤ c * r := Nat.mul_le_mul_right r h
    · have : j = c := by omega
      subst this
      rw [List.getElem?_append_right (by rw [rows_length]; omega), rows_length]
      simp [hi]

theorem filterMap_all {α β : Type*} (l : List α) (p : α → Option β) (q : α → β)
    (h : ∀ a ∈ l, p a = some (q a)) : l.filterMap p = l.map q := by
  induction l with
  | nil => rfl
  | cons a t ih =>
    rw [List.filterMap_cons, h a (List.mem_cons_self ..)]
    simp [ih (fun b hb => h b (List.mem_cons_of_mem _ hb))]

theorem transposeData_eq (r c : Nat) (data : List K) (f : Nat → Nat → K)
    (h : ∀ i j : Nat, i < r → j < c → data[i * c + j]? = some (f i j)) :
    transposeData r c data = (List.range c).flatMap (fun j => (List.range r).map (fun i => f i j)) := by
  unfold transposeData
  rw [List.flatMap_eq_foldl, List.flatMap_eq_foldl]
  rw [← List.flatMap_eq_foldl, ← List.flatMap_eq_foldl]
  rw [List.flatMap_def, List.flatMap_def]
  congr 1
  refine List.map_congr_left ?_
  intro j hj
  refine filterMap_all _ _ _ ?_
  intro i hi
  exact h i j (List.mem_range.1 hi) (List.mem_range.1 hj)

theorem holds_transpose (r c : Nat) (a : Arr K) (f : Nat → Nat → K) (h : Holds a r c f) :
    Holds ⟨[c, r], transposeData r c a.data⟩ c r (fun j i => f i j) := by
  refine ⟨rfl, ?_, ?_⟩
  · simp only [transposeData_eq r c a.data f h.2.2]
    exact rows_length c r (fun j i => f i j)
  · intro j i hj hi
    simp only [transposeData_eq r c a.data f h.2.2]
    exact rows_get c r (fun j i => f i j) j i hj hi

/-- An array is known by its entries. -/
theorem holds_unique (r c : Nat) (a b : Arr K) (f : Nat → Nat → K) (ha : Holds a r c f)
    (hb : Holds b r c f) : a = b := by
  obtain ⟨sa, da⟩ := a
  obtain ⟨sb, db⟩ := b
  obtain ⟨h1, h2, h3⟩ := ha
  obtain ⟨g1, g2, g3⟩ := hb
  simp only at h1 h2 h3 g1 g2 g3
  subst h1 g1
  congr 1
  refine List.ext_getElem? ?_
  intro n
  by_cases hn : n < r * c
  · have hc : 0 < c := by
      rcases Nat.eq_zero_or_pos c with rfl | h
      · simp at hn
      · exact h
    have e : n / c * c + n % c = n := by rw [Nat.mul_comm]; exact Nat.div_add_mod n c
    have h3' := h3 (n / c) (n % c) ((Nat.div_lt_iff_lt_mul hc).2 hn) (Nat.mod_lt _ hc)
    have g3' := g3 (n / c) (n % c) ((Nat.div_lt_iff_lt_mul hc).2 hn) (Nat.mod_lt _ hc)
    rw [e] at h3' g3'
    rw [h3', g3']
  · rw [List.getElem?_eq_none (by omega), List.getElem?_eq_none (by omega)]

theorem reorganize_padded (a b : Arr K) (h : WithUnitAxes a b) : reorganize a = reorganize b := by
  have : squeeze a = squeeze b := by
    unfold squeeze
    have h2 := h.2
    simp only [ne_eq, decide_not] at h2 ⊢
    rw [h.1, h2]
  unfold reorganize
  rw [this]

end

/-! ## Masks -/

section
variable {α : Type*} [DecidableEq α]

theorem isWater_iff (s : String) :
    isWater s = true ↔ (Mentions "water" s ∨ Mentions "lake" s) := by
  unfold isWater Mentions
  rw [Bool.or_eq_true, SText.contains_iff, SText.contains_iff]

/-- The value a dictionary built from pairs has at a key: the last one given. -/
def lastOf {β : Type*} (kvs : List (α × β)) (x : α) : Option β :=
  lookup kvs.reverse x

theorem lookup_append {κ ν : Type*} [DecidableEq κ] (a b : List (κ × ν)) (k : κ) :
    lookup (a ++ b) k = (lookup a k).or (lookup b k) := by
  induction a with
  | nil => simp [lookup]
  | cons p t ih =>
    obtain ⟨x, y⟩ := p
    simp only [List.cons_append, lookup]
    split
    · simp
    · exact ih

theorem dictOf_lookup {β : Type*} (kvs : List (α × β)) (x : α) :
    lookup (dictOf kvs) x = lastOf kvs x ∧ ((dictOf kvs).map Prod.fst).Nodup := by
  induction kvs using List.reverseRecOn with
  | nil => simp [dictOf, lastOf, lookup]
  | append_singleton l a ih =>
    unfold dictOf lastOf at ih ⊢
    rw [List.foldl_append, List.reverse_append]
    simp only [List.foldl_cons, List.foldl_nil, List.reverse_cons, List.reverse_nil, List.nil_append,
      List.cons_append, lookup]
    refine ⟨?_, nodup_assign _ _ _ ih.2⟩
    split
    · next e => subst e; exact lookup_assign_self _ _ _
    · next e => rw [lookup_assign_ne _ _ _ _ e]; exact ih.1

theorem applyMap_eq (d : List (α × Bool)) (hd : (d.map Prod.fst).Nodup) (x : α) :
    applyMap d x = (lookup d x).getD true := by
  unfold applyMap
  have key : ∀ m : Bool, d.foldl (fun m kv => if x = kv.1 then kv.2 else m) m =
      (lookup d x).getD m := by
    induction d with
    | nil => intro m; rfl
    | cons p t ih =>
      obtain ⟨a, b⟩ := p
      simp only [List.map_cons, List.nodup_cons] at hd
      intro m
      rw [List.foldl_cons, ih hd.2]
      simp only [lookup]
      by_cases h : x = a
      · subst h
        rw [lookup_none.2 hd.1]
        simp
      · simp [h, Ne.symm h]
  exact key true

theorem lastOf_zip_iff {β : Type*} (vs : List α) (ms : List β) (x : α) (b : β) :
    lastOf (vs.zip ms) x = some b ↔
      ∃ i : Nat, vs[i]? = some x ∧ ms[i]? = some b ∧
        ∀ i' : Nat, i < i' → i' < ms.length → vs[i']? ≠ some x := by
  induction vs generalizing ms b with
  | nil => simp [lastOf, lookup]
  | cons v vs ih =>
    cases ms with
    | nil => simp [lastOf, lookup]
    | cons m ms =>
      have e : lastOf ((v :: vs).zip (m :: ms)) x =
          (lastOf (vs.zip ms) x).or (if v = x then some m else none) := by
        unfold lastOf
        rw [List.zip_cons_cons, List.reverse_cons, lookup_append]
        simp [lookup]
      rw [e]
      cases h : lastOf (vs.zip ms) x with
      | some b' =>
        obtain ⟨i, h1, h2, h3⟩ := (ih ms b' ).1 h
        simp only [Option.or]
        constructor
        · rintro ⟨⟩
          refine ⟨i + 1, by simpa using h1, by simpa using h2, ?_⟩
          intro i' hi hl
          obtain ⟨n, rfl⟩ : ∃ n, i' = n + 1 := ⟨i' - 1, by omega⟩
          simpa using h3 n (by omega) (by simpa using hl)
        · rintro ⟨j, g1, g2, g3⟩
          have hil : i < ms.length := (List.getElem?_eq_some_iff.1 h2).1
          have : j = i + 1 := by
            rcases Nat.lt_trichotomy j (i + 1) with hlt | he | hgt
            · exact absurd (by simpa using h1) (g3 (i + 1) hlt (by simpa using hil))
            · exact he
            · obtain ⟨n, rfl⟩ : ∃ n, j = n + 1 := ⟨j - 1, by omega⟩
              simp only [List.getElem?_cons_succ] at g1 g2
              exact absurd g1 (h3 n (by omega) (List.getElem?_eq_some_iff.1 g2).1)
          subst this
          simp only [List.getElem?_cons_succ] at g2
          rw [← h2, g2]
      | none =>
        -- no occurrence in the tail at all
        have hnone : ∀ n : Nat, n < ms.length → vs[n]? ≠ some x := by
          intro n hn he
          have hmem : x ∈ (vs.zip ms).reverse.map Prod.fst := by
            rw [List.map_reverse, List.mem_reverse, List.mem_map]
            refine ⟨(x, ms[n]), ?_, rfl⟩
            rw [List.mem_iff_getElem?]
            exact ⟨n, by simp [List.getElem?_zip_eq_some, he, hn]⟩
          exact lookup_none.1 h hmem
        simp only [Option.or]
        constructor
        · intro hh
          split at hh
          · next hv =>
            cases hh
            refine ⟨0, by simp [hv], by simp, ?_⟩
            intro i' hi hl
            obtain ⟨n, rfl⟩ : ∃ n, i' = n + 1 := ⟨i' - 1, by omega⟩
            simpa using hnone n (by simpa using hl)
          · cases hh
        · rintro ⟨j, g1, g2, g3⟩
          cases j with
          | zero =>
            simp only [List.getElem?_cons_zero, Option.some.injEq] at g1 g2
            rw [if_pos g1, g2]
          | succ n =>
            simp only [List.getElem?_cons_succ] at g1 g2
            exact absurd g1 (hnone n (List.getElem?_eq_some_iff.1 g2).1)

end

end Verif.Util
