import Verif.Model.Verdat
import Verif.Spec.Verdat
import Verif.Lemmas.Depth
import Verif.Lemmas.Np
import Mathlib.Data.List.Perm.Basic
import Mathlib.Data.List.Forall2
import Mathlib.Order.MinMax
import Mathlib.Tactic.Common

/-!
# Lemmas about chaining boundary segments and verdat files
-/

set_option autoImplicit false

namespace Verif.Verdat
open Verif Verif.Spec

theorem insertSeg_perm (x : Int × Int) (l : List (Int × Int)) : (insertSeg x l).Perm (x :: l) := by
  induction l with
  | nil => exact List.Perm.refl _
  | cons y ys ih =>
    simp only [insertSeg]
    split
    · exact List.Perm.refl _
    · exact (ih.cons y).trans (List.Perm.swap x y ys)

theorem sortSegs_perm (l : List (Int × Int)) : (sortSegs l).Perm l := by
  induction l with
  | nil => exact List.Perm.refl _
  | cons x xs ih => exact (insertSeg_perm x _).trans (ih.cons x)

theorem findSeg_ok {c c' : Chain} {rest r : List (Int × Int)}
    (h : findSeg c rest = some (.ok (c', r))) :
    ∃ s, rest.Perm (s :: r) ∧ extend c s = some (.ok c') := by
  induction rest generalizing r with
  | nil => simp [findSeg] at h
  | cons s t ih =>
    simp only [findSeg] at h
    cases he : extend c s with
    | some x =>
      cases x with
      | ok c1 =>
        simp only [he, Option.some.injEq, Except.ok.injEq, Prod.mk.injEq] at h
        obtain ⟨rfl, rfl⟩ := h
        exact ⟨s, List.Perm.refl _, he⟩
      | error e => simp [he] at h
    | none =>
      simp only [he] at h
      cases hf : findSeg c t with
      | none => simp [hf] at h
      | some x =>
        cases x with
        | error e => simp [hf] at h
        | ok p =>
          obtain ⟨c1, r1⟩ := p
          simp only [hf, Option.some.injEq, Except.ok.injEq, Prod.mk.injEq] at h
          obtain ⟨rfl, rfl⟩ := h
          obtain ⟨s', hp, hs⟩ := ih hf
          exact ⟨s', (hp.cons s).trans (List.Perm.swap s' s _), hs⟩

theorem findSeg_none {c : Chain} {rest : List (Int × Int)} (h : findSeg c rest = none) :
    ∀ s ∈ rest, extend c s = none := by
  induction rest with
  | nil => intro s hs; cases hs
  | cons s t ih =>
    simp only [findSeg] at h
    cases he : extend c s with
    | some x => cases x <;> simp [he] at h
    | none =>
      simp only [he] at h
      cases hf : findSeg c t with
      | none =>
        intro s' hs'
        rcases List.mem_cons.1 hs' with rfl | h'
        · exact he
        · exact ih hf s' h'
      | some x => cases x <;> simp [hf] at h

theorem findSeg_error {c : Chain} {rest : List (Int × Int)} {e : Err}
    (h : findSeg c rest = some (.error e)) : ∃ s ∈ rest, extend c s = some (.error e) := by
  induction rest with
  | nil => simp [findSeg] at h
  | cons s t ih =>
    simp only [findSeg] at h
    cases he : extend c s with
    | some x =>
      cases x with
      | ok c1 => simp [he] at h
      | error e' =>
        simp only [he, Option.some.injEq, Except.error.injEq] at h
        exact ⟨s, by simp, by rw [he, h]⟩
    | none =>
      simp only [he] at h
      cases hf : findSeg c t with
      | none => simp [hf] at h
      | some x =>
        cases x with
        | ok p => simp [hf] at h
        | error e' =>
          simp only [hf, Option.some.injEq, Except.error.injEq] at h
          subst h
          obtain ⟨s', hs', hx⟩ := ih hf
          exact ⟨s', by simp [hs'], hx⟩

theorem pairs_snoc (l : List Int) (a b : Int) :
    pairs (l ++ [a, b]) = pairs (l ++ [a]) ++ [(a, b)] := by
  induction l with
  | nil => simp [pairs]
  | cons x l ih =>
    cases l with
    | nil => simp [pairs]
    | cons y l => simpa [pairs] using ih

theorem undirected_swap (a b : Int) : undirected (a, b) = undirected (b, a) := by
  simp [undirected, min_comm, max_comm]

/-- What an extension does to the pairs of a chain. -/
theorem extend_pairs {c c' : Chain} {s : Int × Int} (h : extend c s = some (.ok c')) :
    ((pairs c'.toList).map undirected).Perm (undirected s :: (pairs c.toList).map undirected) := by
  obtain ⟨s1, s2⟩ := s
  have key : ∀ x : Int, pairs (c.first :: (c.mid ++ [c.last] ++ [x]))
      = pairs (c.first :: (c.mid ++ [c.last])) ++ [(c.last, x)] := by
    intro x
    have := pairs_snoc (c.first :: c.mid) c.last x
    simpa using this
  simp only [extend] at h
  split at h
  · rename_i h1
    simp only [Option.some.injEq, Except.ok.injEq] at h
    subst h
    simp only [Chain.toList, key, List.map_append, List.map_cons, List.map_nil]
    rw [h1]
    exact List.perm_append_singleton _ _
  · split at h
    · rename_i h1
      simp only [Option.some.injEq, Except.ok.injEq] at h
      subst h
      simp only [Chain.toList, key, List.map_append, List.map_cons, List.map_nil]
      rw [undirected_swap s1 s2, h1]
      exact List.perm_append_singleton _ _
    · split at h
      · simp at h
      · split at h
        · rename_i h1
          simp only [Option.some.injEq, Except.ok.injEq] at h
          subst h
          simp [Chain.toList, pairs, h1]
        · simp at h

/-- The pairs of a finished chain. -/
def Done.pairs : Done → List (Int × Int)
  | .closed b => loopPairs b
  | .opened b => Spec.pairs b

theorem grow_perm {fuel : Nat} {c : Chain} {rest rest' : List (Int × Int)} {d : Done}
    (h : grow fuel c rest = some (.ok (d, rest'))) :
    ((d.pairs ++ rest').map undirected).Perm ((pairs c.toList ++ rest).map undirected) := by
  induction fuel generalizing c rest with
  | zero => simp [grow] at h
  | succ fuel ih =>
    simp only [grow] at h
    cases hf : findSeg c rest with
    | none =>
      simp only [hf, Option.some.injEq, Except.ok.injEq, Prod.mk.injEq] at h
      obtain ⟨rfl, rfl⟩ := h
      exact List.Perm.refl _
    | some x =>
      cases x with
      | error e => simp [hf] at h
      | ok p =>
        obtain ⟨c1, r1⟩ := p
        obtain ⟨s, hp, he⟩ := findSeg_ok hf
        have h1 : ((pairs c1.toList ++ r1).map undirected).Perm
            ((pairs c.toList ++ rest).map undirected) := by
          simp only [List.map_append]
          have e1 := extend_pairs he
          have e2 : (rest.map undirected).Perm (undirected s :: r1.map undirected) := by
            simpa using hp.map undirected
          exact (e1.append_right _).trans
            ((List.perm_middle.symm).trans (e2.symm.append_left _))
        simp only [hf] at h
        split at h
        · rename_i hc
          simp only [Option.some.injEq, Except.ok.injEq, Prod.mk.injEq] at h
          obtain ⟨rfl, rfl⟩ := h
          refine List.Perm.trans ?_ h1
          simp [Done.pairs, loopPairs, Chain.toList, hc]
        · exact (ih h).trans h1

theorem grow_some {fuel : Nat} {c : Chain} {rest : List (Int × Int)} (hf : rest.length < fuel) :
    grow fuel c rest ≠ none ∧
    ∀ d rest', grow fuel c rest = some (.ok (d, rest')) → rest'.length ≤ rest.length := by
  induction fuel generalizing c rest with
  | zero => simp at hf
  | succ fuel ih =>
    simp only [grow]
    cases h : findSeg c rest with
    | none => simp
    | some x =>
      cases x with
      | error e => simp
      | ok p =>
        obtain ⟨c1, r1⟩ := p
        obtain ⟨s, hp, he⟩ := findSeg_ok h
        have hl := hp.length_eq
        simp only [List.length_cons] at hl
        simp only
        split
        · simp; omega
        · obtain ⟨i1, i2⟩ := ih (c := c1) (rest := r1) (by omega)
          refine ⟨i1, fun d r hd => ?_⟩
          have := i2 d r hd
          omega

theorem chains_some {fuel : Nat} {rest : List (Int × Int)} (hf : rest.length ≤ fuel) :
    chains fuel rest ≠ none := by
  induction fuel generalizing rest with
  | zero =>
    cases rest with
    | nil => simp [chains]
    | cons s r => simp at hf
  | succ fuel ih =>
    cases rest with
    | nil => simp [chains]
    | cons s r =>
      simp only [List.length_cons] at hf
      simp only [chains]
      obtain ⟨g1, g2⟩ := grow_some (fuel := r.length + 1)
        (c := { first := s.1, mid := [], last := s.2 }) (rest := r) (by omega)
      cases hg : grow (r.length + 1) { first := s.1, mid := [], last := s.2 } r with
      | none => exact absurd hg g1
      | some x =>
        cases x with
        | error e => simp
        | ok p =>
          obtain ⟨d, r'⟩ := p
          have := g2 d r' hg
          have hi := ih (rest := r') (by omega)
          simp only
          cases hc : chains fuel r' with
          | none => exact absurd hc hi
          | some y =>
            cases y with
            | error e => simp
            | ok q =>
              obtain ⟨cl, op⟩ := q
              cases d <;> simp

theorem chains_perm {fuel : Nat} {rest : List (Int × Int)} {cl op : List (List Int)}
    (h : chains fuel rest = some (.ok (cl, op))) :
    ((cl.flatMap loopPairs ++ op.flatMap pairs).map undirected).Perm (rest.map undirected) := by
  induction fuel generalizing rest cl op with
  | zero =>
    cases rest with
    | nil =>
      simp only [chains, Option.some.injEq, Except.ok.injEq, Prod.mk.injEq] at h
      obtain ⟨rfl, rfl⟩ := h
      simp
    | cons s r => simp [chains] at h
  | succ fuel ih =>
    cases rest with
    | nil =>
      simp only [chains, Option.some.injEq, Except.ok.injEq, Prod.mk.injEq] at h
      obtain ⟨rfl, rfl⟩ := h
      simp
    | cons s r =>
      simp only [chains] at h
      cases hg : grow (r.length + 1) { first := s.1, mid := [], last := s.2 } r with
      | none => simp [hg] at h
      | some x =>
        cases x with
        | error e => simp [hg] at h
        | ok p =>
          obtain ⟨d, r'⟩ := p
          have hp := grow_perm hg
          simp only [hg] at h
          cases hc : chains fuel r' with
          | none => simp [hc] at h
          | some y =>
            cases y with
            | error e => simp [hc] at h
            | ok q =>
              obtain ⟨cl', op'⟩ := q
              have hi := ih hc
              have hp' : ((d.pairs ++ r').map undirected).Perm ((s :: r).map undirected) := by
                simpa [Chain.toList, pairs] using hp
              refine List.Perm.trans ?_ hp'
              simp only [hc] at h
              simp only [List.map_append] at hi ⊢
              cases d with
              | closed b =>
                simp only [Option.some.injEq, Except.ok.injEq, Prod.mk.injEq] at h
                obtain ⟨rfl, rfl⟩ := h
                simp only [List.flatMap_cons, List.map_append, Done.pairs, List.append_assoc]
                exact hi.append_left _
              | opened b =>
                simp only [Option.some.injEq, Except.ok.injEq, Prod.mk.injEq] at h
                obtain ⟨rfl, rfl⟩ := h
                simp only [List.flatMap_cons, List.map_append, Done.pairs]
                refine List.Perm.trans ?_ (hi.append_left _)
                rw [← List.append_assoc, ← List.append_assoc]
                exact List.perm_append_comm.append_right _

/-- A closed chain has at least two points. -/
theorem grow_closed_length {fuel : Nat} {c : Chain} {rest rest' : List (Int × Int)} {b : List Int}
    (h : grow fuel c rest = some (.ok (.closed b, rest'))) : 2 ≤ b.length := by
  induction fuel generalizing c rest with
  | zero => simp [grow] at h
  | succ fuel ih =>
    simp only [grow] at h
    cases hf : findSeg c rest with
    | none => simp [hf] at h
    | some x =>
      cases x with
      | error e => simp [hf] at h
      | ok p =>
        obtain ⟨c1, r1⟩ := p
        obtain ⟨s, hp, he⟩ := findSeg_ok hf
        simp only [hf] at h
        split at h
        · simp only [Option.some.injEq, Except.ok.injEq, Prod.mk.injEq, Done.closed.injEq] at h
          obtain ⟨rfl, rfl⟩ := h
          have : c1.mid ≠ [] := by
            simp only [extend] at he
            split at he
            · simp only [Option.some.injEq, Except.ok.injEq] at he; subst he; simp
            · split at he
              · simp only [Option.some.injEq, Except.ok.injEq] at he; subst he; simp
              · split at he
                · simp at he
                · split at he
                  · simp only [Option.some.injEq, Except.ok.injEq] at he; subst he; simp
                  · simp at he
          have := List.length_pos_iff.2 this
          simp only [List.length_cons]; omega
        · exact ih h

theorem chains_closed_length {fuel : Nat} {rest : List (Int × Int)} {cl op : List (List Int)}
    (h : chains fuel rest = some (.ok (cl, op))) : ∀ b ∈ cl, 2 ≤ b.length := by
  induction fuel generalizing rest cl op with
  | zero =>
    cases rest with
    | nil =>
      simp only [chains, Option.some.injEq, Except.ok.injEq, Prod.mk.injEq] at h
      obtain ⟨rfl, rfl⟩ := h
      simp
    | cons s r => simp [chains] at h
  | succ fuel ih =>
    cases rest with
    | nil =>
      simp only [chains, Option.some.injEq, Except.ok.injEq, Prod.mk.injEq] at h
      obtain ⟨rfl, rfl⟩ := h
      simp
    | cons s r =>
      simp only [chains] at h
      cases hg : grow (r.length + 1) { first := s.1, mid := [], last := s.2 } r with
      | none => simp [hg] at h
      | some x =>
        cases x with
        | error e => simp [hg] at h
        | ok p =>
          obtain ⟨d, r'⟩ := p
          simp only [hg] at h
          cases hc : chains fuel r' with
          | none => simp [hc] at h
          | some y =>
            cases y with
            | error e => simp [hc] at h
            | ok q =>
              obtain ⟨cl', op'⟩ := q
              have hi := ih hc
              simp only [hc] at h
              cases d with
              | closed b =>
                simp only [Option.some.injEq, Except.ok.injEq, Prod.mk.injEq] at h
                obtain ⟨rfl, rfl⟩ := h
                intro b' hb'
                rcases List.mem_cons.1 hb' with rfl | h'
                · exact grow_closed_length hg
                · exact hi b' h'
              | opened b =>
                simp only [Option.some.injEq, Except.ok.injEq, Prod.mk.injEq] at h
                obtain ⟨rfl, rfl⟩ := h
                exact hi

/-! ## Oriented boundaries -/

/-- The state of the inner loop on an oriented boundary: the chain counts as one segment from its
first to its last point. -/
structure Inv (c : Chain) (rest : List (Int × Int)) : Prop where
  ne : c.first ≠ c.last
  nodup : (c.first :: rest.map Prod.fst).Nodup
  bal : (c.first :: rest.map Prod.fst).Perm (c.last :: rest.map Prod.snd)

theorem Inv.nodup' {c : Chain} {rest : List (Int × Int)} (h : Inv c rest) :
    (c.last :: rest.map Prod.snd).Nodup := h.bal.nodup_iff.1 h.nodup

theorem Inv.last_mem {c : Chain} {rest : List (Int × Int)} (h : Inv c rest) :
    c.last ∈ rest.map Prod.fst := by
  have : c.last ∈ c.first :: rest.map Prod.fst := h.bal.mem_iff.2 (by simp)
  rcases List.mem_cons.1 this with h1 | h1
  · exact absurd h1.symm h.ne
  · exact h1

theorem Inv.step {c c' : Chain} {rest r : List (Int × Int)} {s : Int × Int} (h : Inv c rest)
    (hp : rest.Perm (s :: r)) (he : extend c s = some (.ok c')) :
    ((c'.first = c'.last ∧ (r.map Prod.fst).Nodup ∧ (r.map Prod.fst).Perm (r.map Prod.snd)) ∨
      Inv c' r) ∧ (pairs c'.toList ++ r).Perm (pairs c.toList ++ rest) := by
  obtain ⟨s1, s2⟩ := s
  have hf : (rest.map Prod.fst).Perm (s1 :: r.map Prod.fst) := by simpa using hp.map Prod.fst
  have hs : (rest.map Prod.snd).Perm (s2 :: r.map Prod.snd) := by simpa using hp.map Prod.snd
  have hn : (c.first :: s1 :: r.map Prod.fst).Nodup := (hf.cons c.first).nodup_iff.1 h.nodup
  have hn' : (c.last :: s2 :: r.map Prod.snd).Nodup := (hs.cons c.last).nodup_iff.1 h.nodup'
  have hb : (c.first :: s1 :: r.map Prod.fst).Perm (c.last :: s2 :: r.map Prod.snd) :=
    (hf.cons c.first).symm.trans (h.bal.trans (hs.cons c.last))
  simp only [extend] at he
  split at he
  · rename_i h1
    simp only [Option.some.injEq, Except.ok.injEq] at he
    subst he
    subst h1
    have hb' : (c.first :: r.map Prod.fst).Perm (s2 :: r.map Prod.snd) :=
      ((List.Perm.swap _ _ _).trans hb).cons_inv
    have hnd : (c.first :: r.map Prod.fst).Nodup := by
      simp only [List.nodup_cons, List.mem_cons, not_or] at hn ⊢
      exact ⟨hn.1.2, hn.2.2⟩
    constructor
    · by_cases hc : c.first = s2
      · left
        refine ⟨hc, (List.nodup_cons.1 hnd).2, ?_⟩
        rw [hc] at hb'
        exact hb'.cons_inv
      · right
        exact ⟨hc, hnd, hb'⟩
    · have key : pairs (c.first :: (c.mid ++ [c.last] ++ [s2]))
          = pairs (c.first :: (c.mid ++ [c.last])) ++ [(c.last, s2)] := by
        have := pairs_snoc (c.first :: c.mid) c.last s2
        simpa using this
      simp only [Chain.toList, key]
      rw [List.append_assoc]
      exact (hp.symm.append_left _)
  · split at he
    · rename_i h1
      exact absurd h1.symm (by simp only [List.nodup_cons, List.mem_cons, not_or] at hn'; exact hn'.1.1)
    · split at he
      · simp at he
      · split at he
        · rename_i h1
          simp only [Option.some.injEq, Except.ok.injEq] at he
          subst he
          subst h1
          have hb' : (s1 :: r.map Prod.fst).Perm (c.last :: r.map Prod.snd) :=
            (hb.trans (List.Perm.swap _ _ _)).cons_inv
          have hnd : (s1 :: r.map Prod.fst).Nodup := (List.nodup_cons.1 hn).2
          constructor
          · by_cases hc : s1 = c.last
            · left
              refine ⟨hc, (List.nodup_cons.1 hnd).2, ?_⟩
              rw [hc] at hb'
              exact hb'.cons_inv
            · right
              exact ⟨hc, hnd, hb'⟩
          · simp only [Chain.toList, List.cons_append, pairs]
            exact (List.perm_middle.symm).trans (hp.symm.append_left _)
        · simp at he

theorem grow_oriented {fuel : Nat} {c : Chain} {rest : List (Int × Int)} (hf : rest.length < fuel)
    (h : Inv c rest) :
    ∃ b rest', grow fuel c rest = some (.ok (.closed b, rest')) ∧
      (rest'.map Prod.fst).Nodup ∧ (rest'.map Prod.fst).Perm (rest'.map Prod.snd) ∧
      (∀ s ∈ rest', s ∈ rest) ∧
      (loopPairs b ++ rest').Perm (pairs c.toList ++ rest) := by
  induction fuel generalizing c rest with
  | zero => simp at hf
  | succ fuel ih =>
    simp only [grow]
    cases hs : findSeg c rest with
    | none =>
      exfalso
      obtain ⟨s, hs', h1⟩ := List.mem_map.1 h.last_mem
      have := findSeg_none hs s hs'
      simp [extend, h1] at this
    | some x =>
      cases x with
      | error e =>
        exfalso
        obtain ⟨s, hs', h1⟩ := findSeg_error hs
        simp only [extend] at h1
        split at h1
        · simp at h1
        · split at h1
          · simp at h1
          · split at h1
            · rename_i h2
              have : c.first ∈ rest.map Prod.fst := List.mem_map.2 ⟨s, hs', h2⟩
              exact (List.nodup_cons.1 h.nodup).1 this
            · split at h1 <;> simp at h1
      | ok p =>
        obtain ⟨c1, r1⟩ := p
        obtain ⟨s, hp, he⟩ := findSeg_ok hs
        obtain ⟨hst, hpp⟩ := h.step hp he
        have hmem : ∀ x ∈ r1, x ∈ rest := fun x hx => hp.mem_iff.2 (by simp [hx])
        have hl := hp.length_eq
        simp only [List.length_cons] at hl
        simp only
        rcases hst with ⟨hc, h1, h2⟩ | hinv
        · rw [if_pos hc]
          refine ⟨_, _, rfl, h1, h2, hmem, ?_⟩
          refine List.Perm.trans ?_ hpp
          simp [loopPairs, Chain.toList, hc]
        · rw [if_neg hinv.ne]
          obtain ⟨b, r', g1, g2, g3, g4, g5⟩ := ih (by omega) hinv
          exact ⟨b, r', g1, g2, g3, fun x hx => hmem x (g4 x hx), g5.trans hpp⟩

theorem chains_oriented {fuel : Nat} {rest : List (Int × Int)} (hf : rest.length ≤ fuel)
    (h : Oriented rest) :
    ∃ cl, chains fuel rest = some (.ok (cl, [])) ∧ (cl.flatMap loopPairs).Perm rest := by
  induction fuel generalizing rest with
  | zero =>
    cases rest with
    | nil => exact ⟨[], by simp [chains]⟩
    | cons s r => simp at hf
  | succ fuel ih =>
    cases rest with
    | nil => exact ⟨[], by simp [chains]⟩
    | cons s r =>
      simp only [List.length_cons] at hf
      have hinv : Inv { first := s.1, mid := [], last := s.2 } r :=
        ⟨h.proper s (by simp), by simpa using h.starts, by simpa using h.balanced⟩
      obtain ⟨b, r', g1, g2, g3, g4, g5⟩ := grow_oriented (fuel := r.length + 1) (by omega) hinv
      have hl := (grow_some (fuel := r.length + 1)
        (c := { first := s.1, mid := [], last := s.2 }) (rest := r) (by omega)).2 _ _ g1
      obtain ⟨cl, i1, i2⟩ := ih (rest := r') (by omega)
        ⟨fun x hx => h.proper x (by simp [g4 x hx]), g2, g3⟩
      refine ⟨b :: cl, by simp only [chains, g1, i1], ?_⟩
      simp only [List.flatMap_cons]
      refine (i2.append_left _).trans (g5.trans ?_)
      simp [Chain.toList, pairs]

theorem oriented_perm {a b : List (Int × Int)} (h : Oriented a) (p : a.Perm b) : Oriented b :=
  ⟨fun s hs => h.proper s (p.mem_iff.2 hs), (p.map _).nodup_iff.1 h.starts,
    ((p.map _).symm.trans h.balanced).trans (p.map _)⟩

theorem pairs_fst (l : List Int) (x : Int) : (pairs (l ++ [x])).map Prod.fst = l := by
  induction l with
  | nil => simp [pairs]
  | cons a l ih =>
    cases l with
    | nil => simp [pairs]
    | cons b l => simpa [pairs] using ih

theorem loopPairs_fst (b : List Int) : (loopPairs b).map Prod.fst = b := by
  cases b with
  | nil => rfl
  | cons a t =>
    have := pairs_fst (a :: t) a
    simpa [loopPairs] using this

theorem flatMap_loopPairs_fst (bs : List (List Int)) :
    (bs.flatMap loopPairs).map Prod.fst = bs.flatten := by
  induction bs with
  | nil => rfl
  | cons b bs ih => simp [ih, loopPairs_fst]

end Verif.Verdat
