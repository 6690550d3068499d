import Verif.Model.Cache
import Mathlib.Tactic.Common
import Mathlib.Data.List.Induction

set_option autoImplicit false

namespace Verif.Cache

section dict
variable {κ ν : Type*} [DecidableEq κ]

theorem assign_length (d : List (κ × ν)) (k : κ) (v : ν) :
    (assign d k v).length ≤ d.length + 1 ∧ d.length ≤ (assign d k v).length := by
  induction d with
  | nil => simp [assign]
  | cons p t ih =>
    obtain ⟨k', v'⟩ := p
    simp only [assign]
    split
    · simp
    · simp only [List.length_cons]; omega

theorem storePopFirst_length (cap : Nat) (d : List (κ × ν)) (k : κ) (v : ν)
    (h : d.length ≤ cap + 1) : (storePopFirst cap d k v).length ≤ cap + 1 := by
  unfold storePopFirst
  split
  · have := (assign_length d.tail k v).1
    rw [List.length_tail] at this
    omega
  · have := (assign_length d k v).1
    omega

theorem storePopAfter_length (cap : Nat) (d : List (κ × ν)) (k : κ) (v : ν)
    (h : d.length ≤ cap) : (storePopAfter cap d k v).length ≤ cap := by
  unfold storePopAfter
  have := (assign_length d k v).1
  simp only
  split
  · rw [List.length_tail]; omega
  · omega

/-- Everything in the new dictionary was there before or is the new item. -/
theorem mem_assign (d : List (κ × ν)) (k : κ) (v : ν) (p : κ × ν) (h : p ∈ assign d k v) :
    p ∈ d ∨ p = (k, v) := by
  induction d with
  | nil => simpa [assign] using h
  | cons q t ih =>
    obtain ⟨k', v'⟩ := q
    simp only [assign] at h
    split at h
    · rename_i hk
      subst hk
      rcases List.mem_cons.mp h with rfl | h
      · exact Or.inr rfl
      · exact Or.inl (List.mem_cons_of_mem _ h)
    · rcases List.mem_cons.mp h with rfl | h
      · exact Or.inl (List.mem_cons_self ..)
      · rcases ih h with h | h
        · exact Or.inl (List.mem_cons_of_mem _ h)
        · exact Or.inr h

theorem mem_store (w : Which) (d : List (κ × ν)) (k : κ) (v : ν) (p : κ × ν)
    (h : p ∈ store w d k v) : p ∈ d ∨ p = (k, v) := by
  have hF : ∀ cap, p ∈ storePopFirst cap d k v → p ∈ d ∨ p = (k, v) := by
    intro cap h
    unfold storePopFirst at h
    rcases mem_assign _ _ _ _ h with h | h
    · left
      split at h
      · exact List.mem_of_mem_tail h
      · exact h
    · exact Or.inr h
  have hA : ∀ cap, p ∈ storePopAfter cap d k v → p ∈ d ∨ p = (k, v) := by
    intro cap h
    unfold storePopAfter at h
    simp only at h
    split at h
    · exact mem_assign _ _ _ _ (List.mem_of_mem_tail h)
    · exact mem_assign _ _ _ _ h
  cases w
  · exact hF _ h
  · exact hF _ h
  · exact hA _ h
  · exact hF _ h
  · exact hA _ h

theorem lookup_mem {d : List (κ × ν)} {k : κ} {v : ν} (h : lookup d k = some v) : (k, v) ∈ d := by
  induction d with
  | nil => simp [lookup] at h
  | cons p t ih =>
    obtain ⟨k', v'⟩ := p
    simp only [lookup] at h
    split at h
    · rename_i hk
      cases h
      rw [hk]
      exact List.mem_cons_self ..
    · exact List.mem_cons_of_mem _ (ih h)

theorem lookup_assign_self (d : List (κ × ν)) (k : κ) (v : ν) : lookup (assign d k v) k = some v := by
  induction d with
  | nil => simp [assign, lookup]
  | cons p t ih =>
    obtain ⟨k', v'⟩ := p
    simp only [assign]
    split
    · rename_i hk; simp [lookup, hk]
    · rename_i hk; simp [lookup, hk, ih]

end dict

end Verif.Cache

namespace Verif.Cache

section runs
variable {κ Q δ ν : Type} [DecidableEq κ] (w : Which) (key : Q → κ) (eval : δ → Q → Except Err ν)

theorem foldl_inv {σ ο : Type*} (f : σ → ο → σ) (I : σ → Prop) (hf : ∀ s o, I s → I (f s o))
    (h : List ο) (s : σ) (hs : I s) : I (h.foldl f s) := by
  induction h generalizing s with
  | nil => exact hs
  | cons o h ih => exact ih _ (hf _ _ hs)

theorem query_memo (o : Obj κ δ ν) (q : Q) (mem : Bool) :
    (query w key eval o q mem).1.memo = o.memo ∨
      (mem = true ∧ ∃ v, eval o.data q = .ok v ∧
        (query w key eval o q mem).1.memo = store w o.memo (key q) v) := by
  unfold query
  split
  · exact Or.inl rfl
  · split
    · exact Or.inl rfl
    · rename_i v hv
      cases mem
      · exact Or.inl rfl
      · exact Or.inr ⟨rfl, v, hv, rfl⟩

theorem query_data (o : Obj κ δ ν) (q : Q) (mem : Bool) :
    (query w key eval o q mem).1.data = o.data := by
  unfold query
  split
  · rfl
  · split
    · rfl
    · cases mem <;> rfl

end runs

end Verif.Cache
