import Verif.Model.TimeHeap
import Verif.Lemmas.Time

/-! Separation invariant of the `Time` heap model. -/

set_option autoImplicit false

namespace Verif.TimeM

variable {H : Type} (td : H → Int)

/-- Each object has its own array, and no object uses a user array. -/
structure Separate (w : World H) : Prop where
  bound : ∀ (k : Nat) (o : ObjRef H), w.objs[k]? = some o → o.ref < w.arrays.length
  ubound : ∀ r ∈ w.user, r < w.arrays.length
  inj : ∀ (i j : Nat) (a b : ObjRef H), w.objs[i]? = some a → w.objs[j]? = some b → a.ref = b.ref → i = j
  sep : ∀ (k : Nat) (o : ObjRef H), w.objs[k]? = some o → o.ref ∉ w.user

theorem getElem?_append_one {α : Type} (l : List α) (x y : α) (i : Nat)
    (h : (l ++ [x])[i]? = some y) : l[i]? = some y ∨ (i = l.length ∧ y = x) := by
  rw [List.getElem?_append] at h
  split at h
  · exact Or.inl h
  · rename_i hi
    right
    rcases Nat.lt_or_ge 0 (i - l.length) with h1 | h1
    · rw [List.getElem?_eq_none (by simp; omega)] at h; cases h
    · have : i - l.length = 0 := by omega
      rw [this] at h
      simp at h
      exact ⟨by omega, h.symm⟩

theorem set_ref {w : World H} {k : Nat} {ob : ObjRef H} (hk : w.objs[k]? = some ob)
    (new : ObjRef H) (hn : new.ref = ob.ref) (i : Nat) (a : ObjRef H)
    (h : (w.objs.set k new)[i]? = some a) : ∃ b, w.objs[i]? = some b ∧ b.ref = a.ref := by
  rw [List.getElem?_set] at h
  split at h
  · rename_i hki
    subst hki
    split at h
    · cases h; exact ⟨ob, hk, hn.symm⟩
    · cases h
  · exact ⟨a, h, rfl⟩

theorem separate_update {w : World H} (hw : Separate w) {k : Nat} {ob : ObjRef H}
    (hk : w.objs[k]? = some ob) (d : List Int) (new : ObjRef H) (hn : new.ref = ob.ref) :
    Separate { w with arrays := w.arrays.set ob.ref d, objs := w.objs.set k new } := by
  refine ⟨?_, ?_, ?_, ?_⟩
  · intro i a h
    obtain ⟨b, hb, e⟩ := set_ref hk new hn i a h
    simp only [List.length_set]
    exact e ▸ hw.bound i b hb
  · intro r hr
    simp only [List.length_set]
    exact hw.ubound r hr
  · intro i j a b hi hj he
    obtain ⟨a', ha, e1⟩ := set_ref hk new hn i a hi
    obtain ⟨b', hb, e2⟩ := set_ref hk new hn j b hj
    exact hw.inj i j a' b' ha hb (by omega)
  · intro i a h
    obtain ⟨b, hb, e⟩ := set_ref hk new hn i a h
    exact e ▸ hw.sep i b hb

theorem separate_init {w : World H} (hw : Separate w) (xs : List Int) (a : Args H) :
    Separate (initAt td { w with arrays := w.arrays ++ [xs] } w.arrays.length a) := by
  unfold initAt
  simp only [List.getElem?_concat_length]
  split
  · rename_i d tz dp _
    refine ⟨?_, ?_, ?_, ?_⟩
    · intro k o h
      rcases getElem?_append_one _ _ _ _ h with h | ⟨_, rfl⟩
      · have := hw.bound k o h
        simp; omega
      · simp
    · intro r hr
      have := hw.ubound r hr
      simp; omega
    · intro i j x y hi hj he
      rcases getElem?_append_one _ _ _ _ hi with hi | ⟨hi, rfl⟩ <;>
        rcases getElem?_append_one _ _ _ _ hj with hj | ⟨hj, rfl⟩
      · exact hw.inj i j x y hi hj he
      · have := hw.bound i x hi
        simp only at he
        omega
      · have := hw.bound j y hj
        simp only at he
        omega
      · omega
    · intro k o h hm
      rcases getElem?_append_one _ _ _ _ h with h | ⟨_, rfl⟩
      · exact hw.sep k o h hm
      · have := hw.ubound _ hm
        simp only at this
        omega
  · rename_i d e _
    refine ⟨?_, ?_, hw.inj, hw.sep⟩
    · intro k o h
      have := hw.bound k o h
      simp; omega
    · intro r hr
      have := hw.ubound r hr
      simp; omega

theorem separate_exec {w : World H} (hw : Separate w) (c : Cmd H)
    (hc : c.listOnly = true) : Separate (exec td w c) := by
  cases c with
  | mkArray xs =>
    refine ⟨?_, ?_, hw.inj, ?_⟩
    · intro k o h
      have := hw.bound k o h
      simp only [exec, List.length_append, List.length_cons, List.length_nil]; omega
    · intro r hr
      simp only [exec, List.mem_append, List.mem_singleton] at hr
      simp only [exec, List.length_append, List.length_cons, List.length_nil]
      rcases hr with hr | rfl
      · have := hw.ubound r hr; omega
      · omega
    · intro k o h hm
      simp only [exec, List.mem_append, List.mem_singleton] at hm
      rcases hm with hm | hm
      · exact hw.sep k o h hm
      · have := hw.bound k o h; omega
  | timeFromList xs a => exact separate_init td hw xs a
  | timeFromArray r a => simp [Cmd.listOnly] at hc
  | timeFromTime k a => simp [Cmd.listOnly] at hc
  | setTz k o =>
    simp only [exec]
    split
    · exact hw
    · split
      · exact hw
      · rename_i ob hk _ _ _
        exact separate_update hw hk _ _ rfl
  | setDisp k d =>
    simp only [exec]
    split
    · exact hw
    · split
      · exact hw
      · split
        · exact hw
        · rename_i ob hk _ _ _ _ _ _
          exact separate_update hw hk _ _ rfl

theorem separate_all (p : List (Cmd H)) (w : World H) (hw : Separate w)
    (hp : ∀ x ∈ p, x.listOnly = true) : Separate (execAll td w p) := by
  induction p generalizing w with
  | nil => exact hw
  | cons c p ih =>
    exact ih _ (separate_exec td hw c (hp c (by simp))) (fun x hx => hp x (by simp [hx]))

theorem frame_update {w : World H} (hw : Separate w) {k : Nat} {ob : ObjRef H}
    (hk : w.objs[k]? = some ob) (d : List Int) (new : ObjRef H) (i : Nat) (hi : k ≠ i)
    (x : List Int) (h : w.dataOf i = some x) :
    World.dataOf { w with arrays := w.arrays.set ob.ref d, objs := w.objs.set k new } i = some x := by
  simp only [World.dataOf, List.getElem?_set, if_neg hi] at h ⊢
  cases ho : w.objs[i]? with
  | none => simp [ho] at h
  | some o =>
    simp only [ho] at h ⊢
    have : ob.ref ≠ o.ref := fun he => hi (hw.inj k i ob o hk ho he)
    rw [if_neg this]
    exact h

end Verif.TimeM
