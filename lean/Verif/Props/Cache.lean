import Verif.Lemmas.Cache
import Verif.Spec.Cache
import Verif.Model.TimeInterp
import Mathlib.Algebra.Order.Ring.Rat
import Mathlib.Algebra.Field.Rat

/-!
# C19-C22: result caches
-/

set_option autoImplicit false

namespace Verif
open Cache

/-! ## C20: bounds -/

section C20
variable {κ Q δ ν : Type} [DecidableEq κ]

/-- Whatever is asked and assigned, no cache holds more results than its limit. -/
theorem C20_cache_bounded (w : Which) (key : Q → κ) (eval : δ → Q → Except Err ν) (d : δ)
    (h : List (Op Q δ)) : (run w key eval d h).memo.length ≤ limit w := by
  refine foldl_inv _ (fun o : Obj κ δ ν => o.memo.length ≤ limit w) ?_ h _ (Nat.zero_le _)
  intro o op ho
  cases op with
  | setData d => exact ho
  | ask q mem =>
    show (query w key eval o q mem).1.memo.length ≤ limit w
    rcases query_memo w key eval o q mem with h | ⟨_, v, _, h⟩
    · rw [h]; exact ho
    · rw [h]
      cases w
      · exact storePopFirst_length 4 _ _ _ ho
      · exact storePopFirst_length 8 _ _ _ ho
      · exact storePopAfter_length 6 _ _ _ ho
      · exact storePopFirst_length 6 _ _ _ ho
      · exact storePopAfter_length 3 _ _ _ ho

/-- The result just computed is in the cache when it has been stored, so the line after the
eviction in `UGrid._add_memo` (`gridded/pyugrid/ugrid.py:577`) finds its key. -/
theorem C20_new_result_kept (w : Which) (key : Q → κ) (eval : δ → Q → Except Err ν) (d : δ)
    (h : List (Op Q δ)) (q : Q) (v : ν)
    (hq : lookup (run w key eval d h).memo (key q) = none)
    (hv : eval (dataAfter d h) q = .ok v) :
    lookup (run w key eval d (h ++ [.ask q true])).memo (key q) = some v := by
  have hb := C20_cache_bounded w key eval d h
  have hd : (run w key eval d h).data = dataAfter d h := by
    have : ∀ (h : List (Op Q δ)) (o : Obj κ δ ν),
        (h.foldl (step w key eval) o).data = dataAfter o.data h := by
      intro h
      induction h with
      | nil => intro o; rfl
      | cons op h ih =>
        intro o
        rw [List.foldl_cons, ih]
        cases op with
        | setData d => rfl
        | ask q mem => simp only [step, query_data, dataAfter]
    exact this h _
  have e : run w key eval d (h ++ [.ask q true])
      = (query w key eval (run w key eval d h) q true).1 := by
    simp [run, List.foldl_append, step]
  rw [e]
  generalize hR : run w key eval d h = R at *
  have hm : (query w key eval R q true).1.memo = store w R.memo (key q) v := by
    simp [query, hq, hd, hv]
  rw [hm]
  -- an absent key goes to the end and the entry dropped is another one
  have key_end : ∀ (m : List (κ × ν)), lookup m (key q) = none →
      assign m (key q) v = m ++ [(key q, v)] := by
    intro m
    induction m with
    | nil => intro _; rfl
    | cons p t ih =>
      obtain ⟨k', v'⟩ := p
      intro hl
      simp only [lookup] at hl
      split at hl
      · cases hl
      · rename_i hk
        simp only [assign, hk, if_false, ih hl, List.cons_append]
  have htail : ∀ (m : List (κ × ν)), lookup m (key q) = none → lookup m.tail (key q) = none := by
    intro m hl
    cases m with
    | nil => rfl
    | cons p t =>
      obtain ⟨k', v'⟩ := p
      simp only [lookup] at hl
      split at hl
      · cases hl
      · exact hl
  have hafter : ∀ cap, R.memo.length ≤ cap → 0 < cap →
      lookup (storePopAfter cap R.memo (key q) v) (key q) = some v := by
    intro cap hc h0
    unfold storePopAfter
    simp only [key_end _ hq]
    split
    · rename_i hlt
      cases hm : R.memo with
      | nil => rw [hm] at hlt; simp at hlt; omega
      | cons p t =>
        have ht := htail _ hq
        rw [hm] at ht
        rw [show ((p :: t) ++ [(key q, v)]).tail = t ++ [(key q, v)] from rfl,
          ← key_end t (by simpa using ht)]
        exact lookup_assign_self _ _ _
    · rw [← key_end _ hq]; exact lookup_assign_self _ _ _
  cases w
  · exact lookup_assign_self _ _ _
  · exact lookup_assign_self _ _ _
  · exact hafter 6 hb (by omega)
  · exact lookup_assign_self _ _ _
  · exact hafter 3 hb (by omega)

/-- Each limit is reached. -/
theorem C20_limits_reached (w : Which) :
    (run (κ := Nat) (ν := Nat) w (fun q => q) (fun (_ : Unit) (q : Nat) => .ok q) ()
      ((List.range 20).map (fun q => Op.ask q true))).memo.length = limit w := by
  cases w <;> decide +kernel

end C20

/-! ## C19: `Variable.at` -/

section C19

/-- A query of a variable: points, time, options. -/
structure AtQuery (P T O : Type) where
  pts : P
  time : T
  opts : O
  deriving DecidableEq, Repr

/-- The full claim: whatever happened before, a query returns the fresh evaluation of the current
data. -/
def C19_statement : Prop :=
  ∀ (P T O δ ν : Type) (_ : DecidableEq P) (_ : DecidableEq T)
    (eval : δ → AtQuery P T O → Except Err ν) (d : δ) (h : List (Op (AtQuery P T O) δ))
    (q : AtQuery P T O) (mem : Bool),
    (query .variable (fun q => (q.pts, q.time)) eval
      (run .variable (fun q => (q.pts, q.time)) eval d h) q mem).2 = eval (dataAfter d h) q

/-- Interpolation in time of a variable at one point, with the `extrapolate` option: the model of
`gridded/variable.py:658-694` used as the evaluation behind the cache. -/
def timeEval (vals : List ℚ) (q : AtQuery Unit Int Bool) : Except Err ℚ :=
  TimeInterp.atTime [0, 10] vals q.time q.opts

def timeKey (q : AtQuery Unit Int Bool) : Unit × Int := (q.pts, q.time)

/-- Asking with extrapolation first makes a later query without extrapolation return a value
instead of raising. -/
theorem C19_options_ignored :
    (query .variable timeKey timeEval
      (run .variable timeKey timeEval [1, 3] [.ask ⟨(), 20, true⟩ true]) ⟨(), 20, false⟩ true).2
      = .ok 3 ∧
    timeEval [1, 3] ⟨(), 20, false⟩ = .error .outOfTimeRange := by
  constructor <;> decide +kernel

/-- Values computed from the previous data are returned after new data have been assigned. -/
theorem C19_data_change_ignored :
    (query .variable timeKey timeEval
      (run .variable timeKey timeEval [1, 3] [.ask ⟨(), 5, false⟩ true, .setData [10, 30]])
      ⟨(), 5, false⟩ true).2 = .ok 2 ∧
    timeEval [10, 30] ⟨(), 5, false⟩ = .ok 20 := by
  constructor <;> decide +kernel

/-- Points as an array: number of columns and elements in order. -/
structure PtArray where
  cols : Nat
  flat : List Int
  deriving DecidableEq, Repr

/-- The key is made of the bytes of the points only (`gridded/variable.py:430`), so three
two-dimensional points and two three-dimensional ones with the same numbers share it: the second
query gets a result with the wrong number of rows. -/
theorem C19_shape_ignored :
    (query (κ := List Int) .variable (fun q : PtArray => q.flat)
      (fun (_ : Unit) (q : PtArray) => (.ok (q.flat.length / q.cols) : Except Err Nat))
      (run .variable (fun q : PtArray => q.flat)
        (fun (_ : Unit) (q : PtArray) => (.ok (q.flat.length / q.cols) : Except Err Nat)) ()
        [.ask ⟨2, [1, 2, 3, 4, 5, 6]⟩ true]) ⟨3, [1, 2, 3, 4, 5, 6]⟩ true).2 = .ok 3 := by
  decide +kernel

theorem C19_refuted : ¬ C19_statement := by
  intro h
  have h1 := h Unit Int Bool (List ℚ) ℚ inferInstance inferInstance timeEval [1, 3]
    [.ask ⟨(), 20, true⟩ true] ⟨(), 20, false⟩ true
  have h2 := C19_options_ignored
  have h3 : (Except.ok 3 : Except Err ℚ) = .error .outOfTimeRange :=
    h2.1.symm.trans (h1.trans h2.2)
  cases h3

variable {κ Q δ ν : Type} [DecidableEq κ]

/-- Where any returned value comes from: it is the fresh value, or the value some earlier query
with the same key had on the data of that moment. -/
theorem C19_provenance_partial (w : Which) (key : Q → κ) (eval : δ → Q → Except Err ν) (d : δ)
    (h : List (Op Q δ)) (q : Q) (mem : Bool) :
    (query w key eval (run w key eval d h) q mem).2 = eval (dataAfter d h) q ∨
    ∃ (h₁ h₂ : List (Op Q δ)) (q' : Q), h = h₁ ++ .ask q' true :: h₂ ∧ key q' = key q ∧ mem = true ∧
      (query w key eval (run w key eval d h) q mem).2 = eval (dataAfter d h₁) q' := by
  have hinv : ∀ (h : List (Op Q δ)),
      (run w key eval d h).data = dataAfter d h ∧
      ∀ p ∈ (run w key eval d h).memo, ∃ (h₁ h₂ : List (Op Q δ)) (q' : Q),
        h = h₁ ++ .ask q' true :: h₂ ∧ key q' = p.1 ∧ eval (dataAfter d h₁) q' = .ok p.2 := by
    intro h
    induction h using List.reverseRecOn with
    | nil => exact ⟨rfl, fun p hp => absurd hp (by simp [run])⟩
    | append_singleton h op ih =>
      obtain ⟨ih1, ih2⟩ := ih
      have e : run w key eval d (h ++ [op]) = step w key eval (run w key eval d h) op := by
        simp [run, List.foldl_append]
      have dA : ∀ (h : List (Op Q δ)) (d : δ), dataAfter d (h ++ [op]) =
          match op with | .setData d' => d' | .ask _ _ => dataAfter d h := by
        intro h
        induction h with
        | nil => intro d; cases op <;> rfl
        | cons o h ih => intro d; cases o <;> exact ih _
      refine ⟨?_, ?_⟩
      · rw [e, dA]
        cases op with
        | setData d' => rfl
        | ask q mem => simp only [step, query_data]; exact ih1
      · intro p hp
        rw [e] at hp
        have old : p ∈ (run w key eval d h).memo → ∃ (h₁ h₂ : List (Op Q δ)) (q' : Q),
            h ++ [op] = h₁ ++ .ask q' true :: h₂ ∧ key q' = p.1 ∧
              eval (dataAfter d h₁) q' = .ok p.2 := by
          intro hp
          obtain ⟨h₁, h₂, q', a, b, c⟩ := ih2 p hp
          exact ⟨h₁, h₂ ++ [op], q', by rw [a]; simp, b, c⟩
        cases op with
        | setData d' => exact old hp
        | ask q mem =>
          simp only [step] at hp
          rcases query_memo w key eval (run w key eval d h) q mem with hm | ⟨rfl, v, hv, hm⟩
          · rw [hm] at hp; exact old hp
          · rw [hm] at hp
            rcases mem_store _ _ _ _ _ hp with hp | rfl
            · exact old hp
            · exact ⟨h, [], q, rfl, rfl, by rw [← ih1]; exact hv⟩
  obtain ⟨i1, i2⟩ := hinv h
  unfold query
  cases mem with
  | false =>
    left
    simp only [Bool.false_eq_true, if_false, i1]
    cases eval (dataAfter d h) q <;> rfl
  | true =>
    simp only [if_true]
    cases hl : lookup (run w key eval d h).memo (key q) with
    | none =>
      left
      simp only [i1]
      cases eval (dataAfter d h) q <;> rfl
    | some v =>
      right
      obtain ⟨h₁, h₂, q', a, b, c⟩ := i2 _ (lookup_mem hl)
      exact ⟨h₁, h₂, q', a, b, trivial, c.symm⟩

/-- A query of points and time that were not asked through the cache before is fresh, and so is
every query with the cache switched off, after any history of queries and data assignments. -/
theorem C19_first_query_fresh_partial (P T O : Type) (key : P × T → κ)
    (hk : Function.Injective key) (eval : δ → AtQuery P T O → Except Err ν) (d : δ)
    (h : List (Op (AtQuery P T O) δ)) (q : AtQuery P T O) (mem : Bool)
    (hq : mem = false ∨ ∀ q' ∈ asked h, q'.pts ≠ q.pts ∨ q'.time ≠ q.time) :
    (query .variable (fun q => key (q.pts, q.time)) eval
      (run .variable (fun q => key (q.pts, q.time)) eval d h) q mem).2 = eval (dataAfter d h) q := by
  rcases C19_provenance_partial .variable (fun q : AtQuery P T O => key (q.pts, q.time)) eval d h q
    mem with h1 | ⟨h₁, h₂, q', a, b, c, -⟩
  · exact h1
  · exfalso
    have hin : q' ∈ asked h := by
      rw [a]
      clear a hq
      induction h₁ with
      | nil => simp [asked]
      | cons o h₁ ih =>
        cases o with
        | setData _ => simpa [asked] using ih
        | ask q0 m => cases m <;> simp [asked, ih]
    rcases hq with rfl | hq
    · cases c
    · have := hk b
      simp only [Prod.mk.injEq] at this
      rcases hq q' hin with h | h
      · exact h this.1
      · exact h this.2

/-- The full claim for histories that use one set of options and never assign data. -/
theorem C19_transparent_partial (P T O : Type) (key : P × T → κ) (hk : Function.Injective key)
    (eval : δ → AtQuery P T O → Except Err ν) (d : δ) (h : List (Op (AtQuery P T O) δ)) (o : O)
    (hn : neverSet h) (ho : ∀ q ∈ asked h, q.opts = o) (q : AtQuery P T O) (hq : q.opts = o)
    (mem : Bool) :
    (query .variable (fun q => key (q.pts, q.time)) eval
      (run .variable (fun q => key (q.pts, q.time)) eval d h) q mem).2 = eval d q := by
  have hd : ∀ (h₁ h₂ : List (Op (AtQuery P T O) δ)), neverSet (h₁ ++ h₂) → dataAfter d h₁ = d := by
    intro h₁ h₂
    induction h₁ with
    | nil => intro _; rfl
    | cons o h ih =>
      cases o with
      | setData _ => intro h; exact h.elim
      | ask _ _ => exact ih
  rcases C19_provenance_partial .variable (fun q : AtQuery P T O => key (q.pts, q.time)) eval d h q
    mem with h1 | ⟨h₁, h₂, q', a, b, c, e⟩
  · rw [h1, hd h [] (by simpa using hn)]
  · rw [e, hd h₁ _ (by rw [← a]; exact hn)]
    have hin : q' ∈ asked h := by
      rw [a]
      clear a hn ho e
      induction h₁ with
      | nil => simp [asked]
      | cons o h₁ ih =>
        cases o with
        | setData _ => simpa [asked] using ih
        | ask q0 m => cases m <;> simp [asked, ih]
    have h3 := hk b
    simp only [Prod.mk.injEq] at h3
    have h4 := ho q' hin
    have : q' = q := by
      cases q; cases q'
      simp only at h3 h4 hq
      simp [h3.1, h3.2, h4, hq]
    rw [this]

/-- The hypotheses hold on a history with a repeated query; the answer is the interpolated one. -/
example : neverSet (δ := List ℚ) [Op.ask (⟨(), 5, false⟩ : AtQuery Unit Int Bool) true,
      .ask ⟨(), 10, false⟩ true] ∧
    (query .variable timeKey timeEval
      (run .variable timeKey timeEval [1, 3] [.ask ⟨(), 5, false⟩ true, .ask ⟨(), 10, false⟩ true])
      ⟨(), 5, false⟩ true).2 = .ok 2 ∧
    lookup (run .variable timeKey timeEval [1, 3]
      [.ask ⟨(), 5, false⟩ true, .ask ⟨(), 10, false⟩ true]).memo ((), 5) = some 2 :=
  ⟨by simp [neverSet], by decide +kernel, by decide +kernel⟩

end C19

/-! ## C21: returned arrays -/

section C21

/-- The full claim for a cache: whatever the caller asked and wrote before, a query shows the
evaluated array. -/
def C21_claim (ask : ∀ {κ V : Type} [DecidableEq κ], (κ → List V × List Bool) → Heap κ V → κ →
    Heap κ V × Nat) : Prop :=
  ∀ (κ V : Type) [DecidableEq κ] (eval : κ → List V × List Bool) (h : List (HOp κ V)) (k : κ),
    shown (ask eval) (crun (ask eval) h) k = some (eval k)

/-- For `Variable.at` and the grids' caches. -/
def C21_statement : Prop := C21_claim (fun {_ _} _ => askShared .variable)

/-- A caller masks an element of a returned masked array; the next identical query shows it
masked. -/
theorem C21_mask_write_seen :
    shown (askShared .variable (fun _ : Unit => ([5, 6], [false, false])))
      (crun (askShared .variable (fun _ : Unit => (([5, 6] : List Nat), [false, false])))
        [.ask (), .writeMask 0 1 true]) () = some ([5, 6], [false, true]) := by decide +kernel

theorem C21_refuted : ¬ C21_statement := by
  intro h
  have h1 := h Unit Nat (fun _ => ([5, 6], [false, false])) [.ask (), .writeMask 0 1 true] ()
  have h2 := C21_mask_write_seen.symm.trans h1
  revert h2
  decide

/-- Item access hands out the stored array and leaves it writable: there even element writes are
seen by the next identical access. -/
theorem C21_item_write_seen :
    ¬ C21_claim (fun {_ _} _ => askItem .item) := by
  intro h
  have h1 := h Unit Nat (fun _ => ([5, 6], [false, false])) [.ask (), .write 0 1 9] ()
  revert h1
  decide +kernel

/-- Nobody writes to a mask. -/
def noMaskWrite {κ V : Type} : HOp κ V → Prop
  | .writeMask .. => False
  | _ => True

variable {κ V : Type} [DecidableEq κ]

/-- Element writes never show: `Variable.at`, and the grids' caches. What is missing from the full
claim is mask writes. -/
theorem C21_shared_partial (w : Which) (eval : κ → List V × List Bool) (h : List (HOp κ V))
    (hm : ∀ o ∈ h, noMaskWrite o) (k : κ) :
    shown (askShared w eval) (crun (askShared w eval) h) k = some (eval k) := by
  have inv : ∀ (h : List (HOp κ V)) (c : Caller κ V), (∀ o ∈ h, noMaskWrite o) →
      (∀ p ∈ c.heap.memo, c.heap.arrs[p.2]? = some ⟨(eval p.1).1, (eval p.1).2, false⟩) →
      ∀ p ∈ (h.foldl (cstep (askShared w eval)) c).heap.memo,
        (h.foldl (cstep (askShared w eval)) c).heap.arrs[p.2]?
          = some ⟨(eval p.1).1, (eval p.1).2, false⟩ := by
    intro h
    induction h with
    | nil => intro c _ hc; exact hc
    | cons o h ih =>
      intro c hh hc
      rw [List.foldl_cons]
      refine ih _ (fun o ho => hh o (List.mem_cons_of_mem _ ho)) ?_
      have ho := hh o (List.mem_cons_self ..)
      cases o with
      | writeMask r i b => exact ho.elim
      | write r i v =>
        simp only [cstep]
        split
        · show ∀ p ∈ (writeData c.heap r i v).memo, _
          unfold writeData
          cases ha : c.heap.arrs[r]? with
          | none => exact hc
          | some a =>
            dsimp only
            split
            · rename_i hw
              intro p hp
              have hne : r ≠ p.2 := by
                rintro rfl
                rw [hc p hp] at ha
                cases ha
                cases hw
              show (c.heap.arrs.set r _)[p.2]? = _
              rw [List.getElem?_set_ne hne]
              exact hc p hp
            · exact hc
        · exact hc
      | ask k =>
        intro p hp
        simp only [cstep, askShared] at hp ⊢
        cases hl : lookup c.heap.memo k with
        | some r => simp only [hl] at hp ⊢; exact hc p hp
        | none =>
          simp only [hl] at hp ⊢
          rcases mem_store _ _ _ _ _ hp with hp | rfl
          · have := hc p hp
            rw [List.getElem?_append_left (List.getElem?_eq_some_iff.mp this).1]
            exact this
          · simp
  have hI := inv h { heap := { arrs := [], memo := [] }, held := [] } hm (by simp)
  clear inv
  unfold crun
  generalize h.foldl (cstep (askShared w eval)) _ = c at hI ⊢
  unfold shown askShared
  cases hl : lookup c.heap.memo k with
  | some r =>
    have h2 := hI _ (lookup_mem hl)
    dsimp only at h2
    simp only [h2]
  | none => simp

/-- Nobody writes. -/
def noWrite {κ V : Type} : HOp κ V → Prop
  | .ask _ => True
  | _ => False

/-- Item access shows the item as long as nobody writes to the arrays handed out. What is missing from
the full claim is writes, see `C21_item_write_seen`. -/
theorem C21_item_partial (w : Which) (eval : κ → List V × List Bool) (h : List (HOp κ V))
    (hm : ∀ o ∈ h, noWrite o) (k : κ) :
    shown (askItem w eval) (crun (askItem w eval) h) k = some (eval k) := by
  have inv : ∀ (h : List (HOp κ V)) (c : Caller κ V), (∀ o ∈ h, noWrite o) →
      (∀ p ∈ c.heap.memo, c.heap.arrs[p.2]? = some ⟨(eval p.1).1, (eval p.1).2, true⟩) →
      ∀ p ∈ (h.foldl (cstep (askItem w eval)) c).heap.memo,
        (h.foldl (cstep (askItem w eval)) c).heap.arrs[p.2]?
          = some ⟨(eval p.1).1, (eval p.1).2, true⟩ := by
    intro h
    induction h with
    | nil => intro c _ hc; exact hc
    | cons o h ih =>
      intro c hh hc
      rw [List.foldl_cons]
      refine ih _ (fun o ho => hh o (List.mem_cons_of_mem _ ho)) ?_
      have ho := hh o (List.mem_cons_self ..)
      cases o with
      | writeMask r i b => exact ho.elim
      | write r i v => exact ho.elim
      | ask k =>
        intro p hp
        simp only [cstep, askItem] at hp ⊢
        cases hl : lookup c.heap.memo k with
        | some r => simp only [hl] at hp ⊢; exact hc p hp
        | none =>
          simp only [hl] at hp ⊢
          rcases mem_store _ _ _ _ _ hp with hp | rfl
          · have := hc p hp
            rw [List.getElem?_append_left (List.getElem?_eq_some_iff.mp this).1]
            exact this
          · simp
  have hI := inv h { heap := { arrs := [], memo := [] }, held := [] } hm (by simp)
  clear inv
  unfold crun
  generalize h.foldl (cstep (askItem w eval)) _ = c at hI ⊢
  unfold shown askItem
  cases hl : lookup c.heap.memo k with
  | some r =>
    have h2 := hI _ (lookup_mem hl)
    dsimp only at h2
    simp only [h2]
  | none => simp

example : shown (askItem .item (fun k : Nat => ([k, 6], [true, false])))
    (crun (askItem .item (fun k : Nat => ([k, 6], [true, false]))) [.ask 1, .ask 2, .ask 1]) 2 =
      some ([2, 6], [true, false]) ∧
    ∀ o ∈ ([.ask 1, .ask 2, .ask 1] : List (HOp Nat Nat)), noWrite o := by
  refine ⟨by decide +kernel, ?_⟩
  intro o ho
  simp only [List.mem_cons, List.not_mem_nil, or_false] at ho
  rcases ho with rfl | rfl | rfl <;> trivial

/-- `VectorVariable.at` keeps a copy and hands out copies: there the full claim holds, for element
and mask writes. -/
theorem C21_vector : C21_claim (fun {_ _} _ => askCopied .vector) := by
  intro κ V _ eval h k
  have inv : ∀ (h : List (HOp κ V)) (c : Caller κ V),
      ((∀ p ∈ c.heap.memo, p.2 ∉ c.held ∧
          ∃ b, c.heap.arrs[p.2]? = some ⟨(eval p.1).1, (eval p.1).2, b⟩) ∧
        ∀ r ∈ c.held, r < c.heap.arrs.length) →
      ((∀ p ∈ (h.foldl (cstep (askCopied .vector eval)) c).heap.memo,
          p.2 ∉ (h.foldl (cstep (askCopied .vector eval)) c).held ∧
          ∃ b, (h.foldl (cstep (askCopied .vector eval)) c).heap.arrs[p.2]?
            = some ⟨(eval p.1).1, (eval p.1).2, b⟩) ∧
        ∀ r ∈ (h.foldl (cstep (askCopied .vector eval)) c).held,
          r < (h.foldl (cstep (askCopied .vector eval)) c).heap.arrs.length) := by
    intro h
    induction h with
    | nil => intro c hc; exact hc
    | cons o h ih =>
      intro c hc
      obtain ⟨hc1, hc2⟩ := hc
      rw [List.foldl_cons]
      refine ih _ ?_
      -- a write to a held array leaves the stored ones alone
      have wr : ∀ (r : Nat) (a' : Arr V), r ∈ c.held →
          (∀ p ∈ c.heap.memo, p.2 ∉ c.held ∧
            ∃ b, (c.heap.arrs.set r a')[p.2]? = some ⟨(eval p.1).1, (eval p.1).2, b⟩) ∧
          ∀ r' ∈ c.held, r' < (c.heap.arrs.set r a').length := by
        intro r a' hr
        refine ⟨fun p hp => ⟨(hc1 p hp).1, ?_⟩, by simpa using hc2⟩
        have hne : r ≠ p.2 := by
          rintro rfl
          exact (hc1 p hp).1 hr
        rw [List.getElem?_set_ne hne]
        exact (hc1 p hp).2
      cases o with
      | writeMask r i b =>
        simp only [cstep]
        split
        · rename_i hr
          simp only [writeMask]
          cases ha : c.heap.arrs[r]? with
          | none => exact ⟨hc1, hc2⟩
          | some a => exact wr r _ hr
        · exact ⟨hc1, hc2⟩
      | write r i v =>
        simp only [cstep]
        split
        · rename_i hr
          simp only [writeData]
          cases ha : c.heap.arrs[r]? with
          | none => exact ⟨hc1, hc2⟩
          | some a =>
            dsimp only
            by_cases hw : a.writable = true
            · simp only [hw, if_true]; exact wr r _ hr
            · simp only [hw]; exact ⟨hc1, hc2⟩
        · exact ⟨hc1, hc2⟩
      | ask k =>
        simp only [cstep, askCopied]
        cases hl : lookup c.heap.memo k with
        | some r =>
          obtain ⟨h1, b, h2⟩ := hc1 _ (lookup_mem hl)
          dsimp only at h2
          simp only [h2]
          refine ⟨fun p hp => ?_, fun r' hr' => ?_⟩
          · obtain ⟨h3, b', h4⟩ := hc1 p hp
            have hlt := (List.getElem?_eq_some_iff.mp h4).1
            refine ⟨?_, b', ?_⟩
            · rw [List.mem_cons]
              rintro (h | h)
              · omega
              · exact h3 h
            · rw [List.getElem?_append_left hlt]; exact h4
          · rw [List.length_append]
            rcases List.mem_cons.mp hr' with rfl | hr'
            · simp
            · have := hc2 r' hr'; simp only [List.length_singleton]; omega
        | none =>
          simp only
          refine ⟨fun p hp => ?_, fun r' hr' => ?_⟩
          · rcases mem_store _ _ _ _ _ hp with hp | rfl
            · obtain ⟨h3, b', h4⟩ := hc1 p hp
              have hlt := (List.getElem?_eq_some_iff.mp h4).1
              refine ⟨?_, b', ?_⟩
              · rw [List.mem_cons]
                rintro (h | h)
                · omega
                · exact h3 h
              · rw [List.getElem?_append_left hlt]; exact h4
            · refine ⟨?_, false, ?_⟩
              · rw [List.mem_cons]
                rintro (h | h)
                · simp at h
                · have := hc2 _ h; dsimp only at this; omega
              · simp
          · rw [List.length_append]
            rcases List.mem_cons.mp hr' with rfl | hr'
            · simp
            · have := hc2 r' hr'; simp only [List.length_cons]; omega
  have hI := inv h { heap := { arrs := [], memo := [] }, held := [] }
    ⟨by simp, by simp⟩
  obtain ⟨hI, -⟩ := hI
  clear inv
  show shown (askCopied .vector eval) (crun (askCopied .vector eval) h) k = some (eval k)
  unfold crun
  generalize h.foldl (cstep (askCopied .vector eval)) _ = c at hI ⊢
  unfold shown askCopied
  cases hl : lookup c.heap.memo k with
  | some r =>
    obtain ⟨-, b, h2⟩ := hI _ (lookup_mem hl)
    dsimp only at h2
    simp only [h2]
    simp
  | none => simp

/-- A history with a refused element write and a repeated query. -/
example :
    shown (askShared .variable (fun _ : Unit => ([5, 6], [false, false])))
      (crun (askShared .variable (fun _ : Unit => (([5, 6] : List Nat), [false, false])))
        [.ask (), .write 0 1 9]) () = some ([5, 6], [false, false]) := by decide +kernel

/-- The copies of a vector variable are writable, so its theorem is about writes that happen. -/
example :
    (crun (askCopied .vector (fun _ : Unit => (([5, 6] : List Nat), [false, false])))
      [.ask (), .write 0 1 9]).heap.arrs[0]? = some ⟨[5, 9], [false, false], true⟩ := by
  decide +kernel

end C21

/-! ## C22: item caches -/

section C22
variable {ι δ ν : Type}

/-- The full claim for item access: printed form as key, any data. -/
def C22_statement : Prop :=
  ∀ (ι δ ν : Type) (str : ι → String) (getitem : δ → ι → Except Err ν) (d : δ)
    (h : List (Op ι δ)) (i : ι),
    (query .item str getitem (run .item str getitem d h) i true).2 = getitem (dataAfter d h) i

/-- `data[i]` for a flat array and an integer index. -/
def getInt (d : List Int) (i : Int) : Except Err Int := Np.pyGet d i

/-- After new data have been assigned (`gridded/pyugrid/uvar.py:89-91`) the old element comes back. -/
theorem C22_data_change_ignored :
    (query .item (fun i : Int => toString i) getInt
      (run .item (fun i : Int => toString i) getInt [7, 8] [.ask 1 true, .setData [7, 9]]) 1 true).2
      = .ok 8 ∧ getInt [7, 9] 1 = .ok 9 := by
  constructor <;> decide +kernel

/-- Printed form of an index array: `numpy` shortens arrays of more than 1000 elements to their
first and last three (numpy's `threshold` and `edgeitems` print options); separators simplified. -/
def strArr (a : List Nat) : String :=
  if 1000 < a.length then
    " ".intercalate ((a.take 3).map toString) ++ " ... " ++
      " ".intercalate ((a.drop (a.length - 3)).map toString)
  else " ".intercalate (a.map toString)

/-- Two long index arrays differing in the middle have the same printed form: the second access
gets the result of the first. -/
theorem C22_key_collision :
    let a := List.replicate 1001 0
    let b := List.replicate 500 0 ++ [1] ++ List.replicate 500 0
    let getArr := fun (d : List Int) (i : List Nat) =>
      (.ok (i.map (fun j => d.getD j 0)) : Except Err (List Int))
    (query .item strArr getArr (run .item strArr getArr [7, 8] [.ask a true]) b true).2
      = getArr [7, 8] a ∧ getArr [7, 8] a ≠ getArr [7, 8] b := by
  constructor <;> decide +kernel

theorem C22_refuted : ¬ C22_statement := by
  intro h
  have h1 := h Int (List Int) Int (fun i => toString i) getInt [7, 8] [.ask 1 true, .setData [7, 9]] 1
  have h2 := C22_data_change_ignored
  have h3 : (Except.ok 8 : Except Err Int) = .ok 9 := h2.1.symm.trans (h1.trans h2.2)
  cases h3

/-- Transparent while the data are not assigned and the indices used have different printed forms
(or the same result). -/
theorem C22_transparent_partial (str : ι → String) (getitem : δ → ι → Except Err ν) (d : δ)
    (h : List (Op ι δ)) (i : ι) (hn : neverSet h)
    (hs : ∀ j ∈ asked h, str j = str i → j = i) :
    (query .item str getitem (run .item str getitem d h) i true).2 = getitem d i := by
  have hd : ∀ (h₁ h₂ : List (Op ι δ)), neverSet (h₁ ++ h₂) → dataAfter d h₁ = d := by
    intro h₁ h₂
    induction h₁ with
    | nil => intro _; rfl
    | cons o h ih =>
      cases o with
      | setData _ => intro h; exact h.elim
      | ask _ _ => exact ih
  rcases C19_provenance_partial .item str getitem d h i true with h1 | ⟨h₁, h₂, q', a, b, c, e⟩
  · rw [h1, hd h [] (by simpa using hn)]
  · rw [e, hd h₁ _ (by rw [← a]; exact hn)]
    have hin : q' ∈ asked h := by
      rw [a]
      clear a hn hs e
      induction h₁ with
      | nil => simp [asked]
      | cons o h₁ ih =>
        cases o with
        | setData _ => simpa [asked] using ih
        | ask q0 m => cases m <;> simp [asked, ih]
    rw [hs q' hin b]

example : (query .item (fun i : Int => toString i) getInt
    (run .item (fun i : Int => toString i) getInt [7, 8]
      [.ask 1 true, .ask 0 true, .ask 5 true]) 1 true).2 = .ok 8 := by decide +kernel

end C22

end Verif
