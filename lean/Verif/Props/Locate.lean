import Verif.Model.Locate
import Verif.Lemmas.Cache
import Verif.Lemmas.UGeom
import Mathlib.Algebra.Order.Ring.Rat
import Mathlib.Algebra.Field.Rat

/-!
# C23, C24: `locate_faces` over histories
-/

set_option autoImplicit false

namespace Verif
open UGeom Locate

section C23

/-- The mesh after a history: the last assigned. -/
def meshAfter {K : Type} (m : Mesh K) : List (Locate.Op K) → Mesh K
  | [] => m
  | .setMesh m' :: h => meshAfter m' h
  | .locate .. :: h => meshAfter m h

/-- All meshes a grid had over a history. -/
def meshes {K : Type} (m : Mesh K) (h : List (Locate.Op K)) : List (Mesh K) :=
  m :: h.filterMap (fun o => match o with | .setMesh m' => some m' | .locate .. => none)

/-- The full claim. -/
def C23_statement : Prop :=
  ∀ (celltree : Mesh ℚ → List (ℚ × ℚ) → List Int) (eps : ℚ) (m : Mesh ℚ)
    (h : List (Locate.Op ℚ)) (pts : List (ℚ × ℚ)) (μ : Method) (memo : Bool),
    (locate celltree eps (Locate.run celltree eps m h) pts μ memo).2
      = fresh celltree eps (meshAfter m h) μ pts

/-- A cell tree for the examples: exact containment. -/
def exampleTree (m : Mesh ℚ) (pts : List (ℚ × ℚ)) : List Int :=
  match simpleLocate 0 m pts with
  | .ok r => r
  | .error _ => []

def meshA : Mesh ℚ := ⟨[(0, 0), (1, 0), (0, 1)], [[0, 1, 2]]⟩
def meshB : Mesh ℚ := ⟨[(10, 10), (11, 10), (10, 11)], [[0, 1, 2]]⟩

/-- The cell tree of the first mesh answers for the second, even with the memo switched off. -/
theorem C23_tree_stale :
    (locate exampleTree 0 (Locate.run exampleTree 0 meshA
      [.locate [(5, 5)] .celltree false, .setMesh meshB]) [(1 / 4, 1 / 4)] .celltree false).2
      = .ok [0] ∧
    fresh exampleTree 0 meshB .celltree [(1 / 4, 1 / 4)] = .ok [-1] := by
  constructor <;> decide +kernel

/-- So does the memo, for the simple method. -/
theorem C23_memo_stale :
    (locate exampleTree 0 (Locate.run exampleTree 0 meshA
      [.locate [(1 / 4, 1 / 4)] .simple true, .setMesh meshB]) [(1 / 4, 1 / 4)] .simple true).2
      = .ok [0] ∧
    fresh exampleTree 0 meshB .simple [(1 / 4, 1 / 4)] = .ok [-1] := by
  constructor <;> decide +kernel

/-- The memo ignores the method: after a query with one method a query with another returns the
first one's answer, and an unknown method no longer raises. -/
theorem C23_method_ignored :
    (locate exampleTree 0 (Locate.run exampleTree 0 meshA
      [.locate [(1 / 4, 1 / 4)] .simple true]) [(1 / 4, 1 / 4)] .other true).2
      = .ok [0] ∧
    fresh exampleTree 0 meshA .other [(1 / 4, 1 / 4)] = .error .valueError := by
  constructor <;> decide +kernel

theorem C23_refuted : ¬ C23_statement := by
  intro h
  have h1 := h exampleTree 0 meshA [.locate [(5, 5)] .celltree false, .setMesh meshB]
    [(1 / 4, 1 / 4)] .celltree false
  have h2 := C23_tree_stale
  have h3 : (Except.ok [0] : Except Err (List Int)) = .ok [-1] :=
    h2.1.symm.trans (h1.trans h2.2)
  cases h3

variable {K : Type} [Field K] [LinearOrder K] (celltree : Mesh K → List (K × K) → List Int)
  (eps : K)

/-- Facts kept over a history: the mesh is the last assigned; the tree's mesh was one of the
grid's; every remembered answer was right for one of the grid's meshes and one of the methods
used. -/
structure Kept (m : Mesh K) (h : List (Locate.Op K)) (g : Grid K) : Prop where
  mesh : g.mesh = meshAfter m h
  tree : ∀ t, g.tree = some t → t ∈ meshes m h
  memo : ∀ p ∈ g.memo, ∃ m' ∈ meshes m h, ∃ μ, (∃ pts, Op.locate pts μ true ∈ h) ∧
    fresh celltree eps m' μ p.1 = .ok p.2

theorem meshAfter_mem (m : Mesh K) (h : List (Locate.Op K)) : meshAfter m h ∈ meshes m h := by
  induction h generalizing m with
  | nil => simp [meshAfter, meshes]
  | cons o h ih =>
    cases o with
    | setMesh m' =>
      have := ih m'
      simp only [meshAfter, meshes, List.filterMap_cons, List.mem_cons] at this ⊢
      tauto
    | locate _ _ _ => exact ih m

theorem meshAfter_snoc (m : Mesh K) (h : List (Locate.Op K)) (o : Locate.Op K) :
    meshAfter m (h ++ [o]) = match o with | .setMesh m' => m' | .locate .. => meshAfter m h := by
  induction h generalizing m with
  | nil => cases o <;> rfl
  | cons o' h ih => cases o' <;> exact ih _

theorem meshes_snoc (m : Mesh K) (h : List (Locate.Op K)) (o : Locate.Op K) (x : Mesh K)
    (hx : x ∈ meshes m h) : x ∈ meshes m (h ++ [o]) := by
  simp only [meshes, List.filterMap_append, List.mem_cons, List.mem_append] at hx ⊢
  tauto

theorem kept (m : Mesh K) (h : List (Locate.Op K)) :
    Kept celltree eps m h (Locate.run celltree eps m h) := by
  induction h using List.reverseRecOn with
  | nil => exact ⟨rfl, fun t ht => (by cases ht), fun p hp => (by cases hp)⟩
  | append_singleton h o ih =>
    have e : Locate.run celltree eps m (h ++ [o])
        = Locate.step celltree eps (Locate.run celltree eps m h) o := by
      simp [Locate.run, List.foldl_append]
    rw [e]
    generalize Locate.run celltree eps m h = g at ih
    obtain ⟨i1, i2, i3⟩ := ih
    have old : ∀ p ∈ g.memo, ∃ m' ∈ meshes m (h ++ [o]), ∃ μ,
        (∃ pts, Op.locate pts μ true ∈ h ++ [o]) ∧ fresh celltree eps m' μ p.1 = .ok p.2 := by
      intro p hp
      obtain ⟨m', hm', μ, ⟨pts, hpts⟩, hf⟩ := i3 p hp
      exact ⟨m', meshes_snoc m h o m' hm', μ, ⟨pts, by simp [hpts]⟩, hf⟩
    cases o with
    | setMesh m' =>
      refine ⟨?_, fun t ht => meshes_snoc m h _ t (i2 t ht), old⟩
      rw [meshAfter_snoc]; rfl
    | locate pts μ mm =>
      have hused : g.tree.getD g.mesh ∈ meshes m h := by
        cases ht : g.tree with
        | none => simp only [Option.getD_none, i1]; exact meshAfter_mem m h
        | some t => exact i2 t ht
      have hmesh : g.mesh = meshAfter m (h ++ [Op.locate pts μ mm]) := by
        rw [meshAfter_snoc]; exact i1
      have htree : ∀ t, (if μ = .celltree then { g with tree := some (g.tree.getD g.mesh) } else g).tree
          = some t → t ∈ meshes m (h ++ [Op.locate pts μ mm]) := by
        intro t ht
        refine meshes_snoc m h _ t ?_
        split at ht
        · simp only [Option.some.injEq] at ht
          rw [← ht]; exact hused
        · exact i2 t ht
      have hm1 : (if μ = .celltree then { g with tree := some (g.tree.getD g.mesh) } else g).mesh
          = g.mesh := by split <;> rfl
      have hm2 : (if μ = .celltree then { g with tree := some (g.tree.getD g.mesh) } else g).memo
          = g.memo := by split <;> rfl
      simp only [Locate.step, locate]
      split
      · exact ⟨hmesh, fun t ht => meshes_snoc m h _ t (i2 t ht), old⟩
      · split
        · exact ⟨by rw [hm1]; exact hmesh, htree, by rw [hm2]; exact old⟩
        · rename_i r hr
          cases mm with
          | false => exact ⟨by simp only [Bool.false_eq_true, if_false]; rw [hm1]; exact hmesh, htree,
              by simp only [Bool.false_eq_true, if_false]; rw [hm2]; exact old⟩
          | true =>
            refine ⟨by simp only [if_true]; rw [hm1]; exact hmesh, by simpa only [if_true] using htree, ?_⟩
            intro p hp
            simp only [if_true, hm2] at hp
            rcases Cache.mem_store _ _ _ _ _ hp with hp | rfl
            · exact old p hp
            · refine ⟨_, meshes_snoc m h _ _ ?_, μ, ⟨pts, by simp⟩, hr⟩
              split
              · exact hused
              · rw [i1]; exact meshAfter_mem m h

/-- Every answer is right for some mesh the grid has had and some method used so far (or now). -/
theorem C23_provenance_partial (m : Mesh K) (h : List (Locate.Op K)) (pts : List (K × K))
    (μ : Method) (memo : Bool) (is : List Int)
    (hok : (locate celltree eps (Locate.run celltree eps m h) pts μ memo).2 = .ok is) :
    ∃ m' ∈ meshes m h, ∃ μ', (μ' = μ ∨ ∃ pts', Op.locate pts' μ' true ∈ h) ∧
      fresh celltree eps m' μ' pts = .ok is := by
  obtain ⟨i1, i2, i3⟩ := kept celltree eps m h
  generalize Locate.run celltree eps m h = g at i1 i2 i3 hok
  unfold locate at hok
  cases hL : (if memo then Cache.lookup g.memo pts else none) with
  | some r =>
    simp only [hL, Except.ok.injEq] at hok
    subst hok
    cases memo with
    | false => simp at hL
    | true =>
      simp only [if_true] at hL
      obtain ⟨m', hm', μ', hμ', hf⟩ := i3 _ (Cache.lookup_mem hL)
      exact ⟨m', hm', μ', Or.inr hμ', hf⟩
  | none =>
    simp only [hL] at hok
    cases hr : fresh celltree eps (if μ = .celltree then g.tree.getD g.mesh else g.mesh) μ pts with
    | error e => simp only [hr] at hok; cases hok
    | ok r =>
      simp only [hr, Except.ok.injEq] at hok
      subst hok
      refine ⟨_, ?_, μ, Or.inl rfl, hr⟩
      split
      · cases ht : g.tree with
        | none => simp only [Option.getD_none, i1]; exact meshAfter_mem m h
        | some t => exact i2 t ht
      · rw [i1]; exact meshAfter_mem m h

/-- The simple method with the memo off follows the current mesh over every history. -/
theorem C23_simple_no_memo_partial (m : Mesh K) (h : List (Locate.Op K)) (pts : List (K × K)) :
    (locate celltree eps (Locate.run celltree eps m h) pts .simple false).2
      = fresh celltree eps (meshAfter m h) .simple pts := by
  obtain ⟨i1, -, -⟩ := kept celltree eps m h
  generalize Locate.run celltree eps m h = g at i1
  unfold locate
  simp only [Bool.false_eq_true, if_false, reduceCtorEq, i1]
  cases fresh celltree eps (meshAfter m h) .simple pts <;> rfl

/-- While the mesh is not assigned again and one method is used throughout, every answer is that
method's answer for the mesh. -/
theorem C23_fixed_mesh_partial (m : Mesh K) (h : List (Locate.Op K)) (μ : Method)
    (hh : ∀ o ∈ h, ∃ pts memo, o = .locate pts μ memo) (pts : List (K × K)) (memo : Bool) :
    (locate celltree eps (Locate.run celltree eps m h) pts μ memo).2
      = fresh celltree eps m μ pts := by
  have hms : ∀ x ∈ meshes m h, x = m := by
    intro x hx
    simp only [meshes, List.mem_cons, List.mem_filterMap] at hx
    rcases hx with rfl | ⟨o, ho, hx⟩
    · rfl
    · obtain ⟨_, _, rfl⟩ := hh o ho
      cases hx
  cases hr : (locate celltree eps (Locate.run celltree eps m h) pts μ memo).2 with
  | ok is =>
    obtain ⟨m', hm', μ', hμ', hf⟩ := C23_provenance_partial celltree eps m h pts μ memo is hr
    have : μ' = μ := by
      rcases hμ' with rfl | ⟨pts', ho⟩
      · rfl
      · obtain ⟨_, _, he⟩ := hh _ ho
        cases he; rfl
    rw [← hf, hms m' hm', this]
  | error e =>
    obtain ⟨i1, i2, -⟩ := kept celltree eps m h
    generalize Locate.run celltree eps m h = g at i1 i2 hr
    have hg : g.mesh = m := by rw [i1]; exact hms _ (meshAfter_mem m h)
    have hu : (if μ = .celltree then g.tree.getD g.mesh else g.mesh) = m := by
      split
      · cases ht : g.tree with
        | none => simpa using hg
        | some t => exact hms t (i2 t ht)
      · exact hg
    unfold locate at hr
    cases hL : (if memo then Cache.lookup g.memo pts else none) with
    | some r => simp only [hL] at hr; cases hr
    | none =>
      simp only [hL, hu] at hr
      cases hf : fresh celltree eps m μ pts with
      | error e' => simp only [hf, Except.error.injEq] at hr; rw [hr]
      | ok r => simp only [hf] at hr; cases hr

example : (locate exampleTree 0 (Locate.run exampleTree 0 meshA
    [.locate [(1 / 4, 1 / 4)] .celltree true, .locate [(5, 5)] .celltree true])
    [(1 / 4, 1 / 4)] .celltree true).2 = .ok [0] ∧
    Cache.lookup (Locate.run exampleTree 0 meshA
      [.locate [(1 / 4, 1 / 4)] .celltree true, .locate [(5, 5)] .celltree true]).memo
      [(1 / 4, 1 / 4)] = some [0] := by
  constructor <;> decide +kernel

end C23

/-! ## C24 -/

section C24

/-- The full claim: a one-point call returns one index and leaves its argument alone. -/
def C24_statement : Prop :=
  ∀ (celltree : Mesh ℚ → List (ℚ × ℚ) → List Int) (eps : ℚ) (m : Mesh ℚ)
    (h : List (Locate.Op ℚ)) (pt : ℚ × ℚ) (isArr : Bool) (μ : Method) (memo : Bool),
    (∀ m pts, (celltree m pts).length = pts.length) →
    let r := call celltree eps (Locate.run celltree eps m h) ⟨[pt], true, isArr⟩ μ memo
    (∀ ans, r.2.2 = .ok ans → ∃ i, ans = .one i) ∧ r.2.1 = ⟨[pt], true, isArr⟩

/-- The second identical call returns an array. -/
theorem C24_second_call_array :
    (call (fun _ pts => pts.map fun _ => 3) 0
      (Locate.run (fun _ pts => pts.map fun _ => 3) 0 meshA [.locate [(1, 1)] .celltree true])
      ⟨[(1, 1)], true, false⟩ .celltree true).2.2 = .ok (.many [3]) ∧
    (call (fun _ pts => pts.map fun _ => 3) 0
      (Locate.run (fun _ pts => pts.map fun _ => 3) 0 meshA [])
      ⟨[(1, 1)], true, false⟩ .celltree true).2.2 = .ok (.one 3) := by
  constructor <;> decide +kernel

/-- The caller's float array becomes two-dimensional. -/
theorem C24_argument_reshaped {K : Type} [Field K] [LinearOrder K]
    (celltree : Mesh K → List (K × K) → List Int) (eps : K) (g : Grid K) (pts : List (K × K))
    (μ : Method) (memo : Bool) :
    (call celltree eps g ⟨pts, true, true⟩ μ memo).2.1.oneD = false := by
  unfold call
  simp only [if_true]
  cases (if memo then Cache.lookup g.memo pts else none) <;> rfl

theorem C24_refuted : ¬ C24_statement := by
  intro h
  have h1 := (h (fun _ pts => pts.map fun _ => 3) 0 meshA [.locate [(1, 1)] .celltree true] (1, 1)
    false .celltree true (by simp)).1 _ C24_second_call_array.1
  obtain ⟨i, hi⟩ := h1
  cases hi

/-- With the memo off, or for a point not located through it before, a one-point call returns one
index, over every history; an argument that is not a float array is left alone. -/
theorem C24_single_index_partial {K : Type} [Field K] [LinearOrder K]
    (celltree : Mesh K → List (K × K) → List Int)
    (eps : K) (m : Mesh K) (h : List (Locate.Op K)) (pt : K × K) (isArr : Bool) (μ : Method)
    (memo : Bool) (hq : memo = false ∨ ∀ μ', Op.locate [pt] μ' true ∉ h) :
    let r := call celltree eps (Locate.run celltree eps m h) ⟨[pt], true, isArr⟩ μ memo
    (∀ ans, r.2.2 = .ok ans → ∃ i, ans = .one i) ∧
      (isArr = false → r.2.1 = ⟨[pt], true, isArr⟩) := by
  have hmem : ∀ h : List (Locate.Op K), ∀ p ∈ (Locate.run celltree eps m h).memo,
      ∃ μ', Op.locate p.1 μ' true ∈ h := by
    intro h
    induction h using List.reverseRecOn with
    | nil => intro p hp; cases hp
    | append_singleton h o ih =>
      have e : Locate.run celltree eps m (h ++ [o])
          = Locate.step celltree eps (Locate.run celltree eps m h) o := by
        simp [Locate.run, List.foldl_append]
      rw [e]
      generalize Locate.run celltree eps m h = g at ih
      have old : ∀ p ∈ g.memo, ∃ μ', Op.locate p.1 μ' true ∈ h ++ [o] := by
        intro p hp
        obtain ⟨μ', h'⟩ := ih p hp
        exact ⟨μ', by simp [h']⟩
      cases o with
      | setMesh m' => exact old
      | locate pts μ mm =>
        have hm2 : (if μ = .celltree then { g with tree := some (g.tree.getD g.mesh) } else g).memo
          = g.memo := by split <;> rfl
        simp only [Locate.step, locate]
        split
        · exact old
        · split
          · rw [hm2]; exact old
          · cases mm with
            | false => simp only [Bool.false_eq_true, if_false]; rw [hm2]; exact old
            | true =>
              intro p hp
              simp only [if_true, hm2] at hp
              rcases Cache.mem_store _ _ _ _ _ hp with hp | rfl
              · exact old p hp
              · exact ⟨μ, by simp⟩
  have hmiss : (if memo then Cache.lookup (Locate.run celltree eps m h).memo [pt] else none)
      = none := by
    cases memo with
    | false => rfl
    | true =>
      simp only [if_true]
      cases hl : Cache.lookup (Locate.run celltree eps m h).memo [pt] with
      | none => rfl
      | some r =>
        obtain ⟨μ', h'⟩ := hmem h _ (Cache.lookup_mem hl)
        rcases hq with hq | hq
        · cases hq
        · exact absurd h' (hq μ')
  simp only [call, hmiss]
  constructor
  · intro ans ha
    split at ha
    · cases ha
    · simp only [if_true] at ha
      split at ha
      · cases ha; exact ⟨_, rfl⟩
      · cases ha
  · rintro rfl
    rfl

example : (call exampleTree 0 (Locate.run exampleTree 0 meshA
    [.locate [(5, 5)] .celltree true]) ⟨[(1 / 4, 1 / 4)], true, false⟩ .celltree true).2.2
      = .ok (.one 0) := by decide +kernel

end C24

end Verif
