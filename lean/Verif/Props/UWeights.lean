import Verif.Lemmas.UWeights
import Verif.Props.UGeom
import Verif.Props.Locate

/-!
# C189–C193: interpolation on an unstructured grid object, its memory and its flags
-/

set_option autoImplicit false

namespace Verif
open UGeom Spec
open UWeights (Op Out act after new)

/-- The mesh a grid should have after some calls: the last assigned. -/
def meshNow {K : Type} (m : Mesh K) : List (Op K) → Mesh K
  | [] => m
  | .setMesh m' :: h => meshNow m' h
  | _ :: h => meshNow m h

/-- No nodes or faces are assigned. -/
def KeepsMesh {K : Type} (o : Op K) : Prop := ∀ m, o ≠ .setMesh m

/-- A call that leaves the location of the points to the grid, by its default method. -/
inductive Usual {K : Type} : Op K → Prop
  | locate (pts : List (K × K)) (memo : Bool) : Usual (.locate pts .celltree memo)
  | weigh (pts : List (K × K)) (copy memo : Bool) : Usual (.weigh pts none copy memo)
  | interpolate (loc : Loc) (data : List (Option K)) (pts : List (K × K)) (copy memo : Bool) :
      Usual (.interpolate loc data pts copy memo)

/-! ## C189 -/

section C189

/-- The full claim: interpolation answers as a grid just made with the present mesh would. -/
def C189_statement : Prop :=
  ∀ (celltree : Mesh ℚ → List (ℚ × ℚ) → List Int) (m : Mesh ℚ) (h : List (Op ℚ)) (loc : Loc)
    (data : List (Option ℚ)) (pts : List (ℚ × ℚ)) (copy memo : Bool),
    (act celltree 0 (after celltree 0 (new m) h) (.interpolate loc data pts copy memo)).2
      = (act celltree 0 (new (meshNow m h)) (.interpolate loc data pts copy memo)).2

/-- A triangle, and the same triangle twice as large. -/
def small : Mesh ℚ := ⟨[(0, 0), (1, 0), (0, 1)], [[0, 1, 2]]⟩
def large : Mesh ℚ := ⟨[(0, 0), (2, 0), (0, 2)], [[0, 1, 2]]⟩

/-- A point in both, data `0, 1, 1` at the nodes: after the nodes were moved the weights of the old
ones are used, although the point is still in the face the tree reports. -/
theorem C189_old_weights :
    (act exampleTree 0 (after exampleTree 0 (new small)
      [.interpolate .node [some 0, some 1, some 1] [(1 / 4, 1 / 4)] false true, .setMesh large])
      (.interpolate .node [some 0, some 1, some 1] [(1 / 4, 1 / 4)] false true)).2
      = .values (.ok (some [some (1 / 2)])) ∧
    (act exampleTree 0 (new large)
      (.interpolate .node [some 0, some 1, some 1] [(1 / 4, 1 / 4)] false true)).2
      = .values (.ok (some [some (1 / 4)])) ∧
    exampleTree small [(1 / 4, 1 / 4)] = exampleTree large [(1 / 4, 1 / 4)] := by
  refine ⟨?_, ?_, ?_⟩ <;> decide +kernel

theorem C189_refuted : ¬ C189_statement := by
  intro h
  have h1 := h exampleTree small
    [.interpolate .node [some 0, some 1, some 1] [(1 / 4, 1 / 4)] false true, .setMesh large]
    .node [some 0, some 1, some 1] [(1 / 4, 1 / 4)] false true
  obtain ⟨a, b, -⟩ := C189_old_weights
  rw [a] at h1
  have h2 : meshNow small [.interpolate .node [some 0, some 1, some 1] [(1 / 4, 1 / 4)] false true,
    .setMesh large] = large := rfl
  rw [h2, b] at h1
  exact absurd h1 (by decide +kernel)

variable {K : Type} [Field K] [LinearOrder K] (celltree : Mesh K → List (K × K) → List Int)
  (eps : K)

theorem usual_faithful {m : Mesh K} {g : UWeights.Grid K} (hg : UWeights.Faithful celltree m g)
    {o : Op K} (ho : Usual o) :
    (act celltree eps g o).2 = (act celltree eps (new m) o).2 ∧
      UWeights.Faithful celltree m (act celltree eps g o).1 := by
  have hn := UWeights.faithful_new celltree m
  cases ho with
  | locate pts memo =>
    obtain ⟨a, b⟩ := UWeights.locate_faithful celltree eps hg.loc pts memo
    obtain ⟨a', -⟩ := UWeights.locate_faithful celltree eps hn.loc pts memo
    exact ⟨by simp only [act, a, a'], b, hg.weights⟩
  | weigh pts copy memo =>
    obtain ⟨a, b⟩ := UWeights.alphas_faithful celltree eps hg pts none (Or.inl rfl) copy memo
    obtain ⟨a', -⟩ := UWeights.alphas_faithful celltree eps hn pts none (Or.inl rfl) copy memo
    exact ⟨by simp only [act, a, a'], b⟩
  | interpolate loc data pts copy memo =>
    obtain ⟨a, b⟩ := UWeights.values_faithful celltree eps hg loc data pts copy memo
    obtain ⟨a', -⟩ := UWeights.values_faithful celltree eps hn loc data pts copy memo
    exact ⟨by simp only [act, a, a'], b⟩

theorem after_faithful (m : Mesh K) (h : List (Op K)) (hh : ∀ o ∈ h, Usual o) :
    UWeights.Faithful celltree m (after celltree eps (new m) h) := by
  induction h using List.reverseRecOn with
  | nil => exact UWeights.faithful_new celltree m
  | append_singleton h o ih =>
    simp only [after, List.foldl_append, List.foldl_cons, List.foldl_nil]
    exact (usual_faithful celltree eps (ih fun o' ho' => hh o' (by simp [ho'])) (hh o (by simp))).2

/-- While the mesh stays, and the grid itself locates the points, every answer is that of a grid
just made, whatever was asked before, in whatever order and with whatever flags. -/
theorem C189_same_mesh_partial (m : Mesh K) (h : List (Op K)) (hh : ∀ o ∈ h, Usual o) (o : Op K)
    (ho : Usual o) :
    (act celltree eps (after celltree eps (new m) h) o).2 = (act celltree eps (new m) o).2 :=
  (usual_faithful celltree eps (after_faithful celltree eps m h hh) ho).1

omit [LinearOrder K] in
theorem interpNode_split [LinearOrder K] (m : Mesh K) (data : List (Option K)) (i : Int) (p : K × K)
    (v : Option K) (h : interpNode m data i p = .ok v) :
    ∃ w c, UWeights.weigh m i p = .ok w ∧ UWeights.corners m data i = .ok c ∧
      v = UWeights.dot c w := by
  unfold interpNode at h
  split at h
  · cases h
  · rename_i a b c hf
    split at h
    · rename_i p' q' r' hp hq hr
      split at h
      · rename_i u v' w hu hv hw
        cases h
        have h1 : UWeights.weigh m i p = .ok (alphas i p' q' r' p) := by
          simp only [UWeights.weigh, hf, hp, hq, hr]
        have h2 : UWeights.corners m data i = .ok ((if i = -1 then fmul u (some 0) else u),
            (if i = -1 then fmul v' (some 0) else v'), (if i = -1 then fmul w (some 0) else w)) := by
          simp only [UWeights.corners, hf, hu, hv, hw]
        exact ⟨_, _, h1, h2, rfl⟩
      · cases h
    · cases h
  · cases h

theorem interpNode_all (m : Mesh K) (data : List (Option K)) : ∀ (is : List Int)
    (pts : List (K × K)) (vs : List (Option K)), is.length = pts.length →
    DepthM.mapE (fun q : Int × (K × K) => interpNode m data q.1 q.2) (is.zip pts) = .ok vs →
    ∃ ws cs, DepthM.mapE (fun q : Int × (K × K) => UWeights.weigh m q.1 q.2) (is.zip pts) = .ok ws ∧
      DepthM.mapE (UWeights.corners m data) is = .ok cs ∧ ws.length = is.length ∧
      cs.length = is.length ∧ vs = (cs.zip ws).map fun q => UWeights.dot q.1 q.2
  | [], [], vs, _, h => by
    simp only [List.zip_nil_left, DepthM.mapE, Except.ok.injEq] at h
    subst h
    exact ⟨[], [], rfl, rfl, rfl, rfl, rfl⟩
  | [], _ :: _, _, h, _ => by simp at h
  | _ :: _, [], _, h, _ => by simp at h
  | i :: is, p :: pts, vs, hl, h => by
    simp only [List.zip_cons_cons, DepthM.mapE] at h
    cases h1 : interpNode m data i p with
    | error e => rw [h1] at h; cases h
    | ok v =>
      rw [h1] at h
      cases h2 : DepthM.mapE (fun q : Int × (K × K) => interpNode m data q.1 q.2) (is.zip pts) with
      | error e => rw [h2] at h; cases h
      | ok vs' =>
        rw [h2] at h
        cases h
        obtain ⟨w, c, a1, a2, rfl⟩ := interpNode_split m data i p v h1
        obtain ⟨ws, cs, b1, b2, b3, b4, rfl⟩ := interpNode_all m data is pts vs' (by simpa using hl) h2
        refine ⟨w :: ws, c :: cs, ?_, ?_, by simp [b3], by simp [b4], by simp⟩
        · simp only [List.zip_cons_cons, DepthM.mapE, a1, b1]
        · simp only [DepthM.mapE, a2, b2]

variable [IsStrictOrderedRing K]

/-- And these answers are right: 0 for a point outside, the value of its face, or a value within the
range of the values at its corners. -/
theorem C189_values_partial (m : Mesh K) (h : List (Op K)) (hh : ∀ o ∈ h, Usual o) (loc : Loc)
    (data : List (Option K)) (pts : List (K × K)) (copy memo : Bool)
    (hlen : (celltree m pts).length = pts.length) (hm : TriMesh m)
    (hl : Located m ((celltree m pts).zip pts)) (hf : DataFits m loc data)
    (hloc : loc ≠ .boundary) (hfin : ∀ v ∈ data, v ≠ none)
    (hlast : loc = .node → ∀ a b c : Int, m.faces.getLast? = some [a, b, c] → ∀ p q r : K × K,
      Np.pyGet m.nodes a = .ok p → Np.pyGet m.nodes b = .ok q → Np.pyGet m.nodes c = .ok r →
      ProperTriangle p q r) :
    ∃ vs, (act celltree eps (after celltree eps (new m) h) (.interpolate loc data pts copy memo)).2
        = .values (.ok (some vs)) ∧
      List.Forall₂ (fun q v => RightValue m loc data q.1 q.2 v) ((celltree m pts).zip pts) vs := by
  obtain ⟨vs, h1, h2⟩ := C34_fill_partial m loc data _ hm hl hf hloc hfin hlast
  refine ⟨vs, ?_, h2⟩
  obtain ⟨a, -⟩ := UWeights.values_faithful celltree eps (after_faithful celltree eps m h hh) loc data
    pts copy memo
  simp only [act, a, Out.values.injEq]
  cases loc with
  | boundary => exact absurd rfl hloc
  | face =>
    have hz : ∀ (is : List Int) (ps : List (K × K)), is.length = ps.length →
        DepthM.mapE (fun q : Int × (K × K) => interpFace data q.1) (is.zip ps)
          = DepthM.mapE (interpFace data) is := by
      intro is
      induction is with
      | nil => intro ps _; simp [DepthM.mapE]
      | cons i is ih =>
        intro ps hps
        cases ps with
        | nil => simp at hps
        | cons p ps =>
          simp only [List.zip_cons_cons, DepthM.mapE]
          rw [ih ps (by simpa using hps)]
    simp only [interpolate] at h1
    rw [hz _ _ hlen] at h1
    simp only [UWeights.plainValues]
    exact h1
  | node =>
    simp only [interpolate] at h1
    cases hr : DepthM.mapE (fun q : Int × (K × K) => interpNode m data q.1 q.2)
        ((celltree m pts).zip pts) with
    | error e => rw [hr] at h1; cases h1
    | ok vs' =>
      rw [hr] at h1
      cases h1
      obtain ⟨ws, cs, b1, b2, b3, b4, rfl⟩ := interpNode_all m data _ _ _ hlen hr
      have hw : UWeights.weighAll m (celltree m pts) pts = .ok ws := by
        simp only [UWeights.weighAll, UWeights.rows, hlen, if_true, b1]
        rw [if_pos (b3.trans hlen)]
      have hrow : UWeights.rows cs ws = .ok (cs.zip ws) := by
        simp only [UWeights.rows]
        rw [if_pos (b4.trans b3.symm)]
      simp only [UWeights.plainValues, hw, b2, hrow]

/-- Two triangles; points asked with different flags before, in the memory when asked again. -/
example : (∀ o ∈ ([.interpolate .node [some 0, some 1, some 1] [(1 / 4, 1 / 4)] false true,
      .weigh [(5, 5)] none true true, .locate [(1 / 4, 1 / 4)] .celltree true] : List (Op ℚ)),
      Usual o) ∧
    (after exampleTree 0 (new small)
      [.interpolate .node [some 0, some 1, some 1] [(1 / 4, 1 / 4)] false true,
       .weigh [(5, 5)] none true true, .locate [(1 / 4, 1 / 4)] .celltree true]).weights.length = 2 ∧
    (act exampleTree 0 (after exampleTree 0 (new small)
      [.interpolate .node [some 0, some 1, some 1] [(1 / 4, 1 / 4)] false true,
       .weigh [(5, 5)] none true true, .locate [(1 / 4, 1 / 4)] .celltree true])
      (.interpolate .node [some 0, some 1, some 1] [(1 / 4, 1 / 4)] true true)).2
      = .values (.ok (some [some (1 / 2)])) := by
  refine ⟨?_, ?_, ?_⟩
  · intro o ho
    simp only [List.mem_cons, List.not_mem_nil, or_false] at ho
    rcases ho with rfl | rfl | rfl <;> constructor
  · decide +kernel
  · decide +kernel

/-- One point inside and one outside, asked again after other calls. -/
example : ∃ vs, (act exampleTree 0 (after exampleTree 0 (new small)
      [.weigh [(5, 5)] none true true, .locate [(1 / 4, 1 / 4), (5, 5)] .celltree true])
      (.interpolate .node [some 0, some 1, some 1] [(1 / 4, 1 / 4), (5, 5)] true true)).2
      = .values (.ok (some vs)) ∧
    List.Forall₂ (fun q v => RightValue small .node [some 0, some 1, some 1] q.1 q.2 v)
      ((exampleTree small [(1 / 4, 1 / 4), (5, 5)]).zip [(1 / 4, 1 / 4), (5, 5)]) vs := by
  have he : exampleTree small [(1 / 4, 1 / 4), (5, 5)] = [0, -1] := by decide +kernel
  refine C189_values_partial exampleTree 0 small _ ?_ .node _ _ true true ?_ ⟨by simp [small], ?_⟩
    ?_ rfl (by simp) (by simp) ?_
  · intro o ho
    simp only [List.mem_cons, List.not_mem_nil, or_false] at ho
    rcases ho with rfl | rfl <;> constructor
  · rw [he]; rfl
  · intro f hf
    simp only [small, List.mem_cons, List.not_mem_nil, or_false] at hf
    subst hf
    exact ⟨0, 1, 2, rfl, by decide, by decide, by decide⟩
  · rw [he]
    intro q hq
    simp only [List.zip_cons_cons, List.zip_nil_left, List.mem_cons, List.not_mem_nil,
      or_false] at hq
    rcases hq with rfl | rfl
    · right; decide
    · left; rfl
  · intro _ a b c h p q r hp hq hr
    simp only [small, List.getLast?_singleton, Option.some.injEq, List.cons.injEq, and_true] at h
    obtain ⟨rfl, rfl, rfl⟩ := h
    have e1 : Np.pyGet small.nodes 0 = .ok ((0, 0) : ℚ × ℚ) := by decide +kernel
    have e2 : Np.pyGet small.nodes 1 = .ok ((1, 0) : ℚ × ℚ) := by decide +kernel
    have e3 : Np.pyGet small.nodes 2 = .ok ((0, 1) : ℚ × ℚ) := by decide +kernel
    rw [e1] at hp; rw [e2] at hq; rw [e3] at hr
    cases hp; cases hq; cases hr
    left; simp [TurnsLeft]

end C189

/-! ## C190 -/

section C190

/-- The full claim: asked for the weights in given faces, the grid gives those, whatever was asked
before; the mesh does not change. -/
def C190_statement : Prop :=
  ∀ (celltree : Mesh ℚ → List (ℚ × ℚ) → List Int) (m : Mesh ℚ) (h : List (Op ℚ))
    (pts : List (ℚ × ℚ)) (inds : List Int) (copy memo : Bool), (∀ o ∈ h, KeepsMesh o) →
    (act celltree 0 (after celltree 0 (new m) h) (.weigh pts (some inds) copy memo)).2
      = (act celltree 0 (new m) (.weigh pts (some inds) copy memo)).2

/-- A square of two triangles. -/
def twoTri : Mesh ℚ := ⟨[(0, 0), (1, 0), (0, 1), (1, 1)], [[0, 1, 2], [1, 3, 2]]⟩

/-- The weights of the first face are given for the second. -/
theorem C190_other_face :
    (act exampleTree 0 (after exampleTree 0 (new twoTri)
      [.weigh [(1 / 2, 1 / 4)] (some [0]) false true])
      (.weigh [(1 / 2, 1 / 4)] (some [1]) false true)).2
      = .weights (.ok [(some (1 / 4), some (1 / 2), some (1 / 4))]) ∧
    (act exampleTree 0 (new twoTri) (.weigh [(1 / 2, 1 / 4)] (some [1]) false true)).2
      = .weights (.ok [(some (3 / 4), some (-1 / 4), some (1 / 2))]) := by
  constructor <;> decide +kernel

/-- They are also used when values are interpolated at the same points later on: the values are then
neither those of the face of the point nor within the range of its corners. -/
theorem C190_spoils_values :
    (act exampleTree 0 (after exampleTree 0 (new twoTri)
      [.weigh [(1 / 4, 1 / 8)] (some [1]) false true])
      (.interpolate .node [some 0, some (-1), some 0, some 0] [(1 / 4, 1 / 8)] false true)).2
      = .values (.ok (some [some (5 / 8)])) ∧
    (act exampleTree 0 (new twoTri)
      (.interpolate .node [some 0, some (-1), some 0, some 0] [(1 / 4, 1 / 8)] false true)).2
      = .values (.ok (some [some (-1 / 4)])) := by
  constructor <;> decide +kernel

theorem C190_refuted : ¬ C190_statement := by
  intro h
  have h1 := h exampleTree twoTri [.weigh [(1 / 2, 1 / 4)] (some [0]) false true] [(1 / 2, 1 / 4)]
    [1] false true (by
      intro o ho m hm
      simp only [List.mem_cons, List.not_mem_nil, or_false] at ho
      subst ho
      cases hm)
  rw [C190_other_face.1, C190_other_face.2] at h1
  exact absurd h1 (by decide +kernel)

variable {K : Type} [Field K] [LinearOrder K] (celltree : Mesh K → List (K × K) → List Int)
  (eps : K)

theorem locate_mesh (g : Locate.Grid K) (pts : List (K × K)) (μ : Locate.Method) (memo : Bool) :
    (Locate.locate celltree eps g pts μ memo).1.mesh = g.mesh := by
  unfold Locate.locate
  cases (if memo then Cache.lookup g.memo pts else none) with
  | some r => rfl
  | none =>
    dsimp only
    cases Locate.fresh celltree eps (if μ = .celltree then g.tree.getD g.mesh else g.mesh) μ pts with
    | error e => dsimp only; split <;> rfl
    | ok r => cases memo <;> dsimp only <;> (try simp only [if_true, Bool.false_eq_true, if_false]) <;> split <;> rfl

theorem alphas_mesh (g : UWeights.Grid K) (pts : List (K × K)) (inds : Option (List Int))
    (copy memo : Bool) :
    (UWeights.interpolationAlphas celltree eps g pts inds copy memo).1.loc.mesh = g.loc.mesh := by
  unfold UWeights.interpolationAlphas
  cases (if memo then Cache.lookup g.weights pts else none) with
  | some r => rfl
  | none =>
    cases inds with
    | some is =>
      dsimp only
      cases UWeights.weighAll g.loc.mesh is pts with
      | error e => rfl
      | ok w => cases memo <;> rfl
    | none =>
      dsimp only
      have hl := locate_mesh celltree eps g.loc pts .celltree copy
      cases (Locate.locate celltree eps g.loc pts .celltree copy).2 with
      | error e => exact hl
      | ok is =>
        dsimp only
        cases UWeights.weighAll (Locate.locate celltree eps g.loc pts .celltree copy).1.mesh is pts with
        | error e => exact hl
        | ok w => cases memo <;> exact hl

theorem act_mesh (g : UWeights.Grid K) (o : Op K) :
    (act celltree eps g o).1.loc.mesh = meshNow g.loc.mesh [o] := by
  cases o with
  | setMesh m => rfl
  | locate pts μ memo => exact locate_mesh celltree eps g.loc pts μ memo
  | weigh pts inds copy memo => exact alphas_mesh celltree eps g pts inds copy memo
  | interpolate loc data pts copy memo =>
    have hl := locate_mesh celltree eps g.loc pts .celltree copy
    simp only [act, UWeights.interpolateVar, meshNow]
    cases (Locate.locate celltree eps g.loc pts .celltree copy).2 with
    | error e => exact hl
    | ok is =>
      cases loc with
      | face => exact hl
      | boundary => exact hl
      | node => exact (alphas_mesh celltree eps _ pts (some is) copy memo).trans hl

theorem after_mesh (h : List (Op K)) (g : UWeights.Grid K) :
    (after celltree eps g h).loc.mesh = meshNow g.loc.mesh h := by
  induction h generalizing g with
  | nil => rfl
  | cons o h ih =>
    have := ih (act celltree eps g o).1
    rw [act_mesh] at this
    simp only [after, List.foldl_cons] at this ⊢
    rw [this]
    cases o <;> rfl

/-- Asked not to use the memory, the grid gives the weights of the present mesh in the given faces,
over every history, changes of the mesh included. -/
theorem C190_memo_off_partial (m : Mesh K) (h : List (Op K)) (pts : List (K × K)) (inds : List Int)
    (copy : Bool) :
    (act celltree eps (after celltree eps (new m) h) (.weigh pts (some inds) copy false)).2
      = (act celltree eps (new (meshNow m h)) (.weigh pts (some inds) copy false)).2 := by
  have hm := after_mesh celltree eps h (new m)
  have hm' : (after celltree eps (new m) h).loc.mesh = (new (meshNow m h)).loc.mesh := hm
  simp only [act, UWeights.interpolationAlphas, Bool.false_eq_true, if_false, hm']
  cases UWeights.weighAll (new (meshNow m h)).loc.mesh inds pts <;> rfl

/-- A call that puts weights for the points into the memory. -/
def Remembers (pts : List (K × K)) : Op K → Prop
  | .weigh pts' _ _ memo => pts' = pts ∧ memo = true
  | .interpolate loc _ pts' _ memo => pts' = pts ∧ memo = true ∧ loc = .node
  | _ => False

theorem alphas_keys (g : UWeights.Grid K) (pts : List (K × K)) (inds : Option (List Int))
    (copy memo : Bool) :
    ∀ p ∈ (UWeights.interpolationAlphas celltree eps g pts inds copy memo).1.weights,
      p ∈ g.weights ∨ (p.1 = pts ∧ memo = true) := by
  unfold UWeights.interpolationAlphas
  cases (if memo then Cache.lookup g.weights pts else none) with
  | some r => exact fun p hp => Or.inl hp
  | none =>
    have fin : ∀ (l : Locate.Grid K) (r : Except Err (List (UWeights.W K))) (p : _),
        p ∈ (match r with
          | .error e => (({ g with loc := l } : UWeights.Grid K), Except.error e)
          | .ok w => (if memo then { loc := l, weights := Cache.store .ugrid g.weights pts w }
              else { g with loc := l }, .ok w)).1.weights →
        p ∈ g.weights ∨ (p.1 = pts ∧ memo = true) := by
      intro l r p hp
      cases r with
      | error e => exact Or.inl hp
      | ok w =>
        cases memo with
        | false => exact Or.inl hp
        | true =>
          rcases Cache.mem_store .ugrid g.weights pts w p hp with hp | rfl
          · exact Or.inl hp
          · exact Or.inr ⟨rfl, rfl⟩
    cases inds with
    | some is => exact fun p hp => fin _ _ p hp
    | none =>
      dsimp only
      cases (Locate.locate celltree eps g.loc pts .celltree copy).2 with
      | error e => exact fun p hp => Or.inl hp
      | ok is => exact fun p hp => fin _ _ p hp

theorem act_keys (g : UWeights.Grid K) (o : Op K) :
    ∀ p ∈ (act celltree eps g o).1.weights, p ∈ g.weights ∨ Remembers p.1 o := by
  cases o with
  | setMesh m => exact fun p hp => Or.inl hp
  | locate pts μ memo => exact fun p hp => Or.inl hp
  | weigh pts inds copy memo =>
    intro p hp
    rcases alphas_keys celltree eps g pts inds copy memo p hp with h | ⟨h1, h2⟩
    · exact Or.inl h
    · exact Or.inr ⟨h1.symm, h2⟩
  | interpolate loc data pts copy memo =>
    intro p hp
    simp only [act, UWeights.interpolateVar] at hp
    cases hr : (Locate.locate celltree eps g.loc pts .celltree copy).2 with
    | error e => rw [hr] at hp; exact Or.inl hp
    | ok is =>
      rw [hr] at hp
      cases loc with
      | face => exact Or.inl hp
      | boundary => exact Or.inl hp
      | node =>
        rcases alphas_keys celltree eps _ pts (some is) copy memo p hp with h | ⟨h1, h2⟩
        · exact Or.inl h
        · exact Or.inr ⟨h1.symm, h2, rfl⟩

/-- The claim holds, also after changes of the mesh, for points whose weights were not put into the
memory before. -/
theorem C190_new_points_partial (m : Mesh K) (h : List (Op K)) (pts : List (K × K))
    (inds : List Int) (copy memo : Bool) (hh : ∀ o ∈ h, ¬ Remembers pts o) :
    (act celltree eps (after celltree eps (new m) h) (.weigh pts (some inds) copy memo)).2
      = (act celltree eps (new (meshNow m h)) (.weigh pts (some inds) copy memo)).2 := by
  have hk : ∀ p ∈ (after celltree eps (new m) h).weights, p.1 ≠ pts := by
    clear copy memo inds
    induction h using List.reverseRecOn with
    | nil => intro p hp; simp [after, new] at hp
    | append_singleton h o ih =>
      intro p hp hpe
      simp only [after, List.foldl_append, List.foldl_cons, List.foldl_nil] at hp
      rcases act_keys celltree eps _ o p hp with h1 | h1
      · exact ih (fun o' ho' => hh o' (by simp [ho'])) p h1 hpe
      · rw [hpe] at h1
        exact hh o (by simp) h1
  have hL : (if memo then Cache.lookup (after celltree eps (new m) h).weights pts else none)
      = none := by
    cases memo with
    | false => rfl
    | true =>
      simp only [if_true]
      cases hl : Cache.lookup (after celltree eps (new m) h).weights pts with
      | none => rfl
      | some r => exact absurd rfl (hk _ (Cache.lookup_mem hl))
  have hL' : (if memo then Cache.lookup (new (meshNow m h)).weights pts else none)
      = (none : Option (List (UWeights.W K))) := by
    cases memo <;> rfl
  have hm' : (after celltree eps (new m) h).loc.mesh = (new (meshNow m h)).loc.mesh :=
    after_mesh celltree eps h (new m)
  simp only [act, UWeights.interpolationAlphas, hL, hL', hm']
  cases UWeights.weighAll (new (meshNow m h)).loc.mesh inds pts <;> rfl

/-- What a grid just made gives for a point in a proper triangle: the weights that reproduce the
point. -/
theorem C190_weights [IsStrictOrderedRing K] (m : Mesh K) (pt : K × K) (ind a b c : Int)
    (p q r : K × K) (copy memo : Bool) (hi : ind ≠ -1) (hf : Np.pyGet m.faces ind = .ok [a, b, c])
    (ha : Np.pyGet m.nodes a = .ok p) (hb : Np.pyGet m.nodes b = .ok q)
    (hc : Np.pyGet m.nodes c = .ok r) (ht : ProperTriangle p q r) :
    ∃ x y z, (act celltree eps (new m) (.weigh [pt] (some [ind]) copy memo)).2
        = .weights (.ok [(some x, some y, some z)]) ∧ Weighted p q r pt x y z := by
  obtain ⟨x, y, z, h1, h2, -⟩ := C31_weights ht pt ind hi
  refine ⟨x, y, z, ?_, h2⟩
  have hw : UWeights.weighAll m [ind] [pt] = .ok [(some x, some y, some z)] := by
    simp [UWeights.weighAll, UWeights.rows, DepthM.mapE, UWeights.weigh, hf, ha, hb, hc, h1]
  have hL' : (if memo then Cache.lookup (new m).weights [pt] else none)
      = (none : Option (List (UWeights.W K))) := by
    cases memo <;> rfl
  simp only [act, UWeights.interpolationAlphas, hL']
  have : (new m).loc.mesh = m := rfl
  simp only [this, hw]

/-- What a grid just made gives for one point in one face. -/
def OneWeight (m : Mesh K) (ind : Int) (pt : K × K) (w : UWeights.W K) : Prop :=
  (act celltree eps (new m) (.weigh [pt] (some [ind]) false false)).2 = .weights (.ok [w])

theorem oneWeight_iff (m : Mesh K) (ind : Int) (pt : K × K) (w : UWeights.W K) :
    OneWeight celltree eps m ind pt w ↔ UWeights.weigh m ind pt = .ok w := by
  have hm : (new m).loc.mesh = m := rfl
  simp only [OneWeight, act, UWeights.interpolationAlphas, Bool.false_eq_true, if_false, hm,
    UWeights.weighAll, UWeights.rows, List.length_cons, List.length_nil, if_true,
    List.zip_cons_cons, List.zip_nil_left, DepthM.mapE]
  cases UWeights.weigh m ind pt with
  | error e => simp
  | ok w' => simp

theorem weighAll_of_rows (m : Mesh K) (inds : List Int) (pts : List (K × K))
    (l : List (Int × (K × K))) (hr : UWeights.rows inds pts = .ok l) (hl : l.length = inds.length)
    (ws : List (UWeights.W K))
    (h : List.Forall₂ (fun q w => OneWeight celltree eps m q.1 q.2 w) l ws) :
    UWeights.weighAll m inds pts = .ok ws := by
  have hlen := h.length_eq
  have hm : DepthM.mapE (fun q : Int × (K × K) => UWeights.weigh m q.1 q.2) l = .ok ws := by
    clear hr hl hlen
    induction h with
    | nil => rfl
    | cons hq _ ih =>
      simp only [DepthM.mapE, (oneWeight_iff celltree eps m _ _ _).mp hq, ih]
  simp only [UWeights.weighAll, hr, hm]
  rw [if_pos (hlen.symm.trans hl)]

theorem weigh_new (m : Mesh K) (inds : List Int) (pts : List (K × K)) (copy memo : Bool) :
    (act celltree eps (new m) (.weigh pts (some inds) copy memo)).2
      = .weights (UWeights.weighAll m inds pts) := by
  have hL' : (if memo then Cache.lookup (new m).weights pts else none)
      = (none : Option (List (UWeights.W K))) := by
    cases memo <;> rfl
  have hm : (new m).loc.mesh = m := rfl
  simp only [act, UWeights.interpolationAlphas, hL', hm]
  cases UWeights.weighAll m inds pts <;> rfl

/-- Several points, each with its face: each gets its own weights. -/
theorem C190_each_point (m : Mesh K) (inds : List Int) (pts : List (K × K)) (copy memo : Bool)
    (ws : List (UWeights.W K)) (hl : inds.length = pts.length)
    (h : List.Forall₂ (fun q w => OneWeight celltree eps m q.1 q.2 w) (inds.zip pts) ws) :
    (act celltree eps (new m) (.weigh pts (some inds) copy memo)).2 = .weights (.ok ws) := by
  rw [weigh_new, weighAll_of_rows celltree eps m inds pts (inds.zip pts)
    (by simp only [UWeights.rows]; rw [if_pos hl]) (by simp [hl]) ws h]

/-- One point and several faces: its weights in each. -/
theorem C190_one_point (m : Mesh K) (inds : List Int) (pt : K × K) (copy memo : Bool)
    (ws : List (UWeights.W K))
    (h : List.Forall₂ (fun i w => OneWeight celltree eps m i pt w) inds ws) :
    (act celltree eps (new m) (.weigh [pt] (some inds) copy memo)).2 = .weights (.ok ws) := by
  have hr : UWeights.rows inds [pt] = .ok (inds.map fun i => (i, pt)) := by
    match inds with
    | [] => rfl
    | [i] => rfl
    | i :: j :: l => simp [UWeights.rows]
  rw [weigh_new, weighAll_of_rows celltree eps m inds [pt] _ hr (by simp) ws (by simpa using h)]

/-- Several points and another number of faces: refused. -/
theorem C190_counts (m : Mesh K) (inds : List Int) (pts : List (K × K)) (copy memo : Bool)
    (h1 : pts.length ≠ 1) (h2 : inds.length ≠ pts.length) :
    ∃ e, (act celltree eps (new m) (.weigh pts (some inds) copy memo)).2 = .weights (.error e) := by
  rw [weigh_new]
  unfold UWeights.weighAll
  cases hr : UWeights.rows inds pts with
  | error e => exact ⟨e, rfl⟩
  | ok l =>
    have hl : l.length = pts.length := by
      unfold UWeights.rows at hr
      rw [if_neg h2] at hr
      split at hr
      · cases hr; simp
      · simp at h1
      · cases hr
    dsimp only
    cases hm : DepthM.mapE (fun q : Int × (K × K) => UWeights.weigh m q.1 q.2) l with
    | error e => exact ⟨e, rfl⟩
    | ok ws =>
      have hw : ∀ (l : List (Int × (K × K))) (ws : List (UWeights.W K)),
          DepthM.mapE (fun q : Int × (K × K) => UWeights.weigh m q.1 q.2) l = .ok ws →
          ws.length = l.length := by
        intro l
        induction l with
        | nil => intro ws h; cases h; rfl
        | cons q l ih =>
          intro ws h
          simp only [DepthM.mapE] at h
          split at h
          · cases h
          · split at h
            · cases h
            · rename_i bs hbs
              cases h
              simp [ih bs hbs]
      refine ⟨.indexError, ?_⟩
      dsimp only
      rw [if_neg (by rw [hw l ws hm, hl]; exact Ne.symm h2)]

example : List.Forall₂ (fun i w => OneWeight exampleTree 0 twoTri i (1 / 2, 1 / 4) w) [0, 1]
    [(some (1 / 4), some (1 / 2), some (1 / 4)), (some (3 / 4), some (-1 / 4), some (1 / 2))] := by
  refine .cons ?_ (.cons ?_ .nil) <;> (unfold OneWeight; decide +kernel)

example : (∀ o ∈ ([.weigh [(1 / 2, 1 / 4)] (some [0]) false true, .setMesh large] : List (Op ℚ)),
    ¬ Remembers [(1 / 4, 1 / 8)] o) ∧
    (act exampleTree 0 (after exampleTree 0 (new twoTri)
      [.weigh [(1 / 2, 1 / 4)] (some [0]) false true, .setMesh large])
      (.weigh [(1 / 4, 1 / 8)] (some [0]) false true)).2
      = .weights (.ok [(some (13 / 16), some (1 / 8), some (1 / 16))]) := by
  constructor
  · intro o ho
    simp only [List.mem_cons, List.not_mem_nil, or_false] at ho
    rcases ho with rfl | rfl
    · rintro ⟨h, -⟩
      exact absurd h (by decide +kernel)
    · exact fun h => h
  · decide +kernel

end C190

/-! ## C191 -/

section C191

/-- A query that asks not to be remembered (`_memo=False`). -/
inductive NotToRemember {K : Type} : Op K → Prop
  | locate (pts : List (K × K)) (μ : Locate.Method) : NotToRemember (.locate pts μ false)
  | weigh (pts : List (K × K)) (inds : Option (List Int)) (copy : Bool) :
      NotToRemember (.weigh pts inds copy false)
  | interpolate (loc : Loc) (data : List (Option K)) (pts : List (K × K)) (copy : Bool) :
      NotToRemember (.interpolate loc data pts copy false)

/-- The full claim: such a query, put anywhere into a history without changes of the mesh, changes
no later answer. -/
def C191_statement : Prop :=
  ∀ (celltree : Mesh ℚ → List (ℚ × ℚ) → List Int) (m : Mesh ℚ) (h₁ h₂ : List (Op ℚ)) (o last : Op ℚ),
    NotToRemember o → (∀ o' ∈ h₁, KeepsMesh o') → (∀ o' ∈ h₂, KeepsMesh o') →
    (act celltree 0 (after celltree 0 (new m) (h₁ ++ o :: h₂)) last).2
      = (act celltree 0 (after celltree 0 (new m) (h₁ ++ h₂)) last).2

/-- Interpolating with `_copy=True, _memo=False` puts the faces into the memory: the same points are
then located by a method that does not exist. -/
theorem C191_flags_swapped :
    (act exampleTree 0 (after exampleTree 0 (new small)
      [.interpolate .face [some 3] [(1 / 4, 1 / 4)] true false])
      (.locate [(1 / 4, 1 / 4)] .other true)).2 = .faces (.ok [0]) ∧
    (act exampleTree 0 (new small) (.locate [(1 / 4, 1 / 4)] .other true)).2
      = .faces (.error .valueError) := by
  constructor <;> decide +kernel

theorem C191_refuted : ¬ C191_statement := by
  intro h
  have h1 := h exampleTree small [] [] (.interpolate .face [some 3] [(1 / 4, 1 / 4)] true false)
    (.locate [(1 / 4, 1 / 4)] .other true) (.interpolate _ _ _ _) (by simp) (by simp)
  have h2 := C191_flags_swapped
  have h3 : after exampleTree 0 (new small) ([] ++ []) = new small := rfl
  rw [h3, h2.2] at h1
  have h4 := h2.1.symm.trans h1
  exact absurd h4 (by decide +kernel)

variable {K : Type} [Field K] [LinearOrder K] (celltree : Mesh K → List (K × K) → List Int)
  (eps : K)

/-- The query asks for no copies either, or is one that locates by itself. -/
def NoCopy : Op K → Prop
  | .setMesh _ => False
  | .locate .. => True
  | .weigh _ inds copy _ => copy = false ∨ inds ≠ none
  | .interpolate _ _ _ copy _ => copy = false

theorem act_alike {g g' : UWeights.Grid K} (h : UWeights.Alike g g') (o : Op K) (ho : KeepsMesh o) :
    (act celltree eps g' o).2 = (act celltree eps g o).2 ∧
      UWeights.Alike (act celltree eps g o).1 (act celltree eps g' o).1 := by
  cases o with
  | setMesh m => exact absurd rfl (ho m)
  | locate pts μ memo =>
    obtain ⟨a, b, c, d⟩ := UWeights.locate_alike celltree eps h.mesh h.tree h.memo pts μ memo
    exact ⟨by simp only [act, a], b, c, d, h.weights⟩
  | weigh pts inds copy memo =>
    obtain ⟨a, b⟩ := UWeights.alphas_alike celltree eps h pts inds copy memo
    exact ⟨by simp only [act, a], b⟩
  | interpolate loc data pts copy memo =>
    obtain ⟨a, b⟩ := UWeights.values_alike celltree eps h loc data pts copy memo
    exact ⟨by simp only [act, a], b⟩

theorem after_alike : ∀ (h : List (Op K)) {g g' : UWeights.Grid K}, UWeights.Alike g g' →
    (∀ o ∈ h, KeepsMesh o) → UWeights.Alike (after celltree eps g h) (after celltree eps g' h)
  | [], _, _, ha, _ => ha
  | o :: h, g, g', ha, hh =>
    after_alike h (act_alike celltree eps ha o (hh o (by simp))).2 fun o' ho' => hh o' (by simp [ho'])

theorem locate_off (g : Locate.Grid K) (pts : List (K × K)) (μ : Locate.Method) :
    (Locate.locate celltree eps g pts μ false).1.mesh = g.mesh ∧
    (Locate.locate celltree eps g pts μ false).1.tree.getD
        (Locate.locate celltree eps g pts μ false).1.mesh = g.tree.getD g.mesh ∧
    (Locate.locate celltree eps g pts μ false).1.memo = g.memo := by
  unfold Locate.locate
  simp only [Bool.false_eq_true, if_false]
  by_cases hμ : μ = .celltree
  · simp [hμ, Locate.fresh]
  · simp only [hμ, if_false]
    cases Locate.fresh celltree eps g.mesh μ pts <;> exact ⟨rfl, rfl, rfl⟩

theorem alphas_off (g : UWeights.Grid K) (pts : List (K × K)) (inds : Option (List Int))
    (copy : Bool) (hc : copy = false ∨ inds ≠ none) :
    UWeights.Alike g (UWeights.interpolationAlphas celltree eps g pts inds copy false).1 := by
  unfold UWeights.interpolationAlphas
  simp only [Bool.false_eq_true, if_false]
  cases inds with
  | some is =>
    dsimp only
    cases UWeights.weighAll g.loc.mesh is pts <;> exact ⟨rfl, rfl, rfl, rfl⟩
  | none =>
    obtain rfl : copy = false := by simpa using hc
    obtain ⟨a, b, c⟩ := locate_off celltree eps g.loc pts .celltree
    dsimp only
    cases (Locate.locate celltree eps g.loc pts .celltree false).2 with
    | error e => exact ⟨a, b, c, rfl⟩
    | ok is =>
      dsimp only
      cases UWeights.weighAll (Locate.locate celltree eps g.loc pts .celltree false).1.mesh is pts <;>
        exact ⟨a, b, c, rfl⟩

theorem act_off (g : UWeights.Grid K) (o : Op K) (ho : NotToRemember o) (hc : NoCopy o) :
    UWeights.Alike g (act celltree eps g o).1 := by
  cases ho with
  | locate pts μ =>
    obtain ⟨a, b, c⟩ := locate_off celltree eps g.loc pts μ
    exact ⟨a, b, c, rfl⟩
  | weigh pts inds copy => exact alphas_off celltree eps g pts inds copy hc
  | interpolate loc data pts copy =>
    have hc' : copy = false := hc
    subst hc'
    obtain ⟨a, b, c⟩ := locate_off celltree eps g.loc pts .celltree
    simp only [act, UWeights.interpolateVar]
    cases (Locate.locate celltree eps g.loc pts .celltree false).2 with
    | error e => exact ⟨a, b, c, rfl⟩
    | ok is =>
      cases loc with
      | face => exact ⟨a, b, c, rfl⟩
      | boundary => exact ⟨a, b, c, rfl⟩
      | node =>
        have h := alphas_off celltree eps
          { g with loc := (Locate.locate celltree eps g.loc pts .celltree false).1 } pts (some is)
          false (Or.inl rfl)
        exact ⟨h.mesh.trans a, h.tree.trans b, h.memo.trans c, h.weights⟩

/-- The claim holds for queries that do not ask for copies, after any history: later answers, until
the mesh is changed, are those without the query. -/
theorem C191_no_copy_partial (m : Mesh K) (h₁ h₂ : List (Op K)) (o last : Op K)
    (ho : NotToRemember o) (hc : NoCopy o) (hh : ∀ o' ∈ h₂, KeepsMesh o') (hl : KeepsMesh last) :
    (act celltree eps (after celltree eps (new m) (h₁ ++ o :: h₂)) last).2
      = (act celltree eps (after celltree eps (new m) (h₁ ++ h₂)) last).2 := by
  have h1 : UWeights.Alike (after celltree eps (new m) (h₁ ++ h₂))
      (after celltree eps (new m) (h₁ ++ o :: h₂)) := by
    simp only [after, List.foldl_append, List.foldl_cons]
    exact after_alike celltree eps h₂ (act_off celltree eps _ o ho hc) hh
  exact (act_alike celltree eps h1 last hl).1

example : NotToRemember (.interpolate .node [some 0, some 1, some 1] [(1 / 4, 1 / 4)] false false :
      Op ℚ) ∧
    NoCopy (.interpolate .node [some 0, some 1, some 1] [(1 / 4, 1 / 4)] false false : Op ℚ) ∧
    (act exampleTree 0 (after exampleTree 0 (new twoTri)
      ([.setMesh small] ++ .interpolate .node [some 0, some 1, some 1] [(1 / 4, 1 / 4)] false false ::
        [.weigh [(1 / 4, 1 / 4)] (some [0]) false true]))
      (.locate [(1 / 4, 1 / 4)] .other true)).2 = .faces (.error .valueError) := by
  refine ⟨.interpolate _ _ _ _, rfl, ?_⟩
  decide +kernel

end C191

/-! ## C192 -/

section C192

/-- The full claim: on either kind of grid, `index_of` gives what `locate_faces` gives. -/
def C192_statement : Prop :=
  ∀ found : Except Err (List Int), UWeights.ugridIndexOf found = found ∧
    UWeights.sgridIndexOf found = found

/-- On an unstructured grid it always raises. -/
theorem C192_always_raises {α : Type} (found : Except Err α) :
    UWeights.ugridIndexOf found = .error .typeError := rfl

theorem C192_refuted : ¬ C192_statement := by
  intro h
  have h1 := (h (.ok [0])).1
  rw [C192_always_raises] at h1
  cases h1

/-- On a structured grid it does. -/
theorem C192_structured_partial {α : Type} (found : Except Err α) :
    UWeights.sgridIndexOf found = found := rfl

end C192

/-! ## C193 -/

section C193

/-- Where data with `n` values in their last dimension belong, nodes before faces before
boundaries. -/
inductive Belongs (s : UWeights.Sizes) (n : Nat) : Loc → Prop
  | node : s.nodes = n → Belongs s n .node
  | face : s.nodes ≠ n → s.faces = some n → Belongs s n .face
  | boundary : s.nodes ≠ n → s.faces ≠ some n → s.boundaries = some n → Belongs s n .boundary

/-- The full claim: data without a location, of a size that fits, are taken to be where they fit,
on every grid they are used with, and are not altered. -/
def C193_statement : Prop :=
  ∀ (s : UWeights.Sizes) (h : UWeights.Holder) (n : Nat) (l : Loc),
    (h = .plain ∨ h = .open' none) → Belongs s n l →
    UWeights.settle s h (some n) none = (h, .ok l)

/-- Plain arrays are refused, whatever their size and whatever the grid. -/
theorem C193_plain_refused (s : UWeights.Sizes) (size : Option Nat) :
    (UWeights.settle s .plain size none).2 = .error .attributeError := rfl

theorem C193_refuted : ¬ C193_statement := by
  intro h
  have h1 := h ⟨3, some 1, none⟩ .plain 3 .node (Or.inl rfl) (.node rfl)
  have h2 : (UWeights.settle ⟨3, some 1, none⟩ .plain (some 3) none).2 = .ok .node := by rw [h1]
  rw [C193_plain_refused] at h2
  cases h2

theorem infer_belongs {s : UWeights.Sizes} {n : Nat} {l : Loc} (h : Belongs s n l) :
    UWeights.inferLocation s (some n) = some l := by
  unfold UWeights.inferLocation
  dsimp only
  cases h with
  | node h => rw [if_pos h.symm]
  | face h1 h2 => rw [if_neg (Ne.symm h1), if_pos h2]
  | boundary h1 h2 h3 => rw [if_neg (Ne.symm h1), if_neg h2, if_pos h3]

/-- Other data are placed where they fit; the place is written onto them. -/
theorem C193_placed_partial (s : UWeights.Sizes) (n : Nat) (l : Loc) (h : Belongs s n l) :
    UWeights.settle s (.open' none) (some n) none = (.open' (some (some l)), .ok l) := by
  simp only [UWeights.settle, infer_belongs h]

/-- Data that fit nowhere are refused. -/
theorem C193_fits_nowhere (s : UWeights.Sizes) (n : Nat) (h : ∀ l, ¬ Belongs s n l) :
    (UWeights.settle s (.open' none) (some n) none).2 = .error .valueError := by
  have h1 : s.nodes ≠ n := fun e => h .node (.node e)
  have h2 : s.faces ≠ some n := fun e => h .face (.face h1 e)
  have h3 : s.boundaries ≠ some n := fun e => h .boundary (.boundary h1 h2 e)
  have : UWeights.inferLocation s (some n) = none := by
    unfold UWeights.inferLocation
    dsimp only
    rw [if_neg (Ne.symm h1), if_neg h2, if_neg h3]
  simp only [UWeights.settle, this]

/-- Once placed, they stay there: with another grid, of any sizes, and even if the caller now says
where they are. -/
theorem C193_sticks (s s' : UWeights.Sizes) (n : Nat) (l : Loc) (h : Belongs s n l)
    (given : Option Loc) :
    UWeights.settle s' (UWeights.settle s (.open' none) (some n) none).1 (some n) given
      = (.open' (some (some l)), .ok l) := by
  rw [C193_placed_partial s n l h]
  rfl

/-- A location given with data that have none is used as it is, and the data stay as they are. -/
theorem C193_given (s : UWeights.Sizes) (h : UWeights.Holder) (size : Option Nat) (l : Loc)
    (hh : h = .plain ∨ h = .open' none) : UWeights.settle s h size (some l) = (h, .ok l) := by
  rcases hh with rfl | rfl <;> rfl

example : Belongs ⟨3, some 1, some 5⟩ 1 .face ∧ Belongs ⟨3, some 1, some 5⟩ 5 .boundary ∧
    ∀ l, ¬ Belongs ⟨3, some 1, some 5⟩ 4 l := by
  refine ⟨.face (by decide) rfl, .boundary (by decide) (by decide) rfl, ?_⟩
  intro l h
  cases h with
  | node h => exact absurd h (by decide)
  | face _ h => exact absurd h (by decide)
  | boundary _ _ h => exact absurd h (by decide)

/-- Values at three nodes of one grid are, on a grid with three faces, still taken to be at nodes. -/
example : UWeights.settle ⟨5, some 3, none⟩ (UWeights.settle ⟨3, some 1, none⟩ (.open' none) (some 3)
    none).1 (some 3) (some .face) = (.open' (some (some .node)), .ok .node) :=
  C193_sticks _ _ _ _ (.node rfl) _

end C193

end Verif
