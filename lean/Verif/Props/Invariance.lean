import Verif.Lemmas.Family
import Verif.Props.At
import Mathlib.Data.List.Permutation
import Mathlib.Analysis.SpecialFunctions.Sqrt

/-!
# C150-C152: what a result does not depend on
-/

set_option autoImplicit false

namespace Verif
open Verif.At Verif.DepthM Verif.Spec Verif.TimeM

/-! ## C150 -/

section C150
open Verif.UGeom
variable {K : Type} [Field K] [LinearOrder K]

/-- The value of three corners with their values, order of corners as in the face. -/
private def tri (i : Int) (p q r pt : K × K) (u v w : Option K) : Option K :=
  let z := fun x : Option K => if i = -1 then fmul x (some 0) else x
  fadd (fadd (fmul (z u) (alphas i p q r pt).1) (fmul (z v) (alphas i p q r pt).2.1))
    (fmul (z w) (alphas i p q r pt).2.2)

private theorem fdiv_neg (x d : K) : fdiv (-x) (-d) = fdiv x d := by
  unfold fdiv
  simp only [neg_eq_zero, neg_div_neg_eq]

private theorem fadd_comm (x y : Option K) : fadd x y = fadd y x := by
  rcases x with _ | x <;> rcases y with _ | y <;> simp only [fadd]
  rw [add_comm]

private theorem fadd_assoc (x y z : Option K) : fadd (fadd x y) z = fadd x (fadd y z) := by
  rcases x with _ | x <;> rcases y with _ | y <;> rcases z with _ | z <;> simp only [fadd]
  rw [add_assoc]

private theorem alphas_swap12 (i : Int) (p q r pt : K × K) :
    alphas i q p r pt = ((alphas i p q r pt).2.1, (alphas i p q r pt).1, (alphas i p q r pt).2.2) := by
  have hd : denom q p r = -denom p q r := by unfold denom; ring
  have h1 : num1 q p r pt = -num2 p q r pt := by unfold num1 num2; ring
  have h2 : num2 q p r pt = -num1 p q r pt := by unfold num1 num2; ring
  have h3 : num3 q p r pt = -num3 p q r pt := by unfold num3; ring
  unfold alphas
  simp only [hd, h1, h2, h3, fdiv_neg]
  split <;> rfl

private theorem alphas_swap23 (i : Int) (p q r pt : K × K) :
    alphas i p r q pt = ((alphas i p q r pt).1, (alphas i p q r pt).2.2, (alphas i p q r pt).2.1) := by
  have hd : denom p r q = -denom p q r := by unfold denom; ring
  have h1 : num1 p r q pt = -num1 p q r pt := by unfold num1; ring
  have h2 : num2 p r q pt = -num3 p q r pt := by unfold num2 num3; ring
  have h3 : num3 p r q pt = -num2 p q r pt := by unfold num2 num3; ring
  unfold alphas
  simp only [hd, h1, h2, h3, fdiv_neg]
  split <;> rfl

private theorem tri_swap12 (i : Int) (p q r pt : K × K) (u v w : Option K) :
    tri i q p r pt v u w = tri i p q r pt u v w := by
  unfold tri
  rw [alphas_swap12]
  simp only
  rw [fadd_comm (fmul _ _) (fmul _ _)]

private theorem tri_swap23 (i : Int) (p q r pt : K × K) (u v w : Option K) :
    tri i p r q pt u w v = tri i p q r pt u v w := by
  unfold tri
  rw [alphas_swap23]
  simp only
  rw [fadd_assoc, fadd_comm (fmul _ _) (fmul (if i = -1 then fmul v (some 0) else v) _), ← fadd_assoc]

private theorem alphas_located (i j : Int) (hi : i ≠ -1) (hj : j ≠ -1) (p q r pt : K × K) :
    alphas i p q r pt = alphas j p q r pt := by
  unfold alphas
  simp only [hi, hj, if_false]

private theorem tri_located (i j : Int) (hi : i ≠ -1) (hj : j ≠ -1) (p q r pt : K × K)
    (u v w : Option K) : tri i p q r pt u v w = tri j p q r pt u v w := by
  unfold tri
  rw [alphas_located i j hi hj]
  simp only [hi, hj, if_false]

/-- The mesh `m'` is `m` with the nodes and faces numbered differently, and the corners of each face
listed in any order: node `n` becomes `ν n`, face `k` becomes `φ k`. -/
structure Relabels (m m' : Mesh K) (ν : Int → Int) (φ : Nat → Nat) : Prop where
  node : ∀ l ∈ m.faces, ∀ n ∈ l, Np.pyGet m'.nodes (ν n) = Np.pyGet m.nodes n
  face : ∀ k l, m.faces[k]? = some l → ∃ l', m'.faces[φ k]? = some l' ∧ l'.Perm (l.map ν)

/-- The data renumbered alike. -/
def DataRelabels (m : Mesh K) (ν : Int → Int) (φ : Nat → Nat) (loc : Loc) (s s' : List (Option K)) :
    Prop :=
  match loc with
  | .node => ∀ l ∈ m.faces, ∀ n ∈ l, Np.pyGet s' (ν n) = Np.pyGet s n
  | .face => ∀ k, k < m.faces.length → s'[φ k]? = s[k]?
  | .boundary => True

private theorem pyGet_nat' {γ : Type} (l : List γ) (k : Nat) :
    Np.pyGet l (k : Int) = match l[k]? with
      | some x => .ok x
      | none => .error .indexError := by
  unfold Np.pyGet
  rw [if_pos (Int.natCast_nonneg k), Int.toNat_natCast]
  cases l[k]? <;> rfl

/-- What `interpNode` makes of a face with corners `l`. -/
private def faceValue (m : Mesh K) (data : List (Option K)) (i : Int) (pt : K × K) :
    List Int → Except Err (Option K)
  | [a, b, c] => match Np.pyGet m.nodes a, Np.pyGet m.nodes b, Np.pyGet m.nodes c with
    | .ok p, .ok q, .ok r => match Np.pyGet data a, Np.pyGet data b, Np.pyGet data c with
      | .ok u, .ok v, .ok w => .ok (tri i p q r pt u v w)
      | _, _, _ => .error .indexError
    | _, _, _ => .error .indexError
  | _ => .error .valueError

private theorem interpNode_face (m : Mesh K) (data : List (Option K)) (k : Nat) (l : List Int)
    (h : m.faces[k]? = some l) (pt : K × K) :
    interpNode m data (k : Int) pt = faceValue m data (k : Int) pt l := by
  unfold interpNode
  rw [pyGet_nat', h]
  simp only
  rcases l with _ | ⟨a, _ | ⟨b, _ | ⟨c, _ | ⟨d, l⟩⟩⟩⟩ <;> rfl

private theorem faceValue_swap12 (m : Mesh K) (data : List (Option K)) (i : Int) (pt : K × K)
    (a b c : Int) : faceValue m data i pt [b, a, c] = faceValue m data i pt [a, b, c] := by
  simp only [faceValue]
  rcases Np.pyGet m.nodes a with _ | p <;> rcases Np.pyGet m.nodes b with _ | q <;>
    rcases Np.pyGet m.nodes c with _ | r <;> rcases Np.pyGet data a with _ | u <;>
    rcases Np.pyGet data b with _ | v <;> rcases Np.pyGet data c with _ | w <;> try rfl
  simp only [tri_swap12 i p q r pt u v w]

private theorem faceValue_swap23 (m : Mesh K) (data : List (Option K)) (i : Int) (pt : K × K)
    (a b c : Int) : faceValue m data i pt [a, c, b] = faceValue m data i pt [a, b, c] := by
  simp only [faceValue]
  rcases Np.pyGet m.nodes a with _ | p <;> rcases Np.pyGet m.nodes b with _ | q <;>
    rcases Np.pyGet m.nodes c with _ | r <;> rcases Np.pyGet data a with _ | u <;>
    rcases Np.pyGet data b with _ | v <;> rcases Np.pyGet data c with _ | w <;> try rfl
  simp only [tri_swap23 i p q r pt u v w]

private theorem faceValue_perm (m : Mesh K) (data : List (Option K)) (i : Int) (pt : K × K)
    {l l' : List Int} (h : l'.Perm l) : faceValue m data i pt l' = faceValue m data i pt l := by
  rcases l with _ | ⟨a, _ | ⟨b, _ | ⟨c, _ | ⟨d, l⟩⟩⟩⟩
  · rw [h.eq_nil]
  · rw [List.perm_singleton.mp h]
  · have := h.length_eq
    rcases l' with _ | ⟨x, _ | ⟨y, _ | ⟨z, l'⟩⟩⟩ <;> simp at this
    rfl
  · have hm := List.mem_permutations.mpr h
    have e : [a, b, c].permutations = [[a, b, c], [b, a, c], [c, b, a], [b, c, a], [c, a, b], [a, c, b]] := by
      simp [List.permutations, List.permutationsAux, List.permutationsAux.rec]
    rw [e] at hm
    simp only [List.mem_cons, List.not_mem_nil, or_false] at hm
    rcases hm with rfl | rfl | rfl | rfl | rfl | rfl
    · rfl
    · exact faceValue_swap12 ..
    · rw [faceValue_swap12, faceValue_swap23, faceValue_swap12]
    · rw [faceValue_swap23, faceValue_swap12]
    · rw [faceValue_swap12, faceValue_swap23]
    · exact faceValue_swap23 ..
  · have := h.length_eq
    rcases l' with _ | ⟨x, _ | ⟨y, _ | ⟨z, _ | ⟨t, l'⟩⟩⟩⟩ <;> simp at this
    rfl

private theorem interpNode_renumber {m m' : Mesh K} {ν : Int → Int} {φ : Nat → Nat}
    (h : Relabels m m' ν φ) {s s' : List (Option K)} (hs : DataRelabels m ν φ .node s s') (k : Nat)
    (hk : k < m.faces.length) (pt : K × K) :
    interpNode m' s' ((φ k : Nat) : Int) pt = interpNode m s (k : Int) pt := by
  obtain ⟨l, hl⟩ : ∃ l, m.faces[k]? = some l := ⟨_, List.getElem?_eq_getElem hk⟩
  obtain ⟨l', hl', hp⟩ := h.face k l hl
  rw [interpNode_face m' s' _ l' hl', interpNode_face m s k l hl, faceValue_perm m' s' _ pt hp]
  have hmem := List.mem_of_getElem? hl
  have hn := h.node l hmem
  have hd : ∀ n ∈ l, Np.pyGet s' (ν n) = Np.pyGet s n := hs l hmem
  rcases l with _ | ⟨a, _ | ⟨b, _ | ⟨c, _ | ⟨d, l⟩⟩⟩⟩ <;> try rfl
  simp only [List.map_cons, List.map_nil, faceValue, hn a (by simp), hn b (by simp), hn c (by simp),
    hd a (by simp), hd b (by simp), hd c (by simp)]
  have e : ∀ p q r u v w, tri ((φ k : Nat) : Int) p q r pt u v w = tri (k : Int) p q r pt u v w :=
    fun p q r u v w => tri_located _ _ (by omega) (by omega) p q r pt u v w
  simp only [e]

private theorem interpFace_renumber {m : Mesh K} {ν : Int → Int} {φ : Nat → Nat}
    {s s' : List (Option K)} (hs : DataRelabels m ν φ .face s s') (k : Nat)
    (hk : k < m.faces.length) :
    interpFace s' ((φ k : Nat) : Int) = interpFace s (k : Int) := by
  unfold interpFace
  rw [pyGet_nat', pyGet_nat', hs k hk]
  rcases s[k]? with _ | v
  · rfl
  · simp only
    rw [if_neg (by omega), if_neg (by omega)]

private theorem cells_eq {l : Bool → List (Cell K)}
    (h : Each (fun c : Bool → Cell K => (c true).value = (c false).value ∧ ∀ i, (c i).masked = false) l) :
    Each (fun c : Bool → Cell K => c true = c false) l := by
  obtain ⟨L, hL, hl⟩ := h
  refine ⟨L, fun c hc => ?_, hl⟩
  obtain ⟨h1, h2⟩ := hL c hc
  rcases ht : c true with ⟨v, k⟩
  rcases hf : c false with ⟨v', k'⟩
  have ha := h2 true; have hb := h2 false
  simp only [ht, hf] at h1 ha hb
  rw [h1, ha, hb]

/-- Equal values point by point give equal horizontal stages. -/
private theorem xyU_eq (m m' : Mesh K) (loc : Loc) (s s' : List (Option K)) (ps : List (UPt K × UPt K))
    (h : ∀ p ∈ ps, match loc with
      | .node => interpNode m' s' p.2.face p.2.pos = interpNode m s p.1.face p.1.pos
      | .face => interpFace s' p.2.face = interpFace s p.1.face
      | .boundary => True) :
    xyU m' loc s' (ps.map fun p => p.2) = xyU m loc s (ps.map fun p => p.1) := by
  let M : Bool → Mesh K := fun i => if i then m' else m
  let D : Bool → List (Option K) := fun i => if i then s' else s
  cases loc with
  | boundary => rfl
  | node =>
    have := eq_of_together ((xyU_node_each (ι := Bool) (R := fun v => v true = v false) M D
      (ps.map fun p i => if i then p.2 else p.1) (by
        intro p hp
        obtain ⟨q, hq, rfl⟩ := List.mem_map.mp hp
        exact together_eq (h q hq))).mono fun _ => cells_eq)
    simpa only [List.map_map, Function.comp_def, M, D, if_true, Bool.false_eq_true, if_false] using this
  | face =>
    have := eq_of_together ((xyU_face_each (ι := Bool) (R := fun v => v true = v false) M D
      (ps.map fun p i => if i then p.2 else p.1) (by
        intro p hp
        obtain ⟨q, hq, rfl⟩ := List.mem_map.mp hp
        exact together_eq (h q hq))).mono fun _ => cells_eq)
    simpa only [List.map_map, Function.comp_def, M, D, if_true, Bool.false_eq_true, if_false] using this

/-- C150. A whole evaluation at points located on the grid: renumbering the grid, the data and the
answers of the search alike changes nothing, exceptions included. `ds'` is the depth object of the
renumbered grid. -/
theorem C150_renumbering {m m' : Mesh K} {ν : Int → Int} {φ : Nat → Nat} (h : Relabels m m' ν φ)
    (loc : Loc) (times : List Int) (ds ds' : DepthSys K (UPt K)) (hnl : ds'.numLayers = ds.numLayers)
    (d : Data (List (Option K) × List (Option K))) (hd : d.All fun s => DataRelabels m ν φ loc s.1 s.2)
    (pts : List (UPt K × UPt K))
    (hpts : ∀ p ∈ pts, ∃ k : Nat, k < m.faces.length ∧ p.1.face = (k : Int) ∧
      p.2 = { p.1 with face := ((φ k : Nat) : Int) })
    (hA : ds'.alphas (pts.map fun p => p.2) = ds.alphas (pts.map fun p => p.1)) (t : Int) (e : Bool) :
    eval (xyU m' loc) times ds' (d.map fun s => s.2) (pts.map fun p => p.2) t e =
      eval (xyU m loc) times ds (d.map fun s => s.1) (pts.map fun p => p.1) t e := by
  refine eval_eq (xyU m loc) (xyU m' loc) (DataRelabels m ν φ loc)
    (fun p p' => ∃ k : Nat, k < m.faces.length ∧ p.face = (k : Int) ∧
      p' = { p with face := ((φ k : Nat) : Int) }) ?_ times ds ds' hnl d hd pts hpts hA t e
  intro s s' hs ps hps
  refine xyU_eq m m' loc s s' ps ?_
  intro p hp
  obtain ⟨k, hk, h1, h2⟩ := hps p hp
  rw [h2, h1]
  cases loc with
  | boundary => trivial
  | node => exact interpNode_renumber h hs k hk p.1.pos
  | face => exact interpFace_renumber hs k hk

/-- Two triangles, and the same with the nodes numbered backwards, the faces exchanged and the corners
of one face in another order. -/
example : Relabels (K := ℚ) ⟨[(0, 0), (4, 0), (0, 4), (4, 4)], [[0, 1, 2], [2, 1, 3]]⟩
    ⟨[(4, 4), (0, 4), (4, 0), (0, 0)], [[0, 1, 2], [3, 2, 1]]⟩ (fun n => 3 - n) (fun k => 1 - k) := by
  constructor
  · intro l hl n hn
    simp only [List.mem_cons, List.not_mem_nil, or_false] at hl
    rcases hl with rfl | rfl <;>
      (simp only [List.mem_cons, List.not_mem_nil, or_false] at hn
       rcases hn with rfl | rfl | rfl <;> rfl)
  · intro k l hk
    rcases k with _ | _ | k
    · cases hk
      exact ⟨_, rfl, List.Perm.refl _⟩
    · cases hk
      exact ⟨_, rfl, by decide⟩
    · simp at hk

end C150

/-! ## C151 -/

section C151
open Verif.UGeom
variable {K : Type} [Field K] [LinearOrder K]

/-- A change of coordinates `(x, y) ↦ (a x + b y + e, c x + d y + f)`: a change of origin, of units,
of orientation, and so on. -/
structure Coords (K : Type) where
  (a b c d e f : K)

/-- The new coordinates of a point. -/
def Coords.app (T : Coords K) (q : K × K) : K × K :=
  (T.a * q.1 + T.b * q.2 + T.e, T.c * q.1 + T.d * q.2 + T.f)

/-- The determinant; the change can be undone if it is not zero. -/
def Coords.det (T : Coords K) : K := T.a * T.d - T.b * T.c

private theorem fdiv_scale (k x d : K) (hk : k ≠ 0) : fdiv (k * x) (k * d) = fdiv x d := by
  unfold fdiv
  by_cases h : d = 0
  · simp [h]
  · rw [if_neg h, if_neg (mul_ne_zero hk h), mul_div_mul_left _ _ hk]

private theorem alphas_coords (T : Coords K) (hT : T.det ≠ 0) (i : Int) (p q r pt : K × K) :
    alphas i (T.app p) (T.app q) (T.app r) (T.app pt) = alphas i p q r pt := by
  have hd : denom (T.app p) (T.app q) (T.app r) = T.det * denom p q r := by
    simp only [denom, Coords.app, Coords.det]; ring
  have h1 : num1 (T.app p) (T.app q) (T.app r) (T.app pt) = T.det * num1 p q r pt := by
    simp only [num1, Coords.app, Coords.det]; ring
  have h2 : num2 (T.app p) (T.app q) (T.app r) (T.app pt) = T.det * num2 p q r pt := by
    simp only [num2, Coords.app, Coords.det]; ring
  have h3 : num3 (T.app p) (T.app q) (T.app r) (T.app pt) = T.det * num3 p q r pt := by
    simp only [num3, Coords.app, Coords.det]; ring
  unfold alphas
  simp only [hd, h1, h2, h3, fdiv_scale _ _ _ hT]

private theorem pyGet_mapped {γ δ : Type} (g : γ → δ) (l : List γ) (i : Int) :
    Np.pyGet (l.map g) i = (Np.pyGet l i).map g := by
  unfold Np.pyGet
  simp only [List.getElem?_map, List.length_map]
  split
  · cases l[i.toNat]? <;> rfl
  · split
    · cases l[l.length - (-i).toNat]? <;> rfl
    · rfl

private theorem interpNode_coords (T : Coords K) (hT : T.det ≠ 0) (m : Mesh K) (s : List (Option K))
    (i : Int) (pt : K × K) :
    interpNode { m with nodes := m.nodes.map T.app } s i (T.app pt) = interpNode m s i pt := by
  unfold interpNode
  simp only
  rcases Np.pyGet m.faces i with _ | l
  · rfl
  rcases l with _ | ⟨a, _ | ⟨b, _ | ⟨c, _ | ⟨d, l⟩⟩⟩⟩ <;> try rfl
  simp only [pyGet_mapped]
  rcases Np.pyGet m.nodes a with _ | p <;> rcases Np.pyGet m.nodes b with _ | q <;>
    rcases Np.pyGet m.nodes c with _ | r <;> try rfl
  simp only [Except.map, alphas_coords T hT]

/-- C151. Unstructured grids: an evaluation gives the same, exceptions included, if the coordinates of
the nodes and of the points are changed by the same invertible affine map. -/
theorem C151_unstructured (T : Coords K) (hT : T.det ≠ 0) (m : Mesh K) (loc : Loc) (times : List Int)
    (ds ds' : DepthSys K (UPt K)) (hnl : ds'.numLayers = ds.numLayers) (d : Data (List (Option K)))
    (pts : List (UPt K))
    (hA : ds'.alphas (pts.map fun p => { p with pos := T.app p.pos }) = ds.alphas pts) (t : Int)
    (e : Bool) :
    eval (xyU { m with nodes := m.nodes.map T.app } loc) times ds' d
        (pts.map fun p => { p with pos := T.app p.pos }) t e =
      eval (xyU m loc) times ds d pts t e := by
  have := eval_eq (xyU m loc) (xyU { m with nodes := m.nodes.map T.app } loc) (fun s s' => s' = s)
    (fun p p' => p' = { p with pos := T.app p.pos }) (by
      intro s s' hs ps hps
      subst hs
      refine xyU_eq m _ loc s' s' ps fun p hp => ?_
      rw [hps p hp]
      cases loc with
      | boundary => trivial
      | node => exact interpNode_coords T hT m s' p.1.face p.1.pos
      | face => rfl) times ds ds' hnl (d.map fun s => (s, s)) (by
        cases d with
        | timeDepth d =>
          intro r hr s hs
          obtain ⟨r', _, rfl⟩ := List.mem_map.mp hr
          obtain ⟨x, _, rfl⟩ := List.mem_map.mp hs
          rfl
        | time d => intro s hs; obtain ⟨x, _, rfl⟩ := List.mem_map.mp hs; rfl
        | depth d => intro s hs; obtain ⟨x, _, rfl⟩ := List.mem_map.mp hs; rfl
        | flat s => rfl)
      (pts.map fun p => (p, { p with pos := T.app p.pos })) (by
        intro p hp
        obtain ⟨q, _, rfl⟩ := List.mem_map.mp hp
        rfl) (by simpa only [List.map_map, Function.comp_def, List.map_id'] using hA) t e
  have h1 : ∀ d : Data (List (Option K)), (d.map fun s => (s, s)).map (fun s => s.1) = d := by
    intro d; cases d <;> simp [Data.map, Function.comp_def]
  have h2 : ∀ d : Data (List (Option K)), (d.map fun s => (s, s)).map (fun s => s.2) = d := by
    intro d; cases d <;> simp [Data.map, Function.comp_def]
  simpa only [h1, h2, List.map_map, Function.comp_def, List.map_id'] using this

/-- A change of origin and scale of each coordinate. -/
structure Units (K : Type) where
  (sx dx sy dy : K)

/-- The grid in other units. -/
def Units.grid (U : Units K) (g : SInterp.Grid K) : SInterp.Grid K :=
  { g with lon := g.lon.map (·.map fun x => U.sx * x + U.dx)
           lat := g.lat.map (·.map fun y => U.sy * y + U.dy) }

/-- A point in other units. -/
def Units.pt (U : Units K) (p : SPt K) : SPt K :=
  { p with pos := (U.sx * p.pos.1 + U.dx, U.sy * p.pos.2 + U.dy) }

private theorem byIndex_mapped {γ δ : Type} (f : γ → δ) (A : List (List γ)) (ij : Int × Int) :
    SIndex.byIndex (A.map (·.map f)) ij =
      (SIndex.byIndex A ij).map fun v => (f v.1, f v.2.1, f v.2.2.1, f v.2.2.2) := by
  have hc : SIndex.ncols (A.map (·.map f)) = SIndex.ncols A := by
    unfold SIndex.ncols
    cases A <;> simp
  have hr : SIndex.ravel (A.map (·.map f)) ij = SIndex.ravel A ij := by
    unfold SIndex.ravel
    rw [hc, List.length_map]
  unfold SIndex.byIndex
  simp only [hc, hr, ← List.map_flatten, pyGet_mapped]
  rcases Np.pyGet A.flatten (SIndex.ravel A ij) with _ | v0 <;>
  rcases Np.pyGet A.flatten (SIndex.ravel A ij + SIndex.ncols A) with _ | v1 <;>
  rcases Np.pyGet A.flatten (SIndex.ravel A ij + SIndex.ncols A + 1) with _ | v2 <;>
  rcases Np.pyGet A.flatten (SIndex.ravel A ij + SIndex.ncols A + 1 - SIndex.ncols A) with _ | v3 <;>
    rfl

private theorem coeffs_units (s d : K) (v : K × K × K × K) :
    SInterp.coeffs (s * v.1 + d, s * v.2.1 + d, s * v.2.2.1 + d, s * v.2.2.2 + d) =
      ⟨s * (SInterp.coeffs v).c1 + d, s * (SInterp.coeffs v).c2, s * (SInterp.coeffs v).c3,
        s * (SInterp.coeffs v).c4⟩ := by
  unfold SInterp.coeffs
  simp only [SInterp.Coeffs.mk.injEq]
  refine ⟨trivial, ?_, ?_, ?_⟩ <;> ring

private theorem quot_scale (k x d : K) (hk : k ≠ 0) : SInterp.quot (k * x) (k * d) = SInterp.quot x d := by
  unfold SInterp.quot
  by_cases h : d = 0
  · simp [h]
  · rw [if_neg h, if_neg (mul_ne_zero hk h), mul_div_mul_left _ _ hk]

private theorem quotOutside_scale (k x d : K) (hk : k ≠ 0) :
    SInterp.quotOutside (k * x) (k * d) = SInterp.quotOutside x d := by
  unfold SInterp.quotOutside
  by_cases h : d = 0
  · simp [h, hk]
  · rw [if_neg h, if_neg (mul_ne_zero hk h), mul_div_mul_left _ _ hk]

private theorem xToL_units [IsStrictOrderedRing K] (sqrt : K → K)
    (hs : ∀ c x, 0 < c → sqrt (c * c * x) = c * sqrt x) (U : Units K) (hU : 0 < U.sx * U.sy) (x y : K)
    (a b : SInterp.Coeffs K) :
    SInterp.xToL sqrt (U.sx * x + U.dx) (U.sy * y + U.dy)
        ⟨U.sx * a.c1 + U.dx, U.sx * a.c2, U.sx * a.c3, U.sx * a.c4⟩
        ⟨U.sy * b.c1 + U.dy, U.sy * b.c2, U.sy * b.c3, U.sy * b.c4⟩ =
      SInterp.xToL sqrt x y a b := by
  obtain ⟨sx, dx, sy, dy⟩ := U
  simp only at hU ⊢
  have hk : sx * sy ≠ 0 := ne_of_gt hU
  have hx : sx ≠ 0 := left_ne_zero_of_mul hk
  unfold SInterp.xToL
  simp only
  set aa := a.c4 * b.c3 - a.c3 * b.c4 with haa
  set bb := a.c4 * b.c1 - a.c1 * b.c4 + a.c2 * b.c3 - a.c3 * b.c2 + x * b.c4 - y * a.c4 with hbb
  set cc := a.c2 * b.c1 - a.c1 * b.c2 + x * b.c2 - y * a.c2 with hcc
  have e1 : sx * a.c4 * (sy * b.c3) - sx * a.c3 * (sy * b.c4) = sx * sy * aa := by rw [haa]; ring
  have e2 : sx * a.c4 * (sy * b.c1 + dy) - (sx * a.c1 + dx) * (sy * b.c4) + sx * a.c2 * (sy * b.c3) -
      sx * a.c3 * (sy * b.c2) + (sx * x + dx) * (sy * b.c4) - (sy * y + dy) * (sx * a.c4) =
      sx * sy * bb := by rw [hbb]; ring
  have e3 : sx * a.c2 * (sy * b.c1 + dy) - (sx * a.c1 + dx) * (sy * b.c2) +
      (sx * x + dx) * (sy * b.c2) - (sy * y + dy) * (sx * a.c2) = sx * sy * cc := by rw [hcc]; ring
  have e4 : ∀ m, sx * x + dx - (sx * a.c1 + dx) - sx * a.c3 * m = sx * (x - a.c1 - a.c3 * m) := by
    intro m; ring
  have e5 : ∀ m, sx * a.c2 + sx * a.c4 * m = sx * (a.c2 + a.c4 * m) := by intro m; ring
  simp only [e1, e2, e3, e4, e5, quot_scale _ _ _ hx, quotOutside_scale _ _ _ hx]
  by_cases h : aa = 0
  · rw [if_pos h, if_pos (by rw [h, mul_zero])]
    have : -(sx * sy * cc) = sx * sy * (-cc) := by ring
    rw [this, quot_scale _ _ _ hk]
  · rw [if_neg h, if_neg (mul_ne_zero hk h)]
    have ek : sx * sy * bb * (sx * sy * bb) - 4 * (sx * sy * aa) * (sx * sy * cc) =
        sx * sy * (sx * sy) * (bb * bb - 4 * aa * cc) := by ring
    rw [ek, hs _ _ hU]
    have hlt : sx * sy * (sx * sy) * (bb * bb - 4 * aa * cc) < 0 ↔ bb * bb - 4 * aa * cc < 0 :=
      ⟨fun h => by
        by_contra hn
        exact absurd h (not_lt.mpr (mul_nonneg (le_of_lt (mul_pos hU hU)) (not_lt.mp hn))),
       fun h => mul_neg_of_pos_of_neg (mul_pos hU hU) h⟩
    simp only [hlt]
    have m1 : (-(sx * sy * bb) - sx * sy * sqrt (bb * bb - 4 * aa * cc)) / (2 * (sx * sy * aa)) =
        (-bb - sqrt (bb * bb - 4 * aa * cc)) / (2 * aa) := by
      rw [← mul_div_mul_left (-bb - sqrt (bb * bb - 4 * aa * cc)) (2 * aa) hk]
      congr 1 <;> ring
    have m2 : (-(sx * sy * bb) + sx * sy * sqrt (bb * bb - 4 * aa * cc)) / (2 * (sx * sy * aa)) =
        (-bb + sqrt (bb * bb - 4 * aa * cc)) / (2 * aa) := by
      rw [← mul_div_mul_left (-bb + sqrt (bb * bb - 4 * aa * cc)) (2 * aa) hk]
      congr 1 <;> ring
    simp only [m1, m2]

private theorem cellOffset_units [IsStrictOrderedRing K] (sqrt : K → K)
    (hs : ∀ c x, 0 < c → sqrt (c * c * x) = c * sqrt x) (U : Units K) (hU : 0 < U.sx * U.sy)
    (g : SInterp.Grid K) (p : K × K) (ij : Int × Int) :
    SInterp.cellOffset sqrt (U.grid g) (U.sx * p.1 + U.dx, U.sy * p.2 + U.dy) ij =
      SInterp.cellOffset sqrt g p ij := by
  unfold SInterp.cellOffset SInterp.geoToLogical SInterp.offset Units.grid
  simp only [byIndex_mapped]
  rcases SIndex.byIndex g.lon ij with _ | px
  · rfl
  rcases SIndex.byIndex g.lat ij with _ | py
  · rfl
  simp only [Except.map, coeffs_units, xToL_units sqrt hs U hU]

private theorem xyS_units [IsStrictOrderedRing K] (sqrt : K → K)
    (hs : ∀ c x, 0 < c → sqrt (c * c * x) = c * sqrt x) (U : Units K) (hU : 0 < U.sx * U.sy)
    (g : SInterp.Grid K) (loc : Option SIndex.Loc) (s : List (List (SInterp.MV K))) (ps : List (SPt K)) :
    xyS sqrt (U.grid g) loc s (ps.map U.pt) = xyS sqrt g loc s ps := by
  have hco := cellOffset_units sqrt hs U hU g
  have hn : ∀ p ij, SInterp.nodeValue sqrt (U.grid g) s (U.sx * p.1 + U.dx, U.sy * p.2 + U.dy) ij =
      SInterp.nodeValue sqrt g s p ij := by
    intro p ij
    unfold SInterp.nodeValue
    rw [hco]
    rfl
  have he : ∀ l (p : K × K) c, SInterp.edgeRow sqrt (U.grid g) l s ((U.sx * p.1 + U.dx, U.sy * p.2 + U.dy), c) =
      SInterp.edgeRow sqrt g l s (p, c) := by
    intro l p c
    unfold SInterp.edgeRow
    rcases c with _ | ij
    · rfl
    · simp only [hco]
      rfl
  have hint : SInterp.interpolate sqrt (U.grid g) loc false s ((ps.map U.pt).map fun p => (p.pos, p.cell)) =
      SInterp.interpolate sqrt g loc false s (ps.map fun p => (p.pos, p.cell)) := ?_
  · unfold xyS
    rw [hint]
  have hall : ((ps.map U.pt).map fun p => (p.pos, p.cell)).all (fun q => q.2.isNone) =
      (ps.map fun p => (p.pos, p.cell)).all (fun q => q.2.isNone) := by
    simp [List.all_map, Function.comp_def, Units.pt]
  have hmap : ∀ {β : Type} (F G : (K × K) × Option (Int × Int) → Except Err β),
      (∀ p c, F ((U.sx * p.1 + U.dx, U.sy * p.2 + U.dy), c) = G (p, c)) →
      mapE F ((ps.map U.pt).map fun p => (p.pos, p.cell)) = mapE G (ps.map fun p => (p.pos, p.cell)) := by
    intro β F G hFG
    rw [List.map_map, mapE_comp, mapE_comp]
    congr 1
    funext p
    exact hFG p.pos p.cell
  unfold SInterp.interpolate
  rw [hall]
  split
  · simp [List.map_map, Function.comp_def]
  · rcases loc with _ | loc
    · rfl
    · cases loc with
      | center => exact hmap _ _ fun p c => by cases c <;> rfl
      | node =>
        simp only
        rw [if_neg (by decide), if_neg (by decide)]
        refine hmap _ _ fun p c => ?_
        rcases c with _ | ij
        · rfl
        · exact hn p ij
      | edge1 => simp only; rw [if_neg (by decide), if_neg (by decide), hmap _ _ (he .edge1)]; rfl
      | edge2 => simp only; rw [if_neg (by decide), if_neg (by decide), hmap _ _ (he .edge2)]; rfl

/-- C151. Structured grids: an evaluation gives the same, exceptions included, if the origin and the
unit of each coordinate are changed, for the nodes and the points alike. Both coordinates may be
reversed, not just one. `sqrt` has the one property of the square root that is needed. -/
theorem C151_structured [IsStrictOrderedRing K] (sqrt : K → K)
    (hs : ∀ c x, 0 < c → sqrt (c * c * x) = c * sqrt x) (U : Units K) (hU : 0 < U.sx * U.sy)
    (g : SInterp.Grid K) (loc : Option SIndex.Loc) (times : List Int)
    (ds ds' : DepthSys K (SPt K)) (hnl : ds'.numLayers = ds.numLayers)
    (d : Data (List (List (SInterp.MV K)))) (pts : List (SPt K))
    (hA : ds'.alphas (pts.map U.pt) = ds.alphas pts) (t : Int) (e : Bool) :
    eval (xyS sqrt (U.grid g) loc) times ds' d (pts.map U.pt) t e =
      eval (xyS sqrt g loc) times ds d pts t e := by
  have := eval_eq (xyS sqrt g loc) (xyS sqrt (U.grid g) loc) (fun s s' => s' = s)
    (fun p p' => p' = U.pt p) (by
      intro s s' hs' ps hps
      subst hs'
      have : ps.map (fun p => p.2) = (ps.map fun p => p.1).map U.pt := by
        rw [List.map_map]
        exact List.map_congr_left fun p hp => hps p hp
      rw [this]
      exact xyS_units sqrt hs U hU g loc s' _) times ds ds' hnl (d.map fun s => (s, s)) (by
        cases d with
        | timeDepth d =>
          intro r hr s hs
          obtain ⟨r', _, rfl⟩ := List.mem_map.mp hr
          obtain ⟨x, _, rfl⟩ := List.mem_map.mp hs
          rfl
        | time d => intro s hs; obtain ⟨x, _, rfl⟩ := List.mem_map.mp hs; rfl
        | depth d => intro s hs; obtain ⟨x, _, rfl⟩ := List.mem_map.mp hs; rfl
        | flat s => rfl)
      (pts.map fun p => (p, U.pt p)) (by
        intro p hp
        obtain ⟨q, _, rfl⟩ := List.mem_map.mp hp
        rfl) (by simpa only [List.map_map, Function.comp_def, List.map_id'] using hA) t e
  have h1 : ∀ d : Data (List (List (SInterp.MV K))), (d.map fun s => (s, s)).map (fun s => s.1) = d := by
    intro d; cases d <;> simp [Data.map, Function.comp_def]
  have h2 : ∀ d : Data (List (List (SInterp.MV K))), (d.map fun s => (s, s)).map (fun s => s.2) = d := by
    intro d; cases d <;> simp [Data.map, Function.comp_def]
  simpa only [h1, h2, List.map_map, Function.comp_def, List.map_id'] using this

/-- Depths given by levels answer alike whatever the coordinates are. -/
example (T : Coords ℚ) (pts : List (UPt ℚ)) (levels : List ℚ) (sbc bbc : BC) :
    (levelSys (fun p : UPt ℚ => p.z) levels sbc bbc).alphas (pts.map fun p => { p with pos := T.app p.pos }) =
      (levelSys (fun p : UPt ℚ => p.z) levels sbc bbc).alphas pts := by
  simp [levelSys, Function.comp_def]

/-- Turning the axes by a quarter of a circle; degrees east and north in minutes, from another
origin. -/
example : (Coords.det (K := ℚ) ⟨0, -1, 1, 0, 5, 7⟩ ≠ 0) ∧ (0 : ℚ) < (60 : ℚ) * 60 := by decide +kernel

/-- The real square root has the property asked for. -/
example : ∀ c x : ℝ, 0 < c → Real.sqrt (c * c * x) = c * Real.sqrt x := by
  intro c x hc
  rw [Real.sqrt_mul (le_of_lt (mul_pos hc hc)), Real.sqrt_mul_self (le_of_lt hc)]

end C151

/-! ## C152 -/

section C152
variable {K : Type} [Field K]

private theorem bsearch_congr {p q : Nat → Bool} (h : ∀ i, p i = q i) (n lo hi : Nat) :
    Np.bsearch p n lo hi = Np.bsearch q n lo hi := by
  have : p = q := funext h
  rw [this]

private theorem indexOf_shift (δ : Int) (data : List Int) (t : Int) (e : Bool) :
    indexOf (shift δ data) (t + δ) e = indexOf data t e := by
  have hv : validTime (shift δ data) (t + δ) = validTime data t := by
    unfold validTime timeInBounds minTime maxTime shift
    simp only [pyGet_mapped]
    rcases Np.pyGet data 0 with _ | lo
    · rfl
    simp only [Except.map, add_lt_add_iff_right]
    rcases Np.pyGet data (-1) with _ | hi
    · rfl
    simp only [add_lt_add_iff_right]
  have hs : Np.searchsortedLeft (shift δ data) (t + δ) = Np.searchsortedLeft data t := by
    unfold Np.searchsortedLeft shift
    rw [List.length_map]
    refine bsearch_congr (fun i => ?_) _ _ _
    rw [List.getElem?_map]
    rcases data[i]? with _ | x
    · rfl
    · simp only [Option.map_some, add_lt_add_iff_right]
  unfold indexOf
  rw [hv, hs]
  simp only [shift, List.length_map]

private theorem interpAlpha_shift [DecidableEq K] (rnd : K → K) (δ : Int) (data : List Int) (t : Int)
    (e : Bool) : interpAlpha rnd (shift δ data) (t + δ) e = interpAlpha rnd data t e := by
  have ha : ∀ i0, alphaFrom rnd (shift δ data) (t + δ) i0 = alphaFrom rnd data t i0 := by
    intro i0
    unfold alphaFrom shift
    simp only [List.length_map, pyGet_mapped]
    rcases Np.pyGet data ((i0 : Int) - 1) with _ | t0 <;> rcases Np.pyGet data (i0 : Int) with _ | t1 <;>
      try rfl
    simp only [Except.map, add_sub_add_right_eq_sub]
  have hv : validTime (shift δ data) (t + δ) = validTime data t := by
    unfold validTime timeInBounds minTime maxTime shift
    simp only [pyGet_mapped]
    rcases Np.pyGet data 0 with _ | lo
    · rfl
    simp only [Except.map, add_lt_add_iff_right]
    rcases Np.pyGet data (-1) with _ | hi
    · rfl
    simp only [add_lt_add_iff_right]
  unfold interpAlpha
  simp only [indexOf_shift, ha, hv]
  simp only [shift, List.length_map]

/-- C152. An evaluation gives the same, exceptions included, if the whole time axis and the time asked
for are moved by the same amount. -/
theorem C152_time_shift [DecidableEq K] {P σ : Type} (xy : σ → List P → Except Err (List (Cell K)))
    (δ : Int) (times : List Int) (ds : DepthSys K P) (d : Data σ) (pts : List P) (t : Int) (e : Bool) :
    eval xy (shift δ times) ds d pts (t + δ) e = eval xy times ds d pts t e := by
  have hst : ∀ val : Int → Except Err (List (Cell K)),
      timeStage (shift δ times) val (t + δ) e = timeStage times val t e := by
    intro val
    unfold timeStage
    simp only [indexOf_shift, interpAlpha_shift]
    simp only [minTime, maxTime, shift, pyGet_mapped]
    rcases Np.pyGet times 0 with _ | lo
    · rfl
    simp only [Except.map, add_left_inj, add_lt_add_iff_right]
    rcases Np.pyGet times (-1) with _ | hi
    · rfl
    simp only [add_left_inj, add_lt_add_iff_right]
  cases d with
  | timeDepth d => simp only [eval, hst]
  | time d => simp only [eval, hst]
  | depth d => rfl
  | flat s => rfl

/-- C152. In particular for a time zone assigned to the time axis: a variable asked for the same
instant, in the local time of the new zone, gives the same. -/
theorem C152_time_zone [DecidableEq K] {P σ H : Type} (td : H → Int)
    (xy : σ → List P → Except Err (List (Cell K))) (τ : TimeObj H) (a b : H) (hτ : τ.tz = some a)
    (ds : DepthSys K P) (d : Data σ) (pts : List P) (t : Int) (e : Bool) :
    eval xy (setTz td (some b) τ).data ds d pts (t - td a + td b) e =
      eval xy τ.data ds d pts t e := by
  have h : (setTz td (some b) τ).data = shift (td b) (shift (-(td a)) τ.data) := by
    unfold setTz
    rw [hτ]
  rw [h, C152_time_shift, sub_eq_add_neg, C152_time_shift]

/-- C152. Likewise for a displacement assigned to an axis that has none. -/
theorem C152_displacement [DecidableEq K] {P σ H : Type} (td : H → Int)
    (xy : σ → List P → Except Err (List (Cell K))) (τ τ' : TimeObj H) (x : Displ H) (hτ : τ.disp = none)
    (h : setDisp td (some x) τ = .ok τ')
    (ds : DepthSys K P) (d : Data σ) (pts : List P) (t : Int) (e : Bool) :
    eval xy τ'.data ds d pts (t + x.micros td) e = eval xy τ.data ds d pts t e := by
  unfold setDisp at h
  rw [hτ] at h
  cases h
  exact C152_time_shift xy _ _ ds d pts t e

/-- An axis in a zone 3 hours east, put 5 hours west: 8 hours less. -/
example : (setTz (fun h : Int => h * 3600) (some (-5)) ⟨[0, 3600], some 3, none⟩).data =
    [-28800, -25200] := by decide +kernel

end C152

end Verif
