import Verif.Model.FileEval
import Verif.Props.GridType
import Verif.Props.UGeom
import Verif.Props.UTopo
import Verif.Props.Evaluate

/-!
# C203: from a file to a value on an unstructured grid
-/

set_option autoImplicit false

namespace Verif
open Verif.At Verif.DepthM Verif.Spec Verif.TimeM Verif.GridType Verif.FileEval
open Verif.Util (Arr)
open Verif.Evaluate (ofFile at' DepthObj)

namespace FileEvalSpec
variable {K : Type} [Field K] [LinearOrder K]

/-- Node `i` is at this place. -/
def NodeAt (x y : List K) (i : Nat) (A : K × K) : Prop := x[i]? = some A.1 ∧ y[i]? = some A.2

/-- The parts of a file with the usual names: longitudes and latitudes of `n` nodes, and triangles
between them, none of them flat, counting from `b`, one per row or one per column. -/
structure MeshFile (f : File K) (x y : List K) (a : Arr K) (tris : List (Nat × Nat × Nat)) (b : K) :
    Prop where
  nodes : ∃ n1 n2 v1 v2, FirstPair f usualNodes n1 n2 ∧ Named f n1 v1 ∧ Named f n2 v2 ∧
    v1.arr = ⟨[x.length], x⟩ ∧ v2.arr = ⟨[y.length], y⟩
  same : x.length = y.length
  faces : ∃ nf v, FirstName f usualFaces nf ∧ Named f nf v ∧ v.arr = a
  some : tris ≠ []
  lt : ∀ t ∈ tris, t.1 < x.length ∧ t.2.1 < x.length ∧ t.2.2 < x.length
  base : b = 0 ∨ b = 1
  order : Rows a b tris ∨ Cols a b tris
  proper : ∀ t ∈ tris, ∀ A B C, NodeAt x y t.1 A → NodeAt x y t.2.1 B → NodeAt x y t.2.2 C →
    ProperTriangle A B C

/-- The point is in triangle `t` with these weights. -/
def InWith (x y : List K) (t : Nat × Nat × Nat) (pos : K × K) (wa wb wc : K) : Prop :=
  ∃ A B C, NodeAt x y t.1 A ∧ NodeAt x y t.2.1 B ∧ NodeAt x y t.2.2 C ∧
    0 ≤ wa ∧ 0 ≤ wb ∧ 0 ≤ wc ∧ Weighted A B C pos wa wb wc

/-- Face `k` of a mesh is a triangle with these vertices. -/
def FaceIs (m : UGeom.Mesh K) (k : Nat) (A B C : K × K) : Prop :=
  ∃ a b c : Nat, m.faces[k]? = some [(a : Int), (b : Int), (c : Int)] ∧
    m.nodes[a]? = some A ∧ m.nodes[b]? = some B ∧ m.nodes[c]? = some C

/-- The point was located rightly: in a face it is in, or in none if it is in none. -/
def Found (m : UGeom.Mesh K) (p : UPt K) : Prop :=
  (∃ (k : Nat) (A B C : K × K), p.face = (k : Int) ∧ FaceIs m k A B C ∧ InTriangle A B C p.pos) ∨
  (p.face = -1 ∧ ∀ (k : Nat) (A B C : K × K), FaceIs m k A B C → ¬ InTriangle A B C p.pos)

/-- The number of the file at time `i` and node `a`. -/
def datum (vals : List (List K)) (i a : Nat) : K := (vals.getD i []).getD a 0

/-- The value of the file at a place, for weight `α` of time `j` and the rest of time `i`: between
the nodes of a triangle the place is in. -/
def ValueAt (x y : List K) (tris : List (Nat × Nat × Nat)) (vals : List (List K)) (i j : Nat) (α : K)
    (pos : K × K) (v : K) : Prop :=
  ∃ t ∈ tris, ∃ wa wb wc, InWith x y t pos wa wb wc ∧
    v = wa * ((1 - α) * datum vals i t.1 + α * datum vals j t.1)
      + wb * ((1 - α) * datum vals i t.2.1 + α * datum vals j t.2.1)
      + wc * ((1 - α) * datum vals i t.2.2 + α * datum vals j t.2.2)

/-- The grid of the file loads, and data over time at its nodes are evaluated at every point of a
triangle of the file as the file means them. -/
def Means [IsStrictOrderedRing K] (whole : K → Int) (f : File K) (x y : List K)
    (tris : List (Nat × Nat × Nat)) : Prop :=
  ∃ g, loadU whole f = .ok g ∧
    ∀ (times : List Int) (vals : List (List K)) (now : Int) (axis : DepthObj K (UPt K)) (limit : Nat)
      (t : Int) (e : Bool), StrictIncr times → times ≠ [] → vals.length = times.length →
      (∀ s ∈ vals, s.length = x.length) → Served times t e →
      ∃ (i j : Nat) (α : K), TimeWeights times t e i j α ∧
        ∀ pts : List (UPt K),
          (∀ p ∈ pts, Found (meshOf g) p ∧ ∃ t ∈ tris, ∃ wa wb wc, InWith x y t p.pos wa wb wc) →
          ∃ out, at' (ofFile false (some times) now axis (.one (vals.map (·.map some))) [x.length])
              (xyFor g) (limit + 2) pts t e = .ok out ∧ out.length = pts.length ∧
            ∀ (k : Nat) (p : UPt K), pts[k]? = some p → ∃ v,
              out[k]? = some { value := some v, masked := false } ∧
              ValueAt x y tris vals i j α p.pos v

end FileEvalSpec
open FileEvalSpec

/-- C203 as stated. -/
def C203_statement : Prop :=
  ∀ (f : File Rat) (x y : List Rat) (a : Arr Rat) (tris : List (Nat × Nat × Nat)) (b : Rat),
    MeshFile f x y a tris b → Means Rat.floor f x y tris

section
variable {K : Type} [Field K] [LinearOrder K] [IsStrictOrderedRing K]

theorem corner_lt {tris : List (Nat × Nat × Nat)} {n : Nat} 
    (h : ∀ t ∈ tris, t.1 < n ∧ t.2.1 < n ∧ t.2.2 < n) {i j : Nat} (hi : i < tris.length) (hj : j < 3) :
    corner tris i j < n := by
  have ht := h _ (List.getElem_mem hi)
  unfold corner
  rw [List.getElem?_eq_getElem hi]
  have : j = 0 ∨ j = 1 ∨ j = 2 := by omega
  rcases this with rfl | rfl | rfl
  · exact ht.1
  · exact ht.2.1
  · exact ht.2.2

/-- The faces of the constructor, from an array that holds triangles counting from zero. -/
theorem tableOf_rows (whole : K → Int) (hw : ∀ n : Nat, whole (n : K) = n) (c : Arr K)
    (tris : List (Nat × Nat × Nat)) (h : Rows c 0 tris) :
    tableOf whole c = .ok (tris.map fun t => [(t.1 : Int), (t.2.1 : Int), (t.2.2 : Int)]) := by
  obtain ⟨h1, -, h3⟩ := h
  unfold tableOf
  rw [h1]
  simp only
  congr 1
  apply List.ext_getElem
  · simp
  intro i hi _
  simp only [List.length_map, List.length_range] at hi
  have e : ∀ j < 3, ((c.data[i * 3 + j]?).map whole).getD 0 = (corner tris i j : Int) := by
    intro j hj
    rw [h3 i j hi hj]
    simp [hw]
  simp only [List.getElem_map, List.getElem_range]
  rw [show List.range 3 = [0, 1, 2] from rfl]
  simp only [List.map_cons, List.map_nil]
  rw [e 0 (by omega), e 1 (by omega), e 2 (by omega)]
  simp [corner, List.getElem?_eq_getElem hi]

/-- The grid made from these parts. -/
theorem makeU_rows (whole : K → Int) (hw : ∀ n : Nat, whole (n : K) = n) (x y : List K)
    (hxy : x.length = y.length) (c : Arr K) (tris : List (Nat × Nat × Nat)) (hne : tris ≠ [])
    (hlt : ∀ t ∈ tris, t.1 < x.length ∧ t.2.1 < x.length ∧ t.2.2 < x.length) (h : Rows c 0 tris) :
    ∃ g, makeU whole [("node_lon", ⟨[x.length], x⟩), ("node_lat", ⟨[y.length], y⟩), ("faces", c)]
        = .ok g ∧ meshOf g = ⟨x.zip y, tris.map fun t => [(t.1 : Int), (t.2.1 : Int), (t.2.2 : Int)]⟩ := by
  have e := tableOf_rows whole hw c tris h
  have hs : UTopo.setFaces (x.zip y).length
      (tris.map fun t => [(t.1 : Int), (t.2.1 : Int), (t.2.2 : Int)]) =
      .ok (tris.map fun t => [(t.1 : Int), (t.2.1 : Int), (t.2.2 : Int)]) := by
    refine (C25_faces_setter _ _ ?_).1 ?_
    · cases tris with
      | nil => exact absurd rfl hne
      | cons a as => simp
    · intro r hr z hz
      obtain ⟨t, ht, rfl⟩ := List.mem_map.mp hr
      have := hlt t ht
      simp only [List.length_zip]
      simp only [List.mem_cons, List.not_mem_nil, or_false] at hz
      rcases hz with rfl | rfl | rfl <;> omega
  refine ⟨{ nodes := x.zip y,
            faces := some (tris.map fun t => [(t.1 : Int), (t.2.1 : Int), (t.2.2 : Int)]),
            edges := none, boundaries := none, faceFace := none, faceEdge := none,
            edgeCoords := none, faceCoords := none, boundaryCoords := none }, ?_, rfl⟩
  simp [makeU, Cache.lookup, e, UConstruct.construct, UConstruct.nodesOf, hxy, UConstruct.facesOf,
    UConstruct.checked]
  rw [show y.length = (x.zip y).length by simp [hxy], hs]

omit [Field K] [LinearOrder K] [IsStrictOrderedRing K] in
theorem mapE_pairs {α β γ : Type} (f : β → Except Err γ) (h : α → β) (l : List α) :
    mapE f (l.map h) = mapE (fun a => f (h a)) l := by
  induction l with
  | nil => rfl
  | cons a as ih => simp only [List.map_cons, mapE, ih]

/-- One value, for the weights of the point. -/
theorem interpNode_weights {m : UGeom.Mesh K} {data : List (Option K)} {ind : Int} {p q r : K × K}
    {u v w : K} (h : OnFace m data ind p q r u v w) (hi : ind ≠ -1) (hp : ProperTriangle p q r)
    {pt : K × K} {a b c : K} (hw : Weighted p q r pt a b c) :
    UGeom.interpNode m data ind pt = .ok (some (u * a + v * b + w * c)) := by
  obtain ⟨a', b', c', hw', e⟩ := interpNode_on h hi hp pt
  have hu := (UGeom.weighted_iff (UGeom.denom_ne hp) pt a b c).mp hw
  have hu' := (UGeom.weighted_iff (UGeom.denom_ne hp) pt a' b' c').mp hw'
  obtain rfl : a' = a := hu'.1.trans hu.1.symm
  obtain rfl : b' = b := hu'.2.1.trans hu.2.1.symm
  obtain rfl : c' = c := hu'.2.2.trans hu.2.2.symm
  exact e

/-- C203 for the grids C78 is proved for: any triangles by columns and any but three by rows; from
one, if the last node is used. The other cases are missing, see `C203_refuted`. -/
theorem C203_partial (whole : K → Int) (hw : ∀ n : Nat, whole (n : K) = n) (f : File K)
    (x y : List K) (a : Arr K) (tris : List (Nat × Nat × Nat)) (b : K) (h : MeshFile f x y a tris b)
    (hlast : b = 1 → ∃ t ∈ tris, t.1 + 1 = x.length ∨ t.2.1 + 1 = x.length ∨ t.2.2 + 1 = x.length)
    (hthree : Rows a b tris → tris.length = 3 → Cols a b tris) : Means whole f x y tris := by
  obtain ⟨⟨n1, n2, v1, v2, hn, hv1, hv2, ev1, ev2⟩, hxy, ⟨nf, v, hnf, hv, rfl⟩, hne, hlt, hb, hord,
    hprop⟩ := h
  have ha : (Rows v.arr b tris ∧ tris.length ≠ 3) ∨ Cols v.arr b tris := by
    rcases hord with h | h
    · by_cases h3 : tris.length = 3
      · exact Or.inr (hthree h h3)
      · exact Or.inl ⟨h, h3⟩
    · exact Or.inr h
  obtain ⟨c, hfind, hrows⟩ := C78_file_partial f n1 n2 nf v1 v2 v hn hv1 hv2 hnf hv tris x.length []
    b hne hlt (by rw [ev1]) hb hlast ha
  rw [ev1, ev2] at hfind
  obtain ⟨g, hg, hm⟩ := makeU_rows whole hw x y hxy c tris hne hlt hrows
  refine ⟨g, by unfold loadU; rw [hfind]; exact hg, ?_⟩
  intro times vals now axis limit t e hs hnt hlen hall ht
  have nodeAt : ∀ i A, (x.zip y)[i]? = some A ↔ NodeAt x y i A := by
    intro i A
    rw [List.getElem?_zip_eq_some]
    exact Iff.rfl
  -- the triangle a point was found in
  have tri : ∀ p : UPt K, Found (meshOf g) p →
      (∃ t ∈ tris, ∃ wa wb wc, InWith x y t p.pos wa wb wc) →
      ∃ (k : Nat) (t : Nat × Nat × Nat) (wa wb wc : K), p.face = (k : Int) ∧ tris[k]? = some t ∧
        InWith x y t p.pos wa wb wc := by
    intro p hf hin
    rw [hm] at hf
    have face : ∀ (k : Nat) (t : Nat × Nat × Nat) A B C, tris[k]? = some t → NodeAt x y t.1 A →
        NodeAt x y t.2.1 B → NodeAt x y t.2.2 C →
        FaceIs (⟨x.zip y, tris.map fun t => [(t.1 : Int), (t.2.1 : Int), (t.2.2 : Int)]⟩ :
          UGeom.Mesh K) k A B C := fun k t A B C h1 h2 h3 h4 =>
      ⟨t.1, t.2.1, t.2.2, by simp [h1], (nodeAt _ _).mpr h2, (nodeAt _ _).mpr h3,
        (nodeAt _ _).mpr h4⟩
    rcases hf with ⟨k, A, B, C, hk, ⟨ia, ib, ic, h1, h2, h3, h4⟩, wa, wb, wc, p1, p2, p3, hwt⟩ | ⟨-, hno⟩
    · simp only [List.getElem?_map, Option.map_eq_some_iff] at h1
      obtain ⟨t, ht, et⟩ := h1
      simp only [List.cons.injEq, Int.natCast_inj, and_true] at et
      obtain ⟨rfl, rfl, rfl⟩ := et
      exact ⟨k, t, wa, wb, wc, hk, ht, A, B, C, (nodeAt _ _).mp h2, (nodeAt _ _).mp h3,
        (nodeAt _ _).mp h4, p1, p2, p3, hwt⟩
    · obtain ⟨t, ht, wa, wb, wc, A, B, C, h2, h3, h4, p1, p2, p3, hwt⟩ := hin
      obtain ⟨k, hk, ek⟩ := List.getElem_of_mem ht
      exact absurd ⟨wa, wb, wc, p1, p2, p3, hwt⟩
        (hno k A B C (face k t A B C (by rw [List.getElem?_eq_getElem hk, ek]) h2 h3 h4))
  -- one slice at one point
  have one : ∀ (s : List K) (p : UPt K) (k : Nat) (t : Nat × Nat × Nat) (wa wb wc : K),
      s.length = x.length → p.face = (k : Int) → tris[k]? = some t → InWith x y t p.pos wa wb wc →
      UGeom.interpNode (meshOf g) (s.map some) p.face p.pos =
        .ok (some (wa * s.getD t.1 0 + wb * s.getD t.2.1 0 + wc * s.getD t.2.2 0)) := by
    intro s p k t wa wb wc hsl hk ht hin
    obtain ⟨A, B, C, h2, h3, h4, p1, p2, p3, hwt⟩ := hin
    have hmem := List.mem_of_getElem? ht
    have hl := hlt t hmem
    have dat : ∀ i < x.length, Np.pyGet (s.map some) (i : Int) = .ok (some (s.getD i 0)) := by
      intro i hi
      refine SIndex.pyGet_nat _ _ _ ?_
      have : i < s.length := by omega
      simp [this]
    have hon : OnFace (meshOf g) (s.map some) p.face A B C (s.getD t.1 0) (s.getD t.2.1 0)
        (s.getD t.2.2 0) := by
      rw [hm, hk]
      exact ⟨t.1, t.2.1, t.2.2, SIndex.pyGet_nat _ _ _ (by simp [ht]),
        SIndex.pyGet_nat _ _ _ ((nodeAt _ _).mpr h2), SIndex.pyGet_nat _ _ _ ((nodeAt _ _).mpr h3),
        SIndex.pyGet_nat _ _ _ ((nodeAt _ _).mpr h4), dat _ hl.1, dat _ hl.2.1, dat _ hl.2.2⟩
    rw [interpNode_weights hon (by rw [hk]; omega) (hprop t hmem A B C h2 h3 h4) hwt]
    congr 2
    ring
  let G : Nat → UPt K → K := fun i p =>
    match UGeom.interpNode (meshOf g) ((vals.getD i []).map some) p.face p.pos with
    | .ok (some v) => v
    | _ => 0
  obtain ⟨i, j, α, hw', hr⟩ := C197_time (xyFor g) limit
    (ofFile false (some times) now axis (.one (vals.map (·.map some))) [x.length]) ⟨rfl, rfl⟩
    (vals.map (·.map some)) rfl times rfl hs hnt (by simpa using hlen)
    (fun p => Found (meshOf g) p ∧ ∃ t ∈ tris, ∃ wa wb wc, InWith x y t p.pos wa wb wc) G (by
      intro i s hs ps hps
      simp only [List.getElem?_map, Option.map_eq_some_iff] at hs
      obtain ⟨s', hs', rfl⟩ := hs
      have hsl := hall s' (List.mem_of_getElem? hs')
      have hmap : mapE (fun q : Int × (K × K) => UGeom.interpNode (meshOf g) (s'.map some) q.1 q.2)
          (ps.map fun p => (p.face, p.pos)) = .ok (ps.map fun p => some (G i p)) := by
        rw [mapE_pairs]
        refine mapE_ok ?_
        intro p hp
        obtain ⟨k, t, wa, wb, wc, hk, ht, hin⟩ := tri p (hps p hp).1 (hps p hp).2
        have := one s' p k t wa wb wc hsl hk ht hin
        have e : vals.getD i [] = s' := by simp [hs']
        simp only [G, e, this]
      unfold xyFor xyU UGeom.interpolate
      simp only [hmap, List.map_map]
      rfl) t e ht
  refine ⟨i, j, α, hw', fun pts hpts => ⟨_, hr pts hpts, by simp, ?_⟩⟩
  intro n p hp
  obtain ⟨k, t, wa, wb, wc, hk, ht, hin⟩ := tri p (hpts p (List.mem_of_getElem? hp)).1
    (hpts p (List.mem_of_getElem? hp)).2
  have val : ∀ i < times.length, G i p = wa * datum vals i t.1 + wb * datum vals i t.2.1
      + wc * datum vals i t.2.2 := by
    intro i hi
    have hi' : i < vals.length := by omega
    have hl : (vals.getD i []).length = x.length := by
      have := hall _ (List.getElem_mem hi')
      simpa [hi'] using this
    simp only [G, one _ p k t wa wb wc hl hk ht hin]
    rfl
  refine ⟨(1 - α) * G i p + α * G j p, by simp [hp], t, List.mem_of_getElem? ht, wa, wb, wc, hin, ?_⟩
  rw [val i hw'.2.2.1, val j hw'.2.2.2.1]
  ring

end

namespace FileEvalSpec

/-- Five nodes and three triangles around the first, by rows. -/
def fan : File Rat :=
  ⟨[⟨"lon", ⟨[5], [0, 4, 4, 0, -4]⟩, none, none, none⟩,
    ⟨"lat", ⟨[5], [0, 0, 4, 4, 0]⟩, none, none, none⟩,
    ⟨"nv", ⟨[3, 3], [0, 1, 2, 0, 2, 3, 0, 3, 4]⟩, none, none, none⟩], none⟩

/-- The same grid with its triangles by columns, counting from one. -/
def fanCols : File Rat :=
  ⟨[⟨"lon", ⟨[5], [0, 4, 4, 0, -4]⟩, none, none, none⟩,
    ⟨"lat", ⟨[5], [0, 0, 4, 4, 0]⟩, none, none, none⟩,
    ⟨"nv", ⟨[3, 3], [1, 1, 1, 2, 3, 4, 3, 4, 5]⟩, none, none, none⟩], none⟩

theorem fan_nodes (f : File Rat) (a : Arr Rat)
    (hf : f = ⟨[⟨"lon", ⟨[5], [0, 4, 4, 0, -4]⟩, none, none, none⟩,
      ⟨"lat", ⟨[5], [0, 0, 4, 4, 0]⟩, none, none, none⟩, ⟨"nv", a, none, none, none⟩], none⟩)
    (b : Rat) (hb : b = 0 ∨ b = 1) (ho : Rows a b [(0, 1, 2), (0, 2, 3), (0, 3, 4)] ∨
      Cols a b [(0, 1, 2), (0, 2, 3), (0, 3, 4)]) :
    MeshFile f [0, 4, 4, 0, -4] [0, 0, 4, 4, 0] a [(0, 1, 2), (0, 2, 3), (0, 3, 4)] b := by
  have low : "lon".toLower = "lon" ∧ "lat".toLower = "lat" ∧ "nv".toLower = "nv" := by
    decide +kernel
  have has : ∀ n, Has f n ↔ n = "lon" ∨ n = "lat" ∨ n = "nv" := by
    intro n
    subst hf
    simp only [Has, List.mem_cons, List.not_mem_nil, or_false, exists_eq_or_imp, exists_eq_left, low]
    simp only [eq_comm]
  have i1 : Named f "lon" ⟨"lon", ⟨[5], [0, 4, 4, 0, -4]⟩, none, none, none⟩ := by
    subst hf
    refine ⟨[], _, rfl, low.1, ?_⟩
    intro u hu
    simp only [List.mem_cons, List.not_mem_nil, or_false] at hu
    rcases hu with rfl | rfl
    · rw [low.2.1]; decide
    · rw [low.2.2]; decide
  have i2 : Named f "lat" ⟨"lat", ⟨[5], [0, 0, 4, 4, 0]⟩, none, none, none⟩ := by
    subst hf
    refine ⟨[_], _, rfl, low.2.1, ?_⟩
    intro u hu
    simp only [List.mem_cons, List.not_mem_nil, or_false] at hu
    subst hu
    rw [low.2.2]; decide
  have i3 : Named f "nv" ⟨"nv", a, none, none, none⟩ := by
    subst hf
    exact ⟨[_, _], [], rfl, low.2.2, by simp⟩
  refine ⟨⟨"lon", "lat", _, _, ⟨[("node_lon", "node_lat")], _, rfl, ?_, ?_, ?_⟩, i1, i2, rfl, rfl⟩, rfl,
    ⟨"nv", _, ⟨["faces", "tris"], _, rfl, ?_, ?_⟩, i3, rfl⟩, by simp, by decide, hb, ho, ?_⟩
  · simp [has]
  · simp [has]
  · simp [has]
  · simp [has]
  · simp [has]
  · intro t ht A B C hA hB hC
    simp only [List.mem_cons, List.not_mem_nil, or_false] at ht
    obtain ⟨A1, A2⟩ := A
    obtain ⟨B1, B2⟩ := B
    obtain ⟨C1, C2⟩ := C
    rcases ht with rfl | rfl | rfl <;>
      (obtain ⟨a1, a2⟩ := hA; obtain ⟨b1, b2⟩ := hB; obtain ⟨c1, c2⟩ := hC
       simp at a1 a2 b1 b2 c1 c2
       subst a1 a2 b1 b2 c1 c2
       unfold ProperTriangle TurnsRight TurnsLeft
       decide +kernel)

end FileEvalSpec

/-- C203 fails for three triangles stored by rows: the grid is another, and a point of a triangle of
the file gets the value zero, here where all data are one. -/
theorem C203_refuted : ¬ C203_statement := by
  intro h
  obtain ⟨g, hg, hv⟩ := h fan _ _ _ _ 0 (fan_nodes fan ⟨[3, 3], [0, 1, 2, 0, 2, 3, 0, 3, 4]⟩ rfl 0
    (Or.inl rfl) (Or.inl ⟨rfl, rfl, by
      intro i j hi hj
      have : ∀ i < 3, ∀ j < 3, ([0, 1, 2, 0, 2, 3, 0, 3, 4] : List Rat)[i * 3 + j]? =
        some ((corner [(0, 1, 2), (0, 2, 3), (0, 3, 4)] i j : Rat) + 0) := by decide +kernel
      exact this i hi j hj⟩))
  have hm : (match loadU Rat.floor fan with
      | .ok g => some (meshOf g)
      | .error _ => none) =
      some ⟨[(0, 0), (4, 0), (4, 4), (0, 4), (-4, 0)], [[0, 0, 0], [1, 2, 3], [2, 3, 4]]⟩ := by
    decide +kernel
  rw [hg] at hm
  simp only [Option.some.injEq] at hm
  obtain ⟨i, j, α, hw, hr⟩ := hv [0] [[1, 1, 1, 1, 1]] 0 .absent 0 0 true (by simp [StrictIncr])
    (by simp) rfl (by simp) (Or.inl rfl)
  have hi : i = 0 := by have := hw.2.2.1; simp at this; exact this
  have hj : j = 0 := by have := hw.2.2.2.1; simp at this; exact this
  subst hi hj
  obtain ⟨out, ho, -, hk⟩ := hr [⟨-1, (2, 1), 0⟩] (by
    intro p hp
    rw [List.mem_singleton] at hp
    subst hp
    refine ⟨Or.inr ⟨rfl, ?_⟩, (0, 1, 2), by simp, 1 / 2, 1 / 4, 1 / 4, (0, 0), (4, 0), (4, 4),
      ⟨rfl, rfl⟩, ⟨rfl, rfl⟩, ⟨rfl, rfl⟩, by norm_num, by norm_num, by norm_num, by
        unfold Weighted; decide +kernel⟩
    rintro k ⟨A1, A2⟩ ⟨B1, B2⟩ ⟨C1, C2⟩ ⟨a, b, c, h1, h2, h3, h4⟩ ⟨wa, wb, wc, p1, p2, p3, w1, w2, w3⟩
    rw [hm] at h1 h2 h3 h4
    have hk : k = 0 ∨ k = 1 ∨ k = 2 := by
      have := (List.getElem?_eq_some_iff.mp h1).1
      simp at this
      omega
    rcases hk with rfl | rfl | rfl <;>
      (simp at h1
       obtain ⟨e1, e2, e3⟩ := h1
       obtain ⟨rfl⟩ : a = _ := by exact_mod_cast e1.symm
       obtain ⟨rfl⟩ : b = _ := by exact_mod_cast e2.symm
       obtain ⟨rfl⟩ : c = _ := by exact_mod_cast e3.symm
       simp at h2 h3 h4
       obtain ⟨rfl, rfl⟩ := h2
       obtain ⟨rfl, rfl⟩ := h3
       obtain ⟨rfl, rfl⟩ := h4
       simp only at w2 w3
       linarith))
  obtain ⟨v, hv1, t, ht, wa, wb, wc, ⟨A, B, C, -, -, -, -, -, -, hwt⟩, hv2⟩ := hk 0 _ rfl
  have one : ∀ a, a < 5 → datum ([[1, 1, 1, 1, 1]] : List (List Rat)) 0 a = 1 := by decide +kernel
  have hl : ∀ t ∈ [(0, 1, 2), (0, 2, 3), (0, 3, 4)], t.1 < 5 ∧ t.2.1 < 5 ∧ t.2.2 < 5 := by decide
  rw [one _ (hl t ht).1, one _ (hl t ht).2.1, one _ (hl t ht).2.2] at hv2
  have hv3 : v = 1 := by rw [hv2]; linear_combination hwt.1
  subst hv3
  have hout : at' (ofFile false (some [0]) 0 .absent (.one (([[1, 1, 1, 1, 1]] : List (List Rat)).map
      (·.map some))) [5]) (fun r ps => match r with
        | .slice s => xyU ⟨[(0, 0), (4, 0), (4, 4), (0, 4), (-4, 0)], [[0, 0, 0], [1, 2, 3], [2, 3, 4]]⟩
          .node s ps
        | .other => .error .valueError) 2 [⟨-1, (2, 1), 0⟩] 0 true = .ok [⟨some 0, false⟩] := by
    decide +kernel
  have same : xyFor g = fun r ps => match r with
        | .slice s => xyU ⟨[(0, 0), (4, 0), (4, 4), (0, 4), (-4, 0)], [[0, 0, 0], [1, 2, 3], [2, 3, 4]]⟩
          .node s ps
        | .other => .error .valueError := by
    funext r ps
    cases r <;> simp [xyFor, hm]
  rw [same] at ho
  have := ho.symm.trans hout
  cases this
  simp at hv1

/-- The same grid by columns and counting from one has the meaning of the file. -/
example : Means Rat.floor fanCols [0, 4, 4, 0, -4] [0, 0, 4, 4, 0]
    [(0, 1, 2), (0, 2, 3), (0, 3, 4)] := by
  have hc : Cols (⟨[3, 3], [1, 1, 1, 2, 3, 4, 3, 4, 5]⟩ : Arr Rat) 1
      [(0, 1, 2), (0, 2, 3), (0, 3, 4)] := ⟨rfl, rfl, by
    intro i j hi hj
    have : ∀ i < 3, ∀ j < 3, ([1, 1, 1, 2, 3, 4, 3, 4, 5] : List Rat)[i * 3 + j]? =
      some ((corner [(0, 1, 2), (0, 2, 3), (0, 3, 4)] j i : Rat) + 1) := by decide +kernel
    exact this i hi j hj⟩
  exact C203_partial Rat.floor (fun n => Rat.floor_intCast n) fanCols _ _ _ _ 1
    (fan_nodes fanCols _ rfl 1 (Or.inr rfl) (Or.inr hc)) (fun _ => ⟨(0, 3, 4), by simp, by simp⟩)
    (fun _ _ => hc)

/-- What it gives at a point of the first triangle between two times. -/
example : (match loadU Rat.floor fanCols with
    | .ok g => at' (ofFile false (some [0, 10]) 0 .absent
        (.one [[some 0, some 4, some 8, some 0, some 0], [some 10, some 10, some 10, some 10, some 10]])
        [5]) (xyFor g) 2 [⟨0, (2, 1), 0⟩] 5 false
    | .error e => .error e) = .ok [⟨some (13 / 2), false⟩] := by
  decide +kernel

end Verif
