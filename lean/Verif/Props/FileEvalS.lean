import Verif.Model.FileEval
import Verif.Props.GridType
import Verif.Props.SInterp
import Verif.Props.Evaluate
import Mathlib.Data.Rat.Sqrt

/-!
# C204: from a file to a value on a structured grid
-/

set_option autoImplicit false

namespace Verif
open Verif.At Verif.DepthM Verif.Spec Verif.TimeM Verif.GridType Verif.FileEval
open Verif.Util (Arr)
open Verif.Evaluate (ofFile at' DepthObj)

namespace FileEvalSSpec
variable {K : Type} [Field K] [LinearOrder K]

/-- The numbers at the corners of the cell in row `i` and column `j` of an array of `c` columns. -/
def QuadAt (c : Nat) (x : List K) (i j : Nat) (v : K × K × K × K) : Prop :=
  x[i * c + j]? = some v.1 ∧ x[(i + 1) * c + j]? = some v.2.1 ∧
    x[(i + 1) * c + (j + 1)]? = some v.2.2.1 ∧ x[i * c + (j + 1)]? = some v.2.2.2

/-- The place is at `(l, m)` of the cell in row `i` and column `j`. -/
def InCell (r c : Nat) (x y : List K) (i j : Nat) (pos : K × K) (l m : K) : Prop :=
  i + 1 < r ∧ j + 1 < c ∧ InUnit (l, m) ∧ ∃ px py, QuadAt c x i j px ∧ QuadAt c y i j py ∧
    bilinear px l m = pos.1 ∧ bilinear py l m = pos.2

/-- The cell is not folded: its sides along rows and along columns through any of its points have
different directions, and no two of its points are in the same place. -/
def Unfolded (px py : K × K × K × K) : Prop :=
  (∀ l m, InUnit (l, m) →
    (bilinear px 1 m - bilinear px 0 m) * (bilinear py l 1 - bilinear py l 0) ≠
      (bilinear px l 1 - bilinear px l 0) * (bilinear py 1 m - bilinear py 0 m)) ∧
  ∀ u v : K × K, InUnit u → InUnit v → bilinear px u.1 u.2 = bilinear px v.1 v.2 →
    bilinear py u.1 u.2 = bilinear py v.1 v.2 → u = v

/-- The parts of a file with the usual names: longitudes and latitudes of `r` rows of `c` nodes, no
cell of which is folded. -/
structure GridFile (f : File K) (r c : Nat) (x y : List K) : Prop where
  nodes : ∃ n1 n2 v1 v2, FirstPair f usualNodes n1 n2 ∧ Named f n1 v1 ∧ Named f n2 v2 ∧
    v1.arr = ⟨[r, c], x⟩ ∧ v2.arr = ⟨[r, c], y⟩
  size : x.length = r * c ∧ y.length = r * c
  cells : ∀ i j px py, i + 1 < r → j + 1 < c → QuadAt c x i j px → QuadAt c y i j py → Unfolded px py

/-- The point was located rightly: in a cell it is in, or in none if it is in none. -/
def FoundS (r c : Nat) (x y : List K) (p : SPt K) : Prop :=
  (∃ (i j : Nat) (l m : K), p.cell = some ((i : Int), (j : Int)) ∧ InCell r c x y i j p.pos l m) ∨
  (p.cell = none ∧ ∀ i j l m, ¬ InCell r c x y i j p.pos l m)

/-- The number of the file at time `k` and the node in row `i` and column `j`. -/
def datumS (vals : List (List (List K))) (k i j : Nat) : K := ((vals.getD k []).getD i []).getD j 0

/-- The value of the file at a place, for weight `α` of time `k'` and the rest of time `k`: between
the four nodes of a cell the place is in. -/
def ValueAtS (r c : Nat) (x y : List K) (vals : List (List (List K))) (k k' : Nat) (α : K)
    (pos : K × K) (v : K) : Prop :=
  ∃ i j l m, InCell r c x y i j pos l m ∧
    v = (1 - m) * ((1 - l) * ((1 - α) * datumS vals k i j + α * datumS vals k' i j)
          + l * ((1 - α) * datumS vals k i (j + 1) + α * datumS vals k' i (j + 1)))
      + m * ((1 - l) * ((1 - α) * datumS vals k (i + 1) j + α * datumS vals k' (i + 1) j)
          + l * ((1 - α) * datumS vals k (i + 1) (j + 1) + α * datumS vals k' (i + 1) (j + 1)))

/-- The grid of the file loads, and data over time at its nodes are evaluated at every point of a
cell of the file as the file means them. -/
def MeansS [IsStrictOrderedRing K] (sqrt : K → K) (maskedOf : Arr K → List (List Bool)) (f : File K)
    (r c : Nat) (x y : List K) : Prop :=
  ∃ g, loadS maskedOf f = .ok g ∧
    ∀ (times : List Int) (vals : List (List (List K))) (now : Int) (axis : DepthObj K (SPt K))
      (limit : Nat) (t : Int) (e : Bool), StrictIncr times → times ≠ [] →
      vals.length = times.length → (∀ s ∈ vals, s.length = r ∧ ∀ row ∈ s, row.length = c) →
      Served times t e →
      ∃ (k k' : Nat) (α : K), TimeWeights times t e k k' α ∧
        ∀ pts : List (SPt K),
          (∀ p ∈ pts, FoundS r c x y p ∧ ∃ i j l m, InCell r c x y i j p.pos l m) →
          ∃ out, at' (ofFile true (some times) now axis
              (.one (vals.map fun s => s.map (List.map fun v => ⟨v, false⟩))) [r, c])
              (xyForS sqrt g) (limit + 2) pts t e = .ok out ∧ out.length = pts.length ∧
            ∀ (n : Nat) (p : SPt K), pts[n]? = some p → ∃ v,
              out[n]? = some { value := some v, masked := false } ∧
              ValueAtS r c x y vals k k' α p.pos v

end FileEvalSSpec
open FileEvalSSpec

/-- C204 as stated. -/
def C204_statement : Prop :=
  ∀ (sqrt : ℚ → ℚ), (∀ k : ℚ, sqrt (k * k) = |k|) → ∀ (maskedOf : Arr ℚ → List (List Bool))
    (f : File ℚ) (r c : Nat) (x y : List ℚ), GridFile f r c x y → MeansS sqrt maskedOf f r c x y

section
variable {K : Type} [Field K] [LinearOrder K] [IsStrictOrderedRing K]

omit [IsStrictOrderedRing K] in
/-- The rows of an array. -/
theorem rowsOf_spec (r c : Nat) (x : List K) (h : x.length = r * c) :
    ∃ A, rowsOf (⟨[r, c], x⟩ : Arr K) = .ok A ∧ A.length = r ∧ Rectangular c A ∧
      ∀ i j, i < r → j < c → entry A i j = x[i * c + j]? := by
  refine ⟨_, rfl, by simp, ?_, ?_⟩
  · intro row hrow
    obtain ⟨i, hi, rfl⟩ := List.mem_map.mp hrow
    rw [List.mem_range] at hi
    rw [List.length_take, List.length_drop, h]
    have : (i + 1) * c ≤ r * c := Nat.mul_le_mul_right c hi
    rw [Nat.add_mul, Nat.one_mul] at this
    omega
  · intro i j hi hj
    simp [entry, hi, hj]

/-- C204 for grids whose rows keep going east or west in every cell; cells with a row that has no
extent in longitude at some height are missing, see `C204_refuted`. -/
theorem C204_partial (sqrt : K → K) (hs : SqrtOk sqrt) (maskedOf : Arr K → List (List Bool))
    (f : File K) (r c : Nat) (x y : List K) (h : GridFile f r c x y)
    (hrow : ∀ i j px m, i + 1 < r → j + 1 < c → QuadAt c x i j px → 0 ≤ m → m ≤ 1 →
      bilinear px 1 m ≠ bilinear px 0 m) : MeansS sqrt maskedOf f r c x y := by
  obtain ⟨⟨n1, n2, v1, v2, hn, hv1, hv2, ev1, ev2⟩, ⟨hxl, hyl⟩, hcells⟩ := h
  obtain ⟨res, hres⟩ : ∃ res, findS f none = .ok res := by
    unfold findS
    rw [C74_found_pair f n1 n2 v1 v2 hn hv1 hv2]
    simp only [bind, Except.bind]
    split <;> exact ⟨_, rfl⟩
  obtain ⟨q, hq, hlon, hlat, -⟩ := C81_nodes f res hres
  rw [C74_found_pair f n1 n2 v1 v2 hn hv1 hv2, ev1, ev2] at hq
  cases hq
  obtain ⟨X, hX, hXr, hXc, hXe⟩ := rowsOf_spec r c x hxl
  obtain ⟨Y, hY, hYr, hYc, hYe⟩ := rowsOf_spec r c y hyl
  have hl1 : Cache.lookup res.1 "node_lon" = some ⟨[r, c], x⟩ := hlon
  have hl2 : Cache.lookup res.1 "node_lat" = some ⟨[r, c], y⟩ := hlat
  obtain ⟨g, hg, hgx, hgy, hgp⟩ : ∃ g, loadS maskedOf f = .ok g ∧ g.lon = X ∧ g.lat = Y ∧
      g.pads .node = (.absent, .absent) := by
    refine ⟨_, by unfold loadS makeS; rw [hres]; simp only [hl1, hl2, hX, hY]; rfl, rfl, rfl, rfl⟩
  refine ⟨g, hg, ?_⟩
  intro times vals now axis limit t e hst hnt hlen hall ht
  have corners : ∀ (z : List K) (Z : List (List K)),
      (∀ i j, i < r → j < c → entry Z i j = z[i * c + j]?) → ∀ i j v, i + 1 < r → j + 1 < c →
      QuadAt c z i j v → IsCorners Z i j v := by
    intro z Z hZ i j v hi hj ⟨a, b, d, e⟩
    exact ⟨by rw [hZ _ _ (by omega) (by omega)]; exact a, by rw [hZ _ _ (by omega) (by omega)]; exact b,
      by rw [hZ _ _ (by omega) (by omega)]; exact d, by rw [hZ _ _ (by omega) (by omega)]; exact e⟩
  -- the position that is found
  have pos : ∀ p : SPt K, FoundS r c x y p → (∃ i j l m, InCell r c x y i j p.pos l m) →
      ∃ (i j : Nat) (l m : K), p.cell = some ((i : Int), (j : Int)) ∧ InCell r c x y i j p.pos l m ∧
        SInterp.offset sqrt g p.pos ((i : Int), (j : Int)) = .ok (some (l, m)) := by
    intro p hf hin
    rcases hf with ⟨i, j, l0, m0, hc, hi, hj, hu, px, py, hx, hy, e1, e2⟩ | ⟨-, hno⟩
    · obtain ⟨l, m, hxl, hu', b1, b2⟩ := C71_partial sqrt hs px py l0 m0 hu
        (fun m h0 h1 => hrow i j px m hi hj hx h0 h1)
        ((hcells i j px py hi hj hx hy).1 l0 m0 hu)
      refine ⟨i, j, l, m, hc, ⟨hi, hj, hu', px, py, hx, hy, b1.trans e1, b2.trans e2⟩, ?_⟩
      rw [offset_eq sqrt g c (by rw [hgx]; exact hXc) (by rw [hgy]; exact hYc) i j px py
        (by rw [hgx]; exact corners x X hXe i j px hi hj hx)
        (by rw [hgy]; exact corners y Y hYe i j py hi hj hy), ← e1, ← e2, hxl]
    · obtain ⟨i, j, l, m, hin⟩ := hin
      exact absurd hin (hno i j l m)
  -- one slice at one point
  have one : ∀ (s : List (List K)) (p : SPt K) (i j : Nat) (l m : K), s.length = r →
      (∀ row ∈ s, row.length = c) → InCell r c x y i j p.pos l m →
      SInterp.offset sqrt g p.pos ((i : Int), (j : Int)) = .ok (some (l, m)) →
      SInterp.nodeValue sqrt g (plain s) p.pos ((i : Int), (j : Int)) =
        .ok (some (bilinear ((s.getD i []).getD j 0, (s.getD (i + 1) []).getD j 0,
          (s.getD (i + 1) []).getD (j + 1) 0, (s.getD i []).getD (j + 1) 0) l m)) := by
    intro s p i j l m hsr hsc hin ho
    obtain ⟨hi, hj, -⟩ := hin
    have ent : ∀ a b, a < r → b < c → entry s a b = some ((s.getD a []).getD b 0) := by
      intro a b ha hb
      have ha' : a < s.length := by omega
      have hb' : b < s[a].length := by rw [hsc _ (List.getElem_mem ha')]; exact hb
      simp [entry, ha', hb']
    refine C46_value sqrt g s c hsc p.pos i j l m _ ho (by rw [hgp]; simp) (by rw [hgp]; simp) ?_
    rw [hgp]
    exact ⟨ent _ _ (by simp [lowPads]; omega) (by simp [lowPads]; omega),
      ent _ _ (by simp [lowPads]; omega) (by simp [lowPads]; omega),
      ent _ _ (by simp [lowPads]; omega) (by simp [lowPads]; omega),
      ent _ _ (by simp [lowPads]; omega) (by simp [lowPads]; omega)⟩
  let G : Nat → SPt K → K := fun k p => match p.cell with
    | none => 0
    | some ij => match SInterp.nodeValue sqrt g (plain (vals.getD k [])) p.pos ij with
      | .ok (some v) => v
      | _ => 0
  obtain ⟨k, k', α, hw, hr⟩ := C197_time (xyForS sqrt g) limit
    (ofFile true (some times) now axis
      (.one (vals.map fun s => s.map (List.map fun v => ⟨v, false⟩))) [r, c]) ⟨rfl, rfl⟩
    _ rfl times rfl hst hnt (by simpa using hlen)
    (fun p => FoundS r c x y p ∧ ∃ i j l m, InCell r c x y i j p.pos l m) G (by
      intro k s hs' ps hps
      simp only [List.getElem?_map, Option.map_eq_some_iff] at hs'
      obtain ⟨s', hs', rfl⟩ := hs'
      obtain ⟨hsr, hsc⟩ := hall s' (List.mem_of_getElem? hs')
      have e : vals.getD k [] = s' := by simp [hs']
      have hI : SInterp.interpolate sqrt g (some .node) false (plain s')
          (ps.map fun p => (p.pos, p.cell)) = .ok (ps.map fun p => some (G k p)) := by
        unfold SInterp.interpolate
        split
        · rename_i hnone
          rw [List.all_eq_true] at hnone
          cases ps with
          | nil => rfl
          | cons p ps =>
            obtain ⟨i, j, l, m, hc, _⟩ := pos p (hps p (by simp)).1 (hps p (by simp)).2
            have := hnone (p.pos, p.cell) (by simp)
            simp [hc] at this
        · simp only [Bool.false_eq_true, if_false]
          have := mapE_ok (f := fun q : (K × K) × Option (Int × Int) => match q.2 with
            | none => .ok none
            | some ij => SInterp.nodeValue sqrt g (plain s') q.1 ij)
            (g := fun q => some (G k ⟨q.2, q.1, 0⟩))
            (l := ps.map fun p => (p.pos, p.cell)) (by
              intro q hq
              obtain ⟨p, hp, rfl⟩ := List.mem_map.mp hq
              obtain ⟨i, j, l, m, hc, hin, ho⟩ := pos p (hps p hp).1 (hps p hp).2
              simp only [hc, G, e, one s' p i j l m hsr hsc hin ho])
          rw [List.map_map] at this
          exact this
      show xyS sqrt g (some .node) (plain s') ps = _
      unfold xyS
      rw [hI]
      simp only [List.map_map]
      rfl) t e ht
  refine ⟨k, k', α, hw, fun pts hpts => ⟨_, hr pts hpts, by simp, ?_⟩⟩
  intro n p hp
  have hpm := hpts p (List.mem_of_getElem? hp)
  obtain ⟨i, j, l, m, hc, hin, ho⟩ := pos p hpm.1 hpm.2
  have val : ∀ k < times.length, G k p = bilinear (datumS vals k i j, datumS vals k (i + 1) j,
      datumS vals k (i + 1) (j + 1), datumS vals k i (j + 1)) l m := by
    intro k hk
    have hk' : k < vals.length := by omega
    have hl : (vals.getD k []).length = r ∧ ∀ row ∈ vals.getD k [], row.length = c := by
      have := hall _ (List.getElem_mem hk')
      simpa [hk'] using this
    simp only [G, hc, one _ p i j l m hl.1 hl.2 hin ho]
    rfl
  refine ⟨(1 - α) * G k p + α * G k' p, by simp [hp], i, j, l, m, hin, ?_⟩
  rw [val k hw.2.2.1, val k' hw.2.2.2.1]
  simp only [bilinear]
  ring

end

namespace FileEvalSSpec

/-- One cell, with the given longitudes and latitudes of its four nodes. -/
def cellFile (x y : List ℚ) : File ℚ :=
  ⟨[⟨"Lon", ⟨[2, 2], x⟩, none, none, none⟩, ⟨"Lat", ⟨[2, 2], y⟩, none, none, none⟩], none⟩

theorem cellFile_is (x0 x1 x2 x3 y0 y1 y2 y3 : ℚ)
    (hu : Unfolded (x0, x2, x3, x1) (y0, y2, y3, y1)) :
    GridFile (cellFile [x0, x1, x2, x3] [y0, y1, y2, y3]) 2 2 [x0, x1, x2, x3] [y0, y1, y2, y3] := by
  have low : "Lon".toLower = "lon" ∧ "Lat".toLower = "lat" := by decide +kernel
  have has : ∀ n, Has (cellFile [x0, x1, x2, x3] [y0, y1, y2, y3]) n ↔ n = "lon" ∨ n = "lat" := by
    intro n
    simp only [Has, cellFile, List.mem_cons, List.not_mem_nil, or_false, exists_eq_or_imp,
      exists_eq_left, low]
    simp only [eq_comm]
  refine ⟨⟨"lon", "lat", _, _, ⟨[("node_lon", "node_lat")], _, rfl, ?_, ?_, ?_⟩,
    ⟨[], _, rfl, low.1, ?_⟩, ⟨[_], [], rfl, low.2, by simp⟩, rfl, rfl⟩, ⟨rfl, rfl⟩, ?_⟩
  · simp [has]
  · simp [has]
  · simp [has]
  · intro u hu
    rw [List.mem_singleton] at hu
    subst hu
    rw [low.2]
    decide
  · rintro i j ⟨a0, a1, a2, a3⟩ ⟨b0, b1, b2, b3⟩ hi hj ⟨h0, h1, h2, h3⟩ ⟨k0, k1, k2, k3⟩
    obtain rfl : i = 0 := by omega
    obtain rfl : j = 0 := by omega
    simp at h0 h1 h2 h3 k0 k1 k2 k3
    subst h0 h1 h2 h3 k0 k1 k2 k3
    exact hu

end FileEvalSSpec

/-- C204 fails for a grid whose first index runs east: the query raises an exception. -/
theorem C204_refuted : ¬ C204_statement := by
  intro h
  obtain ⟨g, hg, hv⟩ := h Rat.sqrt (fun k => by rw [Rat.sqrt_eq]) (fun _ => [])
    (cellFile [0, 0, 1, 1] [0, 1, 0, 1]) 2 2 [0, 0, 1, 1] [0, 1, 0, 1]
    (cellFile_is 0 0 1 1 0 1 0 1 ⟨by
      intro l m _
      simp only [bilinear]
      ring_nf
      norm_num, by
      intro u v _ _ e1 e2
      simp only [bilinear] at e1 e2
      refine Prod.ext ?_ ?_
      · linarith
      · linarith⟩)
  obtain ⟨k, k', α, -, hr⟩ := hv [0] [[[1, 1], [1, 1]]] 0 .absent 0 0 true (by simp [StrictIncr])
    (by simp) rfl (by simp) (Or.inl rfl)
  have hin : InCell 2 2 ([0, 0, 1, 1] : List ℚ) [0, 1, 0, 1] 0 0 (1 / 2, 1 / 4) (1 / 4) (1 / 2) :=
    ⟨by decide, by decide, by unfold InUnit; norm_num, (0, 1, 1, 0), (0, 0, 1, 1),
      ⟨rfl, rfl, rfl, rfl⟩, ⟨rfl, rfl, rfl, rfl⟩, by simp only [bilinear]; norm_num,
      by simp only [bilinear]; norm_num⟩
  obtain ⟨out, ho, -⟩ := hr [⟨some (0, 0), (1 / 2, 1 / 4), 0⟩] (by
    intro p hp
    rw [List.mem_singleton] at hp
    subst hp
    exact ⟨Or.inl ⟨0, 0, 1 / 4, 1 / 2, rfl, hin⟩, 0, 0, 1 / 4, 1 / 2, hin⟩)
  have he : (match loadS (fun _ => []) (cellFile [0, 0, 1, 1] [0, 1, 0, 1]) with
      | .ok g => at' (ofFile true (some [0]) 0 .absent
          (.one (([[[1, 1], [1, 1]]] : List (List (List ℚ))).map fun s : List (List ℚ) =>
            s.map (List.map fun v => (⟨v, false⟩ : SInterp.MV ℚ)))) [2, 2])
          (xyForS Rat.sqrt g) (0 + 2) [⟨some (0, 0), (1 / 2, 1 / 4), 0⟩] 0 true
      | .error e => .error e) = .error .assertionError := by
    decide +kernel
  rw [hg] at he
  have := ho.symm.trans he
  cases this

/-- A cell whose rows run east has the meaning of the file, for the square root of the reals. -/
example : ∃ f : File ℝ, MeansS Real.sqrt (fun _ => []) f 2 2 [0, 2, 0, 2] [0, 0, 2, 2] := by
  refine ⟨⟨[⟨"lon", ⟨[2, 2], [0, 2, 0, 2]⟩, none, none, none⟩,
    ⟨"lat", ⟨[2, 2], [0, 0, 2, 2]⟩, none, none, none⟩], none⟩, ?_⟩
  have low : "lon".toLower = "lon" ∧ "lat".toLower = "lat" := by decide +kernel
  refine C204_partial Real.sqrt (fun k hk => Real.mul_self_sqrt hk) _ _ 2 2 _ _
    ⟨⟨"lon", "lat", _, _, ⟨[("node_lon", "node_lat")], _, rfl, ⟨_, List.mem_cons_self, low.1⟩,
      ⟨_, List.mem_cons_of_mem _ List.mem_cons_self, low.2⟩, ?_⟩,
    ⟨[], _, rfl, low.1, ?_⟩, ⟨[_], [], rfl, low.2, by simp⟩, rfl, rfl⟩, ⟨rfl, rfl⟩, ?_⟩ ?_
  · rintro p hp ⟨⟨v, hv, e⟩, -⟩
    rw [List.mem_singleton] at hp
    subst hp
    simp only [List.mem_cons, List.not_mem_nil, or_false] at hv
    rcases hv with rfl | rfl
    · rw [low.1] at e; exact absurd e (by decide)
    · rw [low.2] at e; exact absurd e (by decide)
  · intro u hu
    rw [List.mem_singleton] at hu
    subst hu
    rw [low.2]
    decide
  · rintro i j ⟨a0, a1, a2, a3⟩ ⟨b0, b1, b2, b3⟩ hi hj ⟨h0, h1, h2, h3⟩ ⟨k0, k1, k2, k3⟩
    obtain rfl : i = 0 := by omega
    obtain rfl : j = 0 := by omega
    simp at h0 h1 h2 h3 k0 k1 k2 k3
    subst h0 h1 h2 h3 k0 k1 k2 k3
    refine ⟨?_, ?_⟩
    · intro l m _
      simp only [bilinear]
      ring_nf
      norm_num
    · intro u v _ _ e1 e2
      simp only [bilinear] at e1 e2
      refine Prod.ext ?_ ?_
      · linarith
      · linarith
  · rintro i j ⟨a0, a1, a2, a3⟩ m hi hj ⟨h0, h1, h2, h3⟩ - -
    obtain rfl : i = 0 := by omega
    obtain rfl : j = 0 := by omega
    simp at h0 h1 h2 h3
    subst h0 h1 h2 h3
    simp only [bilinear]
    ring_nf
    norm_num

/-- What such a cell gives at a point between two times. -/
example : (match loadS (fun _ => []) (cellFile [0, 2, 0, 2] [0, 0, 2, 2]) with
    | .ok g => at' (ofFile true (some [0, 10]) 0 .absent
        (.one (([[[0, 4], [8, 12]], [[2, 2], [2, 2]]] : List (List (List ℚ))).map fun s : List (List ℚ) =>
          s.map (List.map fun v => (⟨v, false⟩ : SInterp.MV ℚ)))) [2, 2])
        (xyForS Rat.sqrt g) 2 [⟨some (0, 0), (1 / 2, 1), 0⟩] 5 false
    | .error e => .error e) = .ok [⟨some (7 / 2), false⟩] := by
  decide +kernel

end Verif
