import Verif.Model.SigmaAt
import Verif.Props.At
import Mathlib.Data.Rat.Sqrt

/-!
# C131, C132: values at sigma depths
-/

set_option autoImplicit false

namespace Verif
open Verif.At Verif.DepthM Verif.Spec Verif.TimeM Verif.UGeom

section
variable {K P σ N : Type} [Field K] [LinearOrder K] [IsStrictOrderedRing K]

omit [LinearOrder K] [IsStrictOrderedRing K] in
theorem numbers_ok {P : Type} (ps : List P) (g : P → K) :
    numbers (.ok (ps.map fun p => ({ value := some (g p), masked := false } : Cell K))) =
      .ok (ps.map g) := by
  unfold numbers
  simp only
  induction ps with
  | nil => rfl
  | cons p ps ih =>
    simp only [List.map_cons, mapE]
    rw [ih]
    rfl

omit [LinearOrder K] [IsStrictOrderedRing K] in
theorem rows_ok {P γ : Type} (pts : List P) (F : P → Nat → γ) (G : P → γ)
    (h : ∀ n p, pts[n]? = some p → F p n = G p) :
    (pts.zipIdx.map fun q => F q.1 q.2) = pts.map G := by
  apply List.ext_getElem?
  intro n
  rw [List.getElem?_map, List.getElem?_map, List.getElem?_zipIdx]
  rcases hp : pts[n]? with _ | p
  · rfl
  · simp [h n p hp]

omit [LinearOrder K] [IsStrictOrderedRing K] in
theorem getD_map_of {P : Type} (pts : List P) (g : P → K) (n : Nat) (p : P) (h : pts[n]? = some p) :
    (pts.map g).getD n 0 = g p := by
  simp [List.getD, List.getElem?_map, h]

/-- A field linear in position and time and, with a constant rate, in depth. -/
def inDepth (a c : K × K × K) (δ : K) : Multilinear K := ⟨a, (δ, 0, 0), c, (0, 0, 0)⟩

/-- From the horizontal stage to a whole evaluation: the horizontal stage gives, for a slice with the
values `F` on the nodes, `I p F` at the point `p`; `I` is additive, homogeneous and exact for linear
fields; the depth object picks for every point two levels `k`, `k + 1` of the column
`-(H p + Z p) * sig k` and the weight that reproduces its depth. -/
theorem sigma_exact (xy : σ → List P → Except Err (List (Cell K))) (z : P → K) (pos : P → K × K)
    (npos : N → K × K) (I : P → (N → K) → K) (Q : P → Prop) (Hold : (N → K) → σ → Prop)
    (hxy : ∀ F s, Hold F s → ∀ ps : List P, (∀ p ∈ ps, Q p) →
      xy s ps = .ok (ps.map fun p => { value := some (I p F), masked := false }))
    (hadd : ∀ p, Q p → ∀ F G, I p (fun n => F n + G n) = I p F + I p G)
    (hmul : ∀ p, Q p → ∀ c F, I p (fun n => c * F n) = c * I p F)
    (hlin : ∀ p, Q p → ∀ c : K × K × K,
      I p (fun n => c.1 + c.2.1 * (npos n).1 + c.2.2 * (npos n).2) =
        c.1 + c.2.1 * (pos p).1 + c.2.2 * (pos p).2)
    (times : List Int) (hs : StrictIncr times) (sig : List K) (hn : 2 ≤ sig.length)
    (a c : K × K × K) (δ : K) (h : N → K) (ζ : Int → N → K) (zs : List σ)
    (hzs : List.Forall₂ (fun (ti : Int) s => Hold (ζ ti) s) times zs) (data : List (List σ))
    (hdata : List.Forall₂ (fun (ti : Int) row => List.Forall₂ (fun s sl => Hold (fun n =>
      (inDepth a c δ).at (npos n) (-(h n + ζ ti n) * s) (ti : K)) sl)
      sig row) times data)
    (t : Int) (e : Bool) (ht : OnAxis times t) (pts : List P) (hq : ∀ p ∈ pts, Q p) (H Z : P → K)
    (hH : ∀ p ∈ pts, H p = I p h) (ds : DepthSys K P)
    (hZ : eval xy times ds (.time zs) pts t e =
      .ok (pts.map fun p => { value := some (Z p), masked := false }))
    (hnl : sig.length ≠ ds.numLayers) (ents : List (Entry K)) (ha : ds.alphas pts = .ok ents)
    (hpk : PicksBeforeLast sig.length ents pts)
    (hdetail : ∀ (n : Nat) (p : P) (en : Entry K), pts[n]? = some p → ents[n]? = some en →
      en.masked = false ∧ ∃ (β : K) (k : Nat) (sa sb : K), en.alpha = some β ∧ en.idx = (k : Int) ∧
        sig[k]? = some sa ∧ sig[k + 1]? = some sb ∧
        -(H p + Z p) * sa + (-(H p + Z p) * sb - -(H p + Z p) * sa) * β = z p) :
    eval xy times ds (.timeDepth data) pts t e =
      .ok (pts.map fun p =>
        { value := some ((inDepth a c δ).at (pos p) (z p) (t : K)), masked := false }) := by
  have hne : times ≠ [] := by
    obtain ⟨lo, hi, h0, _⟩ := ht
    rintro rfl
    simp at h0
  let T : Nat → Int := fun i => (times[i]?).getD 0
  let S : Nat → K := fun k => (sig[k]?).getD 0
  have hg := List.forall₂_iff_get.mp hdata
  have hserve : ServedBy xy times sig.length data Q (fun i k p => I p fun n =>
      (inDepth a c δ).at (npos n) (-(h n + ζ (T i) n) * S k)
        ((T i : Int) : K)) := by
    refine ⟨hg.1.symm, ?_, ?_⟩
    · intro r hr
      obtain ⟨i, hi, rfl⟩ := List.getElem_of_mem hr
      exact (hg.2 i (by omega) hi).length_eq.symm
    · intro i k r s hr hsl ps hps
      obtain ⟨hi, rfl⟩ := List.getElem?_eq_some_iff.mp hr
      obtain ⟨hk, rfl⟩ := List.getElem?_eq_some_iff.mp hsl
      have hi' : i < times.length := by omega
      have hrow := List.forall₂_iff_get.mp (hg.2 i hi' hi)
      have hk' : k < sig.length := by rw [hrow.1]; exact hk
      have := hxy _ _ (hrow.2 k hk' hk) ps hps
      rw [show data[i][k] = (data.get ⟨i, hi⟩).get ⟨k, hk⟩ from rfl, this]
      simp only [T, S, List.getElem?_eq_getElem hi', List.getElem?_eq_getElem hk', Option.getD_some,
        List.get_eq_getElem]
  obtain ⟨i, j, α, hw, hcase⟩ := timeStage_cases (K := K) hs hne t e (Or.inr (Or.inr ht))
  obtain ⟨ta, tb, hta, htb, hab⟩ := weights_on_axis hs ht hw
  have hgz := List.forall₂_iff_get.mp hzs
  have hZ' := surface_of_case xy times zs hgz.1.symm Q (fun i p => I p (ζ (T i))) (by
    intro i s hi ps hps
    obtain ⟨hi2, rfl⟩ := List.getElem?_eq_some_iff.mp hi
    have hi' : i < times.length := by omega
    have := hxy _ _ (hgz.2 i hi' hi2) ps hps
    rw [show zs[i] = zs.get ⟨i, hi2⟩ from rfl, this]
    simp only [T, List.getElem?_eq_getElem hi', Option.getD_some, List.get_eq_getElem])
    t e i j α hw hcase ds pts hq
  rw [hZ] at hZ'
  have hZp : ∀ p ∈ pts, Z p = (1 - α) * I p (ζ (T i)) + α * I p (ζ (T j)) := by
    intro p hp
    simp only [Except.ok.injEq] at hZ'
    have := List.map_inj_left.mp hZ' p hp
    simpa using this
  obtain ⟨out, ho, hol, hr⟩ := levels_of_case xy times hne sig.length hn data Q _ hserve t e i j α hw
    hcase ds pts ents hq hnl ha hpk
  rw [ho]
  congr 1
  apply List.ext_getElem?
  intro n
  rcases hpn : pts[n]? with _ | p
  · rw [List.getElem?_map, hpn]
    have : pts.length ≤ n := by simpa using hpn
    simp [List.getElem?_eq_none_iff, hol, this]
  · have hen : ∃ ent, ents[n]? = some ent := by
      have hn' : n < pts.length := (List.getElem?_eq_some_iff.mp hpn).1
      exact ⟨_, List.getElem?_eq_getElem (by rw [hpk.1]; exact hn')⟩
    obtain ⟨ent, hen⟩ := hen
    have hpm : p ∈ pts := List.mem_of_getElem? hpn
    have hqp := hq p hpm
    obtain ⟨cc, hc, hcm, hcv⟩ := hr n p ent hpn hen
    obtain ⟨hm, β, k, sa, sb, hβ, hk, hsa, hsb, hzz⟩ := hdetail n p ent hpn hen
    obtain ⟨β', v, w, hβ', hv, hw', hval⟩ := hcv hm
    rw [hβ] at hβ'; cases hβ'
    have hk1 : k + 1 < sig.length := (List.getElem?_eq_some_iff.mp hsb).1
    have hF : ∀ (i : Nat) (s : K), I p (fun n => (inDepth a c δ).at (npos n)
        (-(h n + ζ (T i) n) * s) ((T i : Int) : K)) =
        (inDepth a c δ).at (pos p) (-(I p h + I p (ζ (T i))) * s)
          ((T i : Int) : K) := by
      intro i s
      have e1 : (fun n => (inDepth a c δ).at (npos n)
          (-(h n + ζ (T i) n) * s) ((T i : Int) : K)) =
          fun n => ((a.1 + (T i : K) * c.1) + (a.2.1 + (T i : K) * c.2.1) * (npos n).1 +
            (a.2.2 + (T i : K) * c.2.2) * (npos n).2) + (-(δ * s)) * (h n + ζ (T i) n) := by
        funext n
        unfold Multilinear.at inDepth
        ring
      have hl := hlin p hqp
        (a.1 + (T i : K) * c.1, a.2.1 + (T i : K) * c.2.1, a.2.2 + (T i : K) * c.2.2)
      simp only at hl
      rw [e1, hadd p hqp (fun n => (a.1 + (T i : K) * c.1) +
        (a.2.1 + (T i : K) * c.2.1) * (npos n).1 + (a.2.2 + (T i : K) * c.2.2) * (npos n).2), hl,
        hmul p hqp, hadd p hqp h]
      unfold Multilinear.at inDepth
      ring
    have hmix : ∀ (x : K) (i : Nat), LevelMix sig.length (fun k => I p fun n =>
        (inDepth a c δ).at (npos n) (-(h n + ζ (T i) n) * S k)
          ((T i : Int) : K)) ent.idx β x →
        x = (1 - β) * (inDepth a c δ).at (pos p)
            (-(I p h + I p (ζ (T i))) * sa) ((T i : Int) : K) +
          β * (inDepth a c δ).at (pos p)
            (-(I p h + I p (ζ (T i))) * sb) ((T i : Int) : K) := by
      intro x i hx
      rcases hx with ⟨k', h1, h2, h3⟩ | ⟨h1, _, _⟩ | ⟨h1, _, _⟩
      · obtain rfl : k' = k := by omega
        rw [h3]
        simp only [S, hsa, hsb, Option.getD_some, hF]
      · omega
      · omega
    rw [hc, List.getElem?_map, hpn]
    simp only [Option.map_some]
    congr 1
    obtain ⟨cv, cm⟩ := cc
    simp only at hcm hval
    rw [hcm, hm, hval, hmix v i hv, hmix w j hw']
    congr 2
    have hTi : T i = ta := by simp only [T, hta, Option.getD_some]
    have hTj : T j = tb := by simp only [T, htb, Option.getD_some]
    rw [← hzz, hZp p hpm, hH p hpm, hTi, hTj, ← hab]
    unfold Multilinear.at inDepth
    ring

end

/-! ## Triangles -/

section
variable {K : Type} [Field K] [LinearOrder K] [IsStrictOrderedRing K]

/-- A slice of node data: the value at each node from its position and its number. -/
def nodeSlice (m : UGeom.Mesh K) (F : (K × K) × Nat → K) : List (Option K) :=
  m.nodes.zipIdx.map fun q => some (F q)

/-- The value at a point of a slice given on the nodes; 0 where there is none. -/
def uAt (m : UGeom.Mesh K) (p : UPt K) (F : (K × K) × Nat → K) : K :=
  match UGeom.interpNode m (nodeSlice m F) p.face p.pos with
  | .ok (some x) => x
  | _ => 0

theorem uAt_corners (m : UGeom.Mesh K) (p : UPt K) (hp : OnTriangle m p) :
    ∃ (ia ib ic : Int) (q1 q2 q3 : (K × K) × Nat) (a b c : K),
      Np.pyGet m.faces p.face = .ok [ia, ib, ic] ∧ Np.pyGet m.nodes.zipIdx ia = .ok q1 ∧
      Np.pyGet m.nodes.zipIdx ib = .ok q2 ∧ Np.pyGet m.nodes.zipIdx ic = .ok q3 ∧
      Weighted q1.1 q2.1 q3.1 p.pos a b c ∧
      (InItsTriangle m p → 0 ≤ a ∧ 0 ≤ b ∧ 0 ≤ c) ∧
      ∀ F, UGeom.interpNode m (nodeSlice m F) p.face p.pos =
        .ok (some (F q1 * a + F q2 * b + F q3 * c)) := by
  obtain ⟨hf, ia, ib, ic, A, B, C, h1, h2, h3, h4, h5⟩ := hp
  have hz : ∀ (i : Int) (A : K × K), Np.pyGet m.nodes i = .ok A →
      ∃ k, Np.pyGet m.nodes.zipIdx i = .ok (A, k) := by
    intro i A hA
    obtain ⟨y, hy, _⟩ := pyGet_same (s := m.nodes.zipIdx) (by simp) hA
    have := pyGet_map' (Prod.fst : (K × K) × Nat → K × K) _ _ _ hy
    have hm : m.nodes.zipIdx.map Prod.fst = m.nodes := by simp
    rw [hm, hA] at this
    cases this
    exact ⟨y.2, hy⟩
  obtain ⟨ka, ga⟩ := hz _ _ h2
  obtain ⟨kb, gb⟩ := hz _ _ h3
  obtain ⟨kc, gc⟩ := hz _ _ h4
  have hon : ∀ F, OnFace m (nodeSlice m F) p.face A B C (F (A, ka)) (F (B, kb)) (F (C, kc)) :=
    fun F => ⟨ia, ib, ic, h1, h2, h3, h4,
      pyGet_map' (fun q => some (F q)) _ _ _ ga, pyGet_map' (fun q => some (F q)) _ _ _ gb,
      pyGet_map' (fun q => some (F q)) _ _ _ gc⟩
  obtain ⟨a, b, c, hw, _⟩ := interpNode_on (hon fun _ => 0) hf h5 p.pos
  refine ⟨ia, ib, ic, (A, ka), (B, kb), (C, kc), a, b, c, h1, ga, gb, gc, hw, ?_, ?_⟩
  · rintro ⟨_, ia', ib', ic', A', B', C', g1, g2, g3, g4, _, a', b', c', ha, hb, hc, hw'⟩
    rw [h1] at g1; cases g1
    rw [h2] at g2; rw [h3] at g3; rw [h4] at g4
    cases g2; cases g3; cases g4
    have hu := (weighted_iff (denom_ne h5) p.pos a b c).mp hw
    have hu' := (weighted_iff (denom_ne h5) p.pos a' b' c').mp hw'
    obtain rfl : a' = a := hu'.1.trans hu.1.symm
    obtain rfl : b' = b := hu'.2.1.trans hu.2.1.symm
    obtain rfl : c' = c := hu'.2.2.trans hu.2.2.symm
    exact ⟨ha, hb, hc⟩
  intro F
  obtain ⟨a', b', c', hw', e⟩ := interpNode_on (hon F) hf h5 p.pos
  have hu := (weighted_iff (denom_ne h5) p.pos a b c).mp hw
  have hu' := (weighted_iff (denom_ne h5) p.pos a' b' c').mp hw'
  obtain rfl : a' = a := hu'.1.trans hu.1.symm
  obtain rfl : b' = b := hu'.2.1.trans hu.2.1.symm
  obtain rfl : c' = c := hu'.2.2.trans hu.2.2.symm
  exact e

theorem uAt_weights (m : UGeom.Mesh K) (p : UPt K) (hp : OnTriangle m p) :
    ∃ (q1 q2 q3 : (K × K) × Nat) (a b c : K), Weighted q1.1 q2.1 q3.1 p.pos a b c ∧
      (InItsTriangle m p → 0 ≤ a ∧ 0 ≤ b ∧ 0 ≤ c) ∧
      ∀ F, UGeom.interpNode m (nodeSlice m F) p.face p.pos =
        .ok (some (F q1 * a + F q2 * b + F q3 * c)) := by
  obtain ⟨_, _, _, q1, q2, q3, a, b, c, _, _, _, _, h⟩ := uAt_corners m p hp
  exact ⟨q1, q2, q3, a, b, c, h⟩

theorem xyU_at (m : UGeom.Mesh K) (F : (K × K) × Nat → K) (ps : List (UPt K))
    (h : ∀ p ∈ ps, OnTriangle m p) :
    xyU m .node (nodeSlice m F) ps =
      .ok (ps.map fun p => { value := some (uAt m p F), masked := false }) := by
  have hmap : mapE (fun x : Int × (K × K) => UGeom.interpNode m (nodeSlice m F) x.1 x.2)
      (ps.map fun p => (p.face, p.pos)) =
      .ok ((ps.map fun p => (p.face, p.pos)).map fun x => some (uAt m ⟨x.1, x.2, 0⟩ F)) := by
    refine mapE_ok ?_
    intro x hx
    obtain ⟨p, hp, rfl⟩ := List.mem_map.mp hx
    obtain ⟨q1, q2, q3, a, b, c, hw, _, hF⟩ := uAt_weights m p (h p hp)
    simp only [uAt, hF]
  unfold xyU UGeom.interpolate
  simp only [hmap, List.map_map]
  rfl

/-- The bathymetry, free surface and sigma levels of an unstructured grid, given on its nodes; `sg` has
one entry per level. -/
def nodeFvcom (m : UGeom.Mesh K) (h : (K × K) × Nat → K) (ζ : Int → (K × K) × Nat → K)
    (times : List Int) (sg : List ((K × K) × Nat → K)) (node0 : List K) (layers : Nat)
    (forms : MaskForm × MaskForm × MaskForm) : FvcomObj K (List (Option K)) where
  bathymetry := nodeSlice m h
  zeta := times.map fun ti => nodeSlice m (ζ ti)
  siglev := sg.map fun s => nodeSlice m s
  node0 := node0
  numLayers := layers
  forms := forms

/-- Sigma runs down from 0 at the surface to -1 at the seafloor. -/
def SigmaDown (sigma : List K) : Prop :=
  StrictDecr sigma ∧ sigma.head? = some 0 ∧ sigma.getLast? = some (-1)

omit [LinearOrder K] [IsStrictOrderedRing K] in
theorem sigma_two {sigma : List K} (h0 : sigma.head? = some 0)
    (h1 : sigma.getLast? = some (-1)) (hne : (0 : K) ≠ -1) : 2 ≤ sigma.length := by
  rcases sigma with _ | ⟨a, _ | ⟨b, t⟩⟩
  · simp at h0
  · simp only [List.head?_cons, Option.some.injEq, List.getLast?_singleton] at h0 h1
    exact absurd (h0.symm.trans h1) hne
  · simp

/-- The parts of the depth object evaluated at the points asked for give `H` (bathymetry) and `Z` (free
surface at the time asked for). -/
def ColumnsAt (m : UGeom.Mesh K) (times : List Int) (o : FvcomObj K (List (Option K)))
    (sbc bbc : BC) (t : Int) (e : Bool) (pts : List (UPt K)) (H Z : UPt K → K) : Prop :=
  eval (xyU m .node) times (fvcomSys (xyU m .node) UPt.z times o sbc bbc t e) (.flat o.bathymetry)
      pts t e = .ok (pts.map fun p => { value := some (H p), masked := false }) ∧
    eval (xyU m .node) times (fvcomSys (xyU m .node) UPt.z times o sbc bbc t e) (.time o.zeta)
      pts t e = .ok (pts.map fun p => { value := some (Z p), masked := false })

theorem uAt_of {m : UGeom.Mesh K} {p : UPt K} {F : (K × K) × Nat → K} {x : K}
    (h : UGeom.interpNode m (nodeSlice m F) p.face p.pos = .ok (some x)) : uAt m p F = x := by
  unfold uAt
  rw [h]

private theorem siglev_ok (m : UGeom.Mesh K) (sg : List ((K × K) × Nat → K)) (pts : List (UPt K))
    (h : ∀ p ∈ pts, OnTriangle m p) :
    mapE (fun s => numbers (xyU m .node s pts)) (sg.map fun s => nodeSlice m s) =
      .ok (sg.map fun s => pts.map fun p => uAt m p s) := by
  induction sg with
  | nil => rfl
  | cons s sg ih =>
    simp only [List.map_cons, mapE]
    rw [ih, xyU_at m s pts h, numbers_ok]

/-- The depth query reduces to the columns at the points, if the profiles have a mask array; else it
fails once the depths have been binned. -/
theorem fvcom_alphas (m : UGeom.Mesh K) (h : (K × K) × Nat → K)
    (ζ : Int → (K × K) × Nat → K) (times : List Int) (sg : List ((K × K) × Nat → K)) (node0 : List K)
    (layers : Nat) (forms : MaskForm × MaskForm × MaskForm) (sbc bbc : BC) (t : Int) (e : Bool)
    (pts : List (UPt K)) (H Z : UPt K → K) (hon : ∀ p ∈ pts, OnTriangle m p)
    (hHZ : ColumnsAt m times (nodeFvcom m h ζ times sg node0 layers forms) sbc bbc t e pts H Z)
    (hn : 2 ≤ node0.length)
    (hc : ∀ p ∈ pts, 0 < H p + Z p ∧ SigmaDown (sg.map fun s => uAt m p s)) :
    (fvcomSys (xyU m .node) UPt.z times (nodeFvcom m h ζ times sg node0 layers forms) sbc bbc t
      e).alphas pts =
      match (nodeFvcom m h ζ times sg node0 layers forms).form.column with
      | .error x => .error x
      | .ok () => fvcomAlphas (fun x => x) node0 layers sbc bbc
          (pts.map fun p => (p.z, H p, Z p, false, sg.map fun s => uAt m p s)) := by
  obtain ⟨hH, hZ⟩ := hHZ
  unfold fvcomSys
  simp only
  rw [if_neg (show ¬ (nodeFvcom m h ζ times sg node0 layers forms).node0.length = 1 by
    simp only [nodeFvcom]; omega)]
  have e1 : numbers (timeStage times (fun i => withSlice (xyU m .node)
      (Np.pyGet (nodeFvcom m h ζ times sg node0 layers forms).zeta i) pts) t e) = .ok (pts.map Z) := by
    unfold eval at hZ
    simp only at hZ
    rw [hZ, numbers_ok]
  have e2 : numbers (xyU m .node (nodeFvcom m h ζ times sg node0 layers forms).bathymetry pts) =
      .ok (pts.map H) := by
    unfold eval at hH
    simp only at hH
    rw [hH, numbers_ok]
  have e3 : mapE (fun s => numbers (xyU m .node s pts))
      (nodeFvcom m h ζ times sg node0 layers forms).siglev =
      .ok (sg.map fun s => pts.map fun p => uAt m p s) := siglev_ok m sg pts hon
  rw [e1, e2, e3]
  simp only
  have er : fvcomRows UPt.z pts (pts.map H) (pts.map Z) (sg.map fun s => pts.map fun p => uAt m p s) =
      pts.map fun p => (p.z, H p, Z p, false, sg.map fun s => uAt m p s) := by
    unfold fvcomRows
    apply rows_ok pts (fun p n => (UPt.z p, (pts.map H).getD n 0, (pts.map Z).getD n 0, false,
      (sg.map fun s => pts.map fun p => uAt m p s).map fun r => r.getD n 0))
    intro n p hp
    rw [getD_map_of pts H n p hp, getD_map_of pts Z n p hp, List.map_map]
    simp only [Prod.mk.injEq, true_and]
    apply List.map_congr_left
    intro s _
    simp only [Function.comp]
    exact getD_map_of pts (fun p => uAt m p s) n p hp
  rw [er]
  have hd : ∃ ks, mapE (fun r : K × K × K × Bool × List K =>
      Np.digitize r.1 (fvcomProfile r.2.1 r.2.2.1 r.2.2.2.2) false)
      (pts.map fun p => (p.z, H p, Z p, false, sg.map fun s => uAt m p s)) = .ok ks := by
    obtain ⟨ks, hk, _⟩ := mapE_rel (R := fun _ _ => True)
      (f := fun r : K × K × K × Bool × List K =>
        Np.digitize r.1 (fvcomProfile r.2.1 r.2.2.1 r.2.2.2.2) false)
      (l := pts.map fun p => (p.z, H p, Z p, false, sg.map fun s => uAt m p s)) (by
        intro r hr
        obtain ⟨p, hp, rfl⟩ := List.mem_map.mp hr
        obtain ⟨c1, c2, c3, c4⟩ := hc p hp
        obtain ⟨_, hinc, _⟩ := C16_fvcom_column (H p) (Z p) c1 _ c2 c3 c4
        obtain ⟨k, hk, _⟩ := Np.digitize_incr hinc p.z
        exact ⟨k, hk, trivial⟩)
    exact ⟨ks, hk⟩
  obtain ⟨ks, hk⟩ := hd
  rw [hk]
  simp only
  cases (nodeFvcom m h ζ times sg node0 layers forms).form.column <;> rfl

/-! ## C131 -/

theorem inTri_on {m : UGeom.Mesh K} {p : UPt K} (hp : InItsTriangle m p) : OnTriangle m p := by
  obtain ⟨hf, a, b, c, A, B, C, h1, h2, h3, h4, h5, _⟩ := hp
  exact ⟨hf, a, b, c, A, B, C, h1, h2, h3, h4, h5⟩

theorem uAt_convex (m : UGeom.Mesh K) (p : UPt K) (hp : InItsTriangle m p) :
    ∃ (q1 q2 q3 : (K × K) × Nat) (a b c : K), 0 ≤ a ∧ 0 ≤ b ∧ 0 ≤ c ∧ a + b + c = 1 ∧
      ∀ F, uAt m p F = F q1 * a + F q2 * b + F q3 * c := by
  obtain ⟨q1, q2, q3, a, b, c, hw, hin, hF⟩ := uAt_weights m p (inTri_on hp)
  obtain ⟨ha, hb, hc⟩ := hin hp
  exact ⟨q1, q2, q3, a, b, c, ha, hb, hc, hw.1, fun F => uAt_of (hF F)⟩

private theorem mix_pos {a b c d1 d2 d3 : K} (ha : 0 ≤ a) (hb : 0 ≤ b) (hc : 0 ≤ c)
    (hs : a + b + c = 1) (h1 : 0 < d1) (h2 : 0 < d2) (h3 : 0 < d3) :
    0 < d1 * a + d2 * b + d3 * c := by
  have g1 := mul_nonneg h1.le ha
  have g2 := mul_nonneg h2.le hb
  have g3 := mul_nonneg h3.le hc
  rcases ha.lt_or_eq with h | h
  · have := mul_pos h1 h
    linarith
  · rcases hb.lt_or_eq with h' | h'
    · have := mul_pos h2 h'
      linarith
    · have : 0 < c := by linarith
      have := mul_pos h3 this
      linarith

/-- In its triangle a point's own sigma list runs from 0 to -1 like those of the nodes. -/
theorem sigma_at (m : UGeom.Mesh K) (p : UPt K) (hp : InItsTriangle m p)
    (sg : List ((K × K) × Nat → K)) (h : ∀ q, SigmaDown (sg.map fun s => s q)) :
    SigmaDown (sg.map fun s => uAt m p s) := by
  obtain ⟨q1, q2, q3, a, b, c, ha, hb, hc, hsum, hF⟩ := uAt_convex m p hp
  refine ⟨?_, ?_, ?_⟩
  · unfold StrictDecr
    rw [List.pairwise_map]
    have k1 := List.pairwise_map.mp (h q1).1
    have k2 := List.pairwise_map.mp (h q2).1
    have k3 := List.pairwise_map.mp (h q3).1
    refine ((k1.and k2).and k3).imp ?_
    rintro s s' ⟨⟨r1, r2⟩, r3⟩
    rw [hF, hF]
    have := mix_pos ha hb hc hsum (sub_pos.mpr r1) (sub_pos.mpr r2) (sub_pos.mpr r3)
    show _ < _
    linarith
  · have l1 := (h q1).2.1
    have l2 := (h q2).2.1
    have l3 := (h q3).2.1
    rw [List.head?_map] at l1 l2 l3 ⊢
    obtain ⟨s, hs, z1⟩ := Option.map_eq_some_iff.mp l1
    rw [hs] at l2 l3 ⊢
    simp only [Option.map_some, Option.some.injEq] at l2 l3 ⊢
    rw [hF, z1, l2, l3]
    ring
  · have l1 := (h q1).2.2
    have l2 := (h q2).2.2
    have l3 := (h q3).2.2
    rw [List.getLast?_map] at l1 l2 l3 ⊢
    obtain ⟨s, hs, z1⟩ := Option.map_eq_some_iff.mp l1
    rw [hs] at l2 l3 ⊢
    simp only [Option.map_some, Option.some.injEq] at l2 l3 ⊢
    rw [hF, z1, l2, l3]
    linear_combination -hsum

/-- Some of the three arrays behind a depth object (bathymetry, free surface, sigma) has a mask
array. -/
def HasMaskArray (forms : MaskForm × MaskForm × MaskForm) : Prop :=
  forms.1 = .full ∨ forms.2.1 = .full ∨ forms.2.2 = .full

theorem column_ok (f : MaskForm × MaskForm × MaskForm) (h : HasMaskArray f) :
    (f.1.combine (f.2.1.combine f.2.2)).column = .ok () := by
  obtain ⟨f1, f2, f3⟩ := f
  unfold HasMaskArray at h
  cases f1 <;> cases f2 <;> cases f3 <;> simp [MaskForm.combine, MaskForm.column] at h ⊢

private theorem column_error (f : MaskForm × MaskForm × MaskForm) (h : ¬ HasMaskArray f) :
    ∃ x, (f.1.combine (f.2.1.combine f.2.2)).column = .error x := by
  obtain ⟨f1, f2, f3⟩ := f
  unfold HasMaskArray at h
  cases f1 <;> cases f2 <;> cases f3 <;> simp [MaskForm.combine, MaskForm.column] at h ⊢

/-- C131, unstructured grids. If one of bathymetry, free surface and sigma has a mask array, the depth
query succeeds and every point in the water, from the surface (included) to its own seafloor, gets two
neighbouring levels of its own column enclosing its depth. Missing: arrays without a mask array, where
the query fails (`C131_fails`). -/
theorem C131_partial (m : UGeom.Mesh K) (h : (K × K) × Nat → K) (ζ : Int → (K × K) × Nat → K)
    (times : List Int) (sg : List ((K × K) × Nat → K)) (hsg : ∀ q, SigmaDown (sg.map fun s => s q))
    (q0 : (K × K) × Nat) (layers : Nat) (forms : MaskForm × MaskForm × MaskForm)
    (hf : HasMaskArray forms) (sbc bbc : BC) (t : Int) (e : Bool) (pts : List (UPt K))
    (H Z : UPt K → K) (hin : ∀ p ∈ pts, InItsTriangle m p ∧ 0 < H p + Z p)
    (hHZ : ColumnsAt m times (nodeFvcom m h ζ times sg (sg.map fun s => s q0) layers forms) sbc bbc t
      e pts H Z) :
    ∃ ents, (fvcomSys (xyU m .node) UPt.z times
        (nodeFvcom m h ζ times sg (sg.map fun s => s q0) layers forms) sbc bbc t e).alphas pts =
        .ok ents ∧
      List.Forall₂ (fun p en => 0 ≤ p.z → p.z < H p + Z p → en.masked = false ∧
        ∃ (α : K) (col : List K), en.alpha = some α ∧ StrictIncr col ∧ col.head? = some 0 ∧
          col.getLast? = some (H p + Z p) ∧ Encloses col p.z en.idx α ∧
          Reconstructs col p.z en.idx α) pts ents := by
  have hn : 2 ≤ (sg.map fun s => s q0).length :=
    sigma_two (hsg q0).2.1 (hsg q0).2.2 (by norm_num)
  have hcol : ∀ p ∈ pts, 0 < H p + Z p ∧ SigmaDown (sg.map fun s => uAt m p s) := fun p hp =>
    ⟨(hin p hp).2, sigma_at m p (hin p hp).1 sg hsg⟩
  rw [fvcom_alphas m h ζ times sg _ layers forms sbc bbc t e pts H Z
    (fun p hp => inTri_on (hin p hp).1) hHZ hn hcol]
  have hfc : (nodeFvcom m h ζ times sg (sg.map fun s => s q0) layers forms).form.column = .ok () :=
    column_ok forms hf
  rw [hfc]
  obtain ⟨ents, he, hr⟩ := C13_fvcom (fun x : K => x) Rounding.id (fun _ h => h)
    (sg.map fun s => s q0) (hsg q0).1 hn layers sbc bbc
    (pts.map fun p => (p.z, H p, Z p, false, sg.map fun s => uAt m p s)) (by
      intro r hr
      obtain ⟨p, hp, rfl⟩ := List.mem_map.mp hr
      obtain ⟨c1, c2, c3, c4⟩ := hcol p hp
      exact ⟨c1, c2, by simp, c3, c4⟩)
  refine ⟨ents, he, ?_⟩
  rw [List.forall₂_map_left_iff] at hr
  rw [List.forall₂_iff_get] at hr ⊢
  refine ⟨hr.1, fun i i1 i2 hlo hhi => ?_⟩
  obtain ⟨hm, α, hα, henc, hrec⟩ := hr.2 i i1 i2 rfl hlo hhi
  obtain ⟨c1, c2, c3, c4⟩ := hcol _ (List.get_mem pts ⟨i, i1⟩)
  obtain ⟨_, k2, k3, k4⟩ := C16_fvcom_column _ _ c1 _ c2 c3 c4
  exact ⟨hm, α, _, hα, k2, k3, k4, henc, hrec fun _ => rfl⟩

/-- C131 fails for every query, whatever the points, depths and boundary conditions, when none of the
three arrays has a mask array (data without missing values), unless there is a single level. -/
theorem C131_fails {P σ : Type} (xy : σ → List P → Except Err (List (Cell K))) (z : P → K)
    (times : List Int) (o : FvcomObj K σ) (ho : ¬ HasMaskArray o.forms) (hn : 2 ≤ o.node0.length)
    (sbc bbc : BC) (t : Int) (e : Bool) (pts : List P) :
    ∃ x, (fvcomSys xy z times o sbc bbc t e).alphas pts = .error x := by
  obtain ⟨x, hx⟩ := column_error _ ho
  have hx' : o.form.column = .error x := hx
  unfold fvcomSys
  simp only
  rw [if_neg (by omega)]
  split
  · split
    · exact ⟨_, rfl⟩
    · rw [hx']
      exact ⟨_, rfl⟩
  · exact ⟨_, rfl⟩
  · exact ⟨_, rfl⟩
  · exact ⟨_, rfl⟩

/-- The error, where the three fields can be evaluated: `AttributeError` if all three arrays are plain,
`IndexError` if some is a masked array. -/
theorem C131_fails_kind (m : UGeom.Mesh K) (h : (K × K) × Nat → K) (ζ : Int → (K × K) × Nat → K)
    (times : List Int) (sg : List ((K × K) × Nat → K)) (hsg : ∀ q, SigmaDown (sg.map fun s => s q))
    (q0 : (K × K) × Nat) (layers : Nat) (forms : MaskForm × MaskForm × MaskForm)
    (hf : ¬ HasMaskArray forms) (sbc bbc : BC) (t : Int) (e : Bool) (pts : List (UPt K))
    (H Z : UPt K → K) (hin : ∀ p ∈ pts, InItsTriangle m p ∧ 0 < H p + Z p)
    (hHZ : ColumnsAt m times (nodeFvcom m h ζ times sg (sg.map fun s => s q0) layers forms) sbc bbc t
      e pts H Z) :
    (forms = (.plain, .plain, .plain) → (fvcomSys (xyU m .node) UPt.z times
        (nodeFvcom m h ζ times sg (sg.map fun s => s q0) layers forms) sbc bbc t e).alphas pts =
        .error .attributeError) ∧
    (forms ≠ (.plain, .plain, .plain) → (fvcomSys (xyU m .node) UPt.z times
        (nodeFvcom m h ζ times sg (sg.map fun s => s q0) layers forms) sbc bbc t e).alphas pts =
        .error .indexError) := by
  have hn : 2 ≤ (sg.map fun s => s q0).length :=
    sigma_two (hsg q0).2.1 (hsg q0).2.2 (by norm_num)
  rw [fvcom_alphas m h ζ times sg _ layers forms sbc bbc t e pts H Z
    (fun p hp => inTri_on (hin p hp).1) hHZ hn fun p hp =>
      ⟨(hin p hp).2, sigma_at m p (hin p hp).1 sg hsg⟩]
  have hfc : (nodeFvcom m h ζ times sg (sg.map fun s => s q0) layers forms).form =
    forms.1.combine (forms.2.1.combine forms.2.2) := rfl
  rw [hfc]
  obtain ⟨f1, f2, f3⟩ := forms
  unfold HasMaskArray at hf
  cases f1 <;> cases f2 <;> cases f3 <;> simp [MaskForm.combine, MaskForm.column] at hf ⊢

/-- C131 in full: every form of the arrays. -/
def C131_statement : Prop :=
  ∀ (m : UGeom.Mesh ℚ) (h : (ℚ × ℚ) × Nat → ℚ) (ζ : Int → (ℚ × ℚ) × Nat → ℚ) (times : List Int)
    (sg : List ((ℚ × ℚ) × Nat → ℚ)) (q0 : (ℚ × ℚ) × Nat) (layers : Nat)
    (forms : MaskForm × MaskForm × MaskForm) (sbc bbc : BC) (t : Int) (e : Bool) (pts : List (UPt ℚ))
    (H Z : UPt ℚ → ℚ), (∀ q, SigmaDown (sg.map fun s => s q)) →
    (∀ p ∈ pts, InItsTriangle m p ∧ 0 < H p + Z p ∧ 0 ≤ p.z ∧ p.z < H p + Z p) →
    ColumnsAt m times (nodeFvcom m h ζ times sg (sg.map fun s => s q0) layers forms) sbc bbc t e pts
      H Z →
    ∃ ents, (fvcomSys (xyU m .node) UPt.z times
      (nodeFvcom m h ζ times sg (sg.map fun s => s q0) layers forms) sbc bbc t e).alphas pts = .ok ents

/-- The witness: one triangle with bathymetry 8, 16 and 32 m, a flat surface, three levels, no missing
values. -/
theorem C131_refuted : ¬ C131_statement := by
  intro hst
  obtain ⟨ents, he⟩ := hst oneTriangle (fun q => if q.2 = 0 then 8 else if q.2 = 1 then 16 else 32)
    (fun _ _ => 0) [0, 10] [fun _ => 0, fun _ => -1 / 2, fun _ => -1] ((0, 0), 0) 2
    (.nomask, .nomask, .nomask) .extrapolate .mask 5 false [⟨0, (1, 1), 6⟩] (fun _ => 16) (fun _ => 0)
    (by
      intro q
      refine ⟨?_, rfl, rfl⟩
      unfold StrictDecr
      simp only [List.map_cons, List.map_nil]
      decide +kernel)
    (by
      intro p hp
      simp only [List.mem_singleton] at hp
      subst hp
      refine ⟨⟨by show (0 : Int) ≠ -1; decide, 0, 1, 2, (0, 0), (4, 0), (0, 4), rfl, rfl, rfl, rfl,
        Or.inl (by unfold TurnsLeft; norm_num), 1 / 2, 1 / 4, 1 / 4, by norm_num, by norm_num,
        by norm_num, by norm_num, by norm_num, by norm_num⟩, by norm_num, by norm_num, by norm_num⟩)
    (by unfold ColumnsAt; decide +kernel)
  obtain ⟨x, hx⟩ := C131_fails (xyU oneTriangle .node) UPt.z [0, 10] (nodeFvcom oneTriangle
    (fun q => if q.2 = 0 then 8 else if q.2 = 1 then 16 else 32)
    (fun _ _ => 0) [0, 10] [fun _ => 0, fun _ => -1 / 2, fun _ => -1] [0, -1 / 2, -1] 2
    (.nomask, .nomask, .nomask)) (by unfold HasMaskArray; simp [nodeFvcom]) (by simp [nodeFvcom])
    .extrapolate .mask 5 false [⟨0, (1, 1), 6⟩]
  have he' : (fvcomSys (xyU oneTriangle .node) UPt.z [0, 10] (nodeFvcom oneTriangle
    (fun q => if q.2 = 0 then 8 else if q.2 = 1 then 16 else 32)
    (fun _ _ => 0) [0, 10] [fun _ => 0, fun _ => -1 / 2, fun _ => -1] [0, -1 / 2, -1] 2
    (.nomask, .nomask, .nomask)) .extrapolate .mask 5 false).alphas [⟨0, (1, 1), 6⟩] = .ok ents := he
  rw [hx] at he'
  cases he'

/-- With a mask array on the free surface the same query is answered. -/
example : (fvcomSys (xyU oneTriangle .node) UPt.z [0, 10] (nodeFvcom oneTriangle
    (fun q => if q.2 = 0 then 8 else if q.2 = 1 then 16 else 32)
    (fun _ _ => 0) [0, 10] [fun _ => 0, fun _ => -1 / 2, fun _ => -1] [0, -1 / 2, -1] 2
    (.nomask, .full, .plain)) .extrapolate .mask 5 false).alphas [⟨0, (1, 1), 6⟩] =
    .ok [⟨0, some (3 / 4), false⟩] := by decide +kernel
/-- The error without: `IndexError` for masked arrays, `AttributeError` for plain ones. -/
example : (fvcomSys (xyU oneTriangle .node) UPt.z [0, 10] (nodeFvcom oneTriangle
    (fun q => if q.2 = 0 then 8 else if q.2 = 1 then 16 else 32)
    (fun _ _ => 0) [0, 10] [fun _ => 0, fun _ => -1 / 2, fun _ => -1] [0, -1 / 2, -1] 2
    (.nomask, .plain, .plain)) .extrapolate .mask 5 false).alphas [⟨0, (1, 1), 6⟩] =
    .error .indexError := by decide +kernel

/-! ## C132 -/

theorem uAt_linear (m : UGeom.Mesh K) (p : UPt K) (hp : OnTriangle m p) :
    (∀ F G, uAt m p (fun n => F n + G n) = uAt m p F + uAt m p G) ∧
    (∀ c F, uAt m p (fun n => c * F n) = c * uAt m p F) ∧
    (∀ c : K × K × K, uAt m p (fun n => c.1 + c.2.1 * n.1.1 + c.2.2 * n.1.2) =
      c.1 + c.2.1 * p.pos.1 + c.2.2 * p.pos.2) ∧ ∀ c, uAt m p (fun _ => c) = c := by
  obtain ⟨q1, q2, q3, a, b, c, hw, _, hF⟩ := uAt_weights m p hp
  have hF' := fun F => uAt_of (hF F)
  obtain ⟨w1, w2, w3⟩ := hw
  refine ⟨fun F G => ?_, fun c F => ?_, fun c => ?_, fun c => ?_⟩
  · rw [hF', hF', hF']; ring
  · rw [hF', hF']; ring
  · rw [hF', w2, w3]; linear_combination c.1 * w1
  · rw [hF']; linear_combination c * w1

/-- The sigma list that is the same at all nodes. -/
def uniformSigma (sigma : List K) : List ((K × K) × Nat → K) := sigma.map fun s => fun _ => s

/-- The data of a field on the sigma levels of the nodes: level `s` of a node lies at the part `-s` of
the water column between the free surface and the seafloor there. -/
def sigmaData (m : UGeom.Mesh K) (f : Multilinear K) (h : (K × K) × Nat → K)
    (ζ : Int → (K × K) × Nat → K) (times : List Int) (sg : List ((K × K) × Nat → K)) :
    List (List (List (Option K))) :=
  times.map fun ti : Int => sg.map fun s => nodeSlice m fun n =>
    f.at n.1 (-(h n + ζ ti n) * s n) (ti : K)

/-- C132, unstructured grids. A field linear in position and in time and, at a constant rate, in depth
below the free surface, given on the sigma levels of the nodes, is reproduced exactly at every located
point in the water, over any seafloor and any free surface moving in time, at every time on the axis.
Missing: sigma levels that differ between nodes, the seafloor itself, and arrays without a mask array
(C131). -/
theorem C132_triangles_partial (m : UGeom.Mesh K) (a c : K × K × K) (δ : K) (h : (K × K) × Nat → K)
    (ζ : Int → (K × K) × Nat → K) (times : List Int) (hs : StrictIncr times) (sigma : List K)
    (hsig : SigmaDown sigma) (layers : Nat) (hl : sigma.length ≠ layers)
    (forms : MaskForm × MaskForm × MaskForm) (hf : HasMaskArray forms) (sbc bbc : BC) (t : Int)
    (e : Bool) (ht : OnAxis times t) (pts : List (UPt K)) (H Z : UPt K → K)
    (hpts : ∀ p ∈ pts, OnTriangle m p ∧ 0 ≤ p.z ∧ p.z < H p + Z p)
    (hHZ : ColumnsAt m times (nodeFvcom m h ζ times (uniformSigma sigma) sigma layers forms) sbc bbc t
      e pts H Z) :
    eval (xyU m .node) times (fvcomSys (xyU m .node) UPt.z times
        (nodeFvcom m h ζ times (uniformSigma sigma) sigma layers forms) sbc bbc t e)
      (.timeDepth (sigmaData m (inDepth a c δ) h ζ times (uniformSigma sigma))) pts t e =
      .ok (pts.map fun p =>
        { value := some ((inDepth a c δ).at p.pos p.z (t : K)), masked := false }) := by
  have hon : ∀ p ∈ pts, OnTriangle m p := fun p hp => (hpts p hp).1
  have hn : 2 ≤ sigma.length := sigma_two hsig.2.1 hsig.2.2 (by norm_num)
  have hcolp : ∀ p ∈ pts, ((uniformSigma sigma).map fun s => uAt m p s) = sigma := by
    intro p hp
    unfold uniformSigma
    rw [List.map_map]
    conv_rhs => rw [← List.map_id sigma]
    apply List.map_congr_left
    intro s _
    exact (uAt_linear m p (hon p hp)).2.2.2 s
  have hwater : ∀ p ∈ pts, 0 < H p + Z p := fun p hp => lt_of_le_of_lt (hpts p hp).2.1 (hpts p hp).2.2
  have halpha := fvcom_alphas m h ζ times (uniformSigma sigma) sigma layers forms sbc bbc t e pts H Z
    hon hHZ hn (fun p hp => ⟨hwater p hp, by rw [hcolp p hp]; exact hsig⟩)
  have hfc : (nodeFvcom m h ζ times (uniformSigma sigma) sigma layers forms).form.column = .ok () :=
    column_ok forms hf
  rw [hfc] at halpha
  simp only at halpha
  have hmap : (pts.map fun p => (p.z, H p, Z p, false, (uniformSigma sigma).map fun s => uAt m p s)) =
      pts.map fun p => (p.z, H p, Z p, false, sigma) := by
    apply List.map_congr_left
    intro p hp
    rw [hcolp p hp]
  rw [hmap] at halpha
  obtain ⟨ents, he, hr⟩ := C13_fvcom (fun x : K => x) Rounding.id (fun _ h => h) sigma hsig.1 hn layers
    sbc bbc (pts.map fun p => (p.z, H p, Z p, false, sigma)) (by
      intro r hr
      obtain ⟨p, hp, rfl⟩ := List.mem_map.mp hr
      exact ⟨hwater p hp, hsig.1, rfl, hsig.2.1, hsig.2.2⟩)
  rw [he] at halpha
  rw [List.forall₂_map_left_iff, List.forall₂_iff_get] at hr
  have key : ∀ (n : Nat) (p : UPt K) (en : Entry K), pts[n]? = some p → ents[n]? = some en →
      en.masked = false ∧ ∃ (β : K) (k : Nat) (sa sb : K), en.alpha = some β ∧ en.idx = (k : Int) ∧
        sigma[k]? = some sa ∧ sigma[k + 1]? = some sb ∧
        -(H p + Z p) * sa + (-(H p + Z p) * sb - -(H p + Z p) * sa) * β = p.z ∧ 0 ≤ β ∧ β ≤ 1 := by
    intro n p en hp hen
    obtain ⟨i1, rfl⟩ := List.getElem?_eq_some_iff.mp hp
    obtain ⟨i2, rfl⟩ := List.getElem?_eq_some_iff.mp hen
    have hpm := hpts _ (List.getElem_mem i1)
    obtain ⟨hm, α, hα, ⟨k, da, db, hk, hda, hdb, _, _, b1, b2⟩, hrec⟩ :=
      hr.2 n i1 i2 rfl hpm.2.1 hpm.2.2
    have hz := hrec (fun _ => rfl) k da db hk hda hdb
    unfold fvcomProfile at hda hdb
    rw [List.getElem?_map] at hda hdb
    obtain ⟨sa, hsa, rfl⟩ := Option.map_eq_some_iff.mp hda
    obtain ⟨sb, hsb, rfl⟩ := Option.map_eq_some_iff.mp hdb
    refine ⟨hm, α, k, sa, sb, hα, hk, hsa, hsb, ?_, b1, b2⟩
    simp only [List.get_eq_getElem] at hz
    rw [← hz]
    unfold fvcomS
    ring
  have hlen : ents.length = pts.length := hr.1.symm
  refine sigma_exact (xyU m .node) UPt.z UPt.pos (fun n : (K × K) × Nat => n.1) (fun p => uAt m p)
    (OnTriangle m) (fun F s => s = nodeSlice m F) (by rintro F s rfl ps hps; exact xyU_at m F ps hps)
    (fun p hp => (uAt_linear m p hp).1) (fun p hp => (uAt_linear m p hp).2.1)
    (fun p hp => (uAt_linear m p hp).2.2.1) times hs sigma hn a c δ h ζ
    (times.map fun ti => nodeSlice m (ζ ti)) ?_ _ ?_ t e ht pts hon H Z ?_ _ hHZ.2 hl ents halpha
    ⟨hlen, ?_⟩ ?_
  · rw [List.forall₂_map_right_iff]
    exact List.forall₂_same.mpr fun _ _ => rfl
  · unfold sigmaData uniformSigma
    rw [List.forall₂_map_right_iff]
    refine List.forall₂_same.mpr fun ti _ => ?_
    rw [List.map_map, List.forall₂_map_right_iff]
    exact List.forall₂_same.mpr fun _ _ => rfl
  · intro p hp
    have := hHZ.1
    unfold eval nodeFvcom at this
    simp only at this
    rw [xyU_at m h pts hon] at this
    simp only [Except.ok.injEq] at this
    have := List.map_inj_left.mp this p hp
    simp only [Cell.mk.injEq, Option.some.injEq, and_true] at this
    exact this.symm
  · intro en hmem hu
    obtain ⟨n, hen⟩ := List.getElem?_of_mem hmem
    have hn2 : n < pts.length := by
      rw [← hlen]; exact (List.getElem?_eq_some_iff.mp hen).1
    obtain ⟨_, α, k, sa, sb, hα, hk, hsa, hsb, _, b1, b2⟩ :=
      key n _ en (List.getElem?_eq_getElem hn2) hen
    have hkl : k + 1 < sigma.length := (List.getElem?_eq_some_iff.mp hsb).1
    exact ⟨by omega, α, hα, b1, b2, Or.inl ⟨by omega, by omega⟩⟩
  · intro n p en hp hen
    obtain ⟨hm, α, k, sa, sb, h1, h2, h3, h4, h5, _, _⟩ := key n p en hp hen
    exact ⟨hm, α, k, sa, sb, h1, h2, h3, h4, h5⟩

/-- C132 in full, unstructured grids: also sigma lists that differ between nodes. -/
def C132_statement : Prop :=
  ∀ (m : UGeom.Mesh ℚ) (a c : ℚ × ℚ × ℚ) (δ : ℚ) (h : (ℚ × ℚ) × Nat → ℚ)
    (ζ : Int → (ℚ × ℚ) × Nat → ℚ) (times : List Int) (sg : List ((ℚ × ℚ) × Nat → ℚ))
    (q0 : (ℚ × ℚ) × Nat) (layers : Nat) (forms : MaskForm × MaskForm × MaskForm) (sbc bbc : BC)
    (t : Int) (e : Bool) (pts : List (UPt ℚ)) (H Z : UPt ℚ → ℚ), StrictIncr times →
    (∀ q, SigmaDown (sg.map fun s => s q)) → sg.length ≠ layers → HasMaskArray forms →
    OnAxis times t → (∀ p ∈ pts, InItsTriangle m p ∧ 0 ≤ p.z ∧ p.z < H p + Z p) →
    ColumnsAt m times (nodeFvcom m h ζ times sg (sg.map fun s => s q0) layers forms) sbc bbc t e pts
      H Z →
    eval (xyU m .node) times (fvcomSys (xyU m .node) UPt.z times
        (nodeFvcom m h ζ times sg (sg.map fun s => s q0) layers forms) sbc bbc t e)
      (.timeDepth (sigmaData m (inDepth a c δ) h ζ times sg)) pts t e =
      .ok (pts.map fun p =>
        { value := some ((inDepth a c δ).at p.pos p.z (t : ℚ)), masked := false })

/-- A point of the triangle used below. -/
private theorem in_oneTriangle (z : ℚ) : InItsTriangle oneTriangle ⟨0, (1, 1), z⟩ :=
  ⟨by show (0 : Int) ≠ -1; decide, 0, 1, 2, (0, 0), (4, 0), (0, 4), rfl, rfl, rfl, rfl,
    Or.inl (by unfold TurnsLeft; norm_num), 1 / 2, 1 / 4, 1 / 4, by norm_num, by norm_num,
    by norm_num, by norm_num, by norm_num, by norm_num⟩

/-- C132 fails with sigma lists that differ between nodes: the depths of the levels are computed from
interpolated sigma and interpolated bathymetry, and are not the interpolated depths of the levels at the
nodes. The witness is the depth itself as a field: asked at 6 m the variable gives 7. -/
theorem C132_refuted : ¬ C132_statement := by
  intro hst
  have := hst oneTriangle (0, 0, 0) (0, 0, 0) 1
    (fun q => if q.2 = 0 then 8 else if q.2 = 1 then 16 else 32) (fun _ _ => 0) [0, 10]
    [fun _ => 0, fun q => if q.2 = 0 then -1 / 4 else -1 / 2, fun _ => -1] ((0, 0), 0) 2
    (.full, .full, .full) .extrapolate .mask 5 false [⟨0, (1, 1), 6⟩] (fun _ => 16) (fun _ => 0)
    (by unfold StrictIncr; decide)
    (by
      intro q
      refine ⟨?_, rfl, rfl⟩
      unfold StrictDecr
      simp only [List.map_cons, List.map_nil]
      split_ifs <;> decide +kernel)
    (by decide) (Or.inl rfl) ⟨0, 10, rfl, rfl, by decide, by decide⟩
    (by
      intro p hp
      simp only [List.mem_singleton] at hp
      subst hp
      exact ⟨in_oneTriangle 6, by norm_num, by norm_num⟩)
    (by unfold ColumnsAt; decide +kernel)
  revert this
  decide +kernel

/-- The hypotheses of the exactness theorem hold for a sloping seafloor and a moving surface. -/
example : eval (xyU oneTriangle .node) [0, 10] (fvcomSys (xyU oneTriangle .node) UPt.z [0, 10]
      (nodeFvcom oneTriangle (fun q => if q.2 = 0 then 8 else if q.2 = 1 then 16 else 32)
        (fun ti q => if q.2 = 0 then (ti : ℚ) / 10 else 1) [0, 10] (uniformSigma [0, -1 / 2, -1])
        [0, -1 / 2, -1] 2 (.nomask, .full, .nomask)) .extrapolate .mask 5 false)
      (.timeDepth (sigmaData oneTriangle (inDepth (1, 2, 3) (1, 0, 1) 4)
        (fun q => if q.2 = 0 then 8 else if q.2 = 1 then 16 else 32)
        (fun ti q => if q.2 = 0 then (ti : ℚ) / 10 else 1) [0, 10] (uniformSigma [0, -1 / 2, -1])))
      [⟨0, (1, 1), 13⟩, ⟨0, (1, 1), 1⟩] 5 false = .ok [⟨some 68, false⟩, ⟨some 20, false⟩] := by
  rw [C132_triangles_partial oneTriangle (1, 2, 3) (1, 0, 1) 4 _ _ [0, 10]
    (by unfold StrictIncr; decide) [0, -1 / 2, -1]
    ⟨by unfold StrictDecr; decide +kernel, rfl, rfl⟩ 2 (by decide) _ (Or.inr (Or.inl rfl)) _ _ 5 false
    ⟨0, 10, rfl, rfl, by decide, by decide⟩ _ (fun _ => 16) (fun _ => 3 / 4) (by
      intro p hp
      simp only [List.mem_cons, List.not_mem_nil, or_false] at hp
      rcases hp with rfl | rfl
      · exact ⟨oneTriangle_on _ _ _, by norm_num, by norm_num⟩
      · exact ⟨oneTriangle_on _ _ _, by norm_num, by norm_num⟩)
    (by unfold ColumnsAt; decide +kernel)]
  decide +kernel

end

/-! ## Structured grids -/

section
variable {K : Type} [Field K] [LinearOrder K] [IsStrictOrderedRing K]

/-- The point was located in a cell, and the position found in the cell is the point's. (With a real
square root it is: C45.) -/
def PlacedQuad (sqrt : K → K) (g : SInterp.Grid K) (p : SPt K) : Prop :=
  ∃ (i j : Nat) (l m : K) (px py : K × K × K × K), p.cell = some ((i : Int), (j : Int)) ∧
    IsCorners g.lon i j px ∧ IsCorners g.lat i j py ∧
    SInterp.offset sqrt g p.pos ((i : Int), (j : Int)) = .ok (some (l, m)) ∧
    bilinear px l m = p.pos.1 ∧ bilinear py l m = p.pos.2

theorem placed_of_on (sqrt : K → K) (hsq : SqrtOk sqrt) (g : SInterp.Grid K) (c : Nat)
    (hlon : Rectangular c g.lon) (hlat : Rectangular c g.lat) (p : SPt K) (hp : OnQuad sqrt g p) :
    PlacedQuad sqrt g p := by
  obtain ⟨i, j, l, m, px, py, h1, h2, h3, h4⟩ := hp
  exact ⟨i, j, l, m, px, py, h1, h2, h3, h4, C45_maps_back sqrt hsq g c hlon hlat i j px py h2 h3 _ l m
    h4⟩

/-- An array of node data holding `F` at every node of the grid, behind the padding. -/
def HoldsNodes (g : SInterp.Grid K) (F : Nat × Nat → K) (A : List (List K)) : Prop :=
  (∃ c, Rectangular c A) ∧ ∀ (i j : Nat) (x y : K), entry g.lon i j = some x →
    entry g.lat i j = some y →
    entry A (i + lowPads (g.pads .node).1) (j + lowPads (g.pads .node).2) = some (F (i, j))

/-- The position of a node. -/
def nodePos (g : SInterp.Grid K) (n : Nat × Nat) : K × K :=
  ((entry g.lon n.1 n.2).getD 0, (entry g.lat n.1 n.2).getD 0)

def sAt (sqrt : K → K) (g : SInterp.Grid K) (p : SPt K) (F : Nat × Nat → K) : K :=
  match p.cell with
  | none => 0
  | some (i, j) => match SInterp.offset sqrt g p.pos (i, j) with
    | .ok (some (l, m)) => bilinear (F (i.toNat, j.toNat), F (i.toNat + 1, j.toNat),
        F (i.toNat + 1, j.toNat + 1), F (i.toNat, j.toNat + 1)) l m
    | _ => 0

theorem sAt_eq (sqrt : K → K) (g : SInterp.Grid K) (p : SPt K) (i j : Nat) (l m : K)
    (hc : p.cell = some ((i : Int), (j : Int)))
    (ho : SInterp.offset sqrt g p.pos ((i : Int), (j : Int)) = .ok (some (l, m)))
    (F : Nat × Nat → K) :
    sAt sqrt g p F = bilinear (F (i, j), F (i + 1, j), F (i + 1, j + 1), F (i, j + 1)) l m := by
  unfold sAt
  rw [hc]
  simp only [ho, Int.toNat_natCast]

theorem sAt_linear (sqrt : K → K) (g : SInterp.Grid K) (p : SPt K)
    (hp : PlacedQuad sqrt g p) :
    (∀ F G, sAt sqrt g p (fun n => F n + G n) = sAt sqrt g p F + sAt sqrt g p G) ∧
    (∀ c F, sAt sqrt g p (fun n => c * F n) = c * sAt sqrt g p F) ∧
    (∀ c : K × K × K, sAt sqrt g p
        (fun n => c.1 + c.2.1 * (nodePos g n).1 + c.2.2 * (nodePos g n).2) =
      c.1 + c.2.1 * p.pos.1 + c.2.2 * p.pos.2) := by
  obtain ⟨i, j, l, m, px, py, h1, h2, h3, h4, b1, b2⟩ := hp
  have e := sAt_eq sqrt g p i j l m h1 h4
  refine ⟨fun F G => ?_, fun c F => ?_, fun c => ?_⟩
  · rw [e, e, e]; unfold bilinear; ring
  · rw [e, e]; unfold bilinear; ring
  · obtain ⟨x0, x1, x2, x3⟩ := h2
    obtain ⟨y0, y1, y2, y3⟩ := h3
    rw [e, ← b1, ← b2]
    simp only [nodePos, x0, x1, x2, x3, y0, y1, y2, y3, Option.getD_some]
    unfold bilinear
    ring

theorem xyS_at (sqrt : K → K) (g : SInterp.Grid K) (hk0 : (g.pads .node).1 ≠ .other)
    (hk1 : (g.pads .node).2 ≠ .other) (F : Nat × Nat → K) (A : List (List K))
    (hA : HoldsNodes g F A) (ps : List (SPt K)) (h : ∀ p ∈ ps, PlacedQuad sqrt g p) :
    xyS sqrt g (some .node) (plain A) ps =
      .ok (ps.map fun p => { value := some (sAt sqrt g p F), masked := false }) := by
  obtain ⟨⟨c, hc⟩, hA⟩ := hA
  have hval : ∀ p ∈ ps, ∃ ij, p.cell = some ij ∧
      SInterp.nodeValue sqrt g (plain A) p.pos ij = .ok (some (sAt sqrt g p F)) := by
    intro p hp
    obtain ⟨i, j, l, m, px, py, h1, ⟨x0, x1, x2, x3⟩, ⟨y0, y1, y2, y3⟩, h4, _⟩ := h p hp
    refine ⟨_, h1, ?_⟩
    rw [sAt_eq sqrt g p i j l m h1 h4]
    refine C46_value sqrt g A c hc p.pos i j l m _ h4 hk0 hk1 ⟨hA _ _ _ _ x0 y0, ?_, ?_, ?_⟩
    · have := hA _ _ _ _ x1 y1
      rwa [show i + 1 + lowPads (g.pads .node).1 = i + lowPads (g.pads .node).1 + 1
        by omega] at this
    · have := hA _ _ _ _ x2 y2
      rwa [show i + 1 + lowPads (g.pads .node).1 = i + lowPads (g.pads .node).1 + 1
        by omega, show j + 1 + lowPads (g.pads .node).2 =
          j + lowPads (g.pads .node).2 + 1 by omega] at this
    · have := hA _ _ _ _ x3 y3
      rwa [show j + 1 + lowPads (g.pads .node).2 =
          j + lowPads (g.pads .node).2 + 1 by omega] at this
  have hI : SInterp.interpolate sqrt g (some .node) false (plain A)
      (ps.map fun p => (p.pos, p.cell)) = .ok (ps.map fun p => some (sAt sqrt g p F)) := by
    unfold SInterp.interpolate
    split
    · rename_i hall
      rw [List.all_eq_true] at hall
      cases ps with
      | nil => rfl
      | cons p ps =>
        obtain ⟨ij, hc, _⟩ := hval p (by simp)
        have := hall (p.pos, p.cell) (by simp)
        simp [hc] at this
    · simp only [Bool.false_eq_true, if_false]
      have := mapE_ok (f := fun q : (K × K) × Option (Int × Int) => match q.2 with
        | none => .ok none
        | some ij => SInterp.nodeValue sqrt g (plain A) q.1 ij)
        (g := fun q => some (sAt sqrt g ⟨q.2, q.1, 0⟩ F))
        (l := ps.map fun p => (p.pos, p.cell)) (by
          intro q hq
          obtain ⟨p, hp, rfl⟩ := List.mem_map.mp hq
          obtain ⟨ij, hc, hv⟩ := hval p hp
          simp only [hc] at hv ⊢
          rw [hv]
          unfold sAt
          rw [hc])
      rw [List.map_map] at this
      exact this
  unfold xyS
  rw [hI]
  simp only [List.map_map]
  rfl

/-- With plain sigma levels (no critical depth, or no stretching) the ROMS column is proportional to
the depth of the water, for both transforms. -/
theorem roms_plain (vt : Nat) (hc h zeta : K) (sc : List (K × K)) (hh : 0 < h) (hhc : 0 ≤ hc)
    (hvt : vt = 1 ∨ vt = 2) (hp : hc = 0 ∨ ∀ q ∈ sc, q.1 = q.2) :
    romsProfile vt hc h zeta sc = .ok (sc.map fun q => -(h + zeta) * q.2) := by
  unfold romsProfile
  refine mapE_ok ?_
  intro q hq
  have hx : hc * q.1 = hc * q.2 := by
    rcases hp with rfl | hp
    · simp
    · rw [hp q hq]
  have h0 : h ≠ 0 := ne_of_gt hh
  have h1 : hc + h ≠ 0 := by positivity
  unfold romsS
  rcases hvt with rfl | rfl
  · simp only [if_true, if_neg h0]
    congr 1
    field_simp
    rw [hx]
    ring
  · rw [if_neg (by decide), if_pos rfl, if_neg h1]
    simp only
    congr 1
    field_simp
    rw [hx]
    ring

/-- The bathymetry and free surface of a ROMS depth object evaluated at the points asked for. -/
def RomsColumnsAt (sqrt : K → K) (g : SInterp.Grid K) (times : List Int)
    (o : RomsObj K (List (List (SInterp.MV K)))) (sbc bbc : BC) (t : Int) (e : Bool)
    (pts : List (SPt K)) (H Z : SPt K → K) : Prop :=
  eval (xyS sqrt g (some .node)) times (romsSys (xyS sqrt g (some .node)) SPt.z times o sbc bbc t e)
      (.flat o.bathymetry) pts t e = .ok (pts.map fun p => { value := some (H p), masked := false }) ∧
    eval (xyS sqrt g (some .node)) times
      (romsSys (xyS sqrt g (some .node)) SPt.z times o sbc bbc t e) (.time o.zeta)
      pts t e = .ok (pts.map fun p => { value := some (Z p), masked := false })

/-- A list of arrays holding the values of `F` (by time) at the nodes. -/
def HoldsOverTime (g : SInterp.Grid K) (times : List Int) (F : Int → Nat × Nat → K)
    (ss : List (List (List (SInterp.MV K)))) : Prop :=
  List.Forall₂ (fun ti s => ∃ A, s = plain A ∧ HoldsNodes g (F ti) A) times ss

/-- Data over time and levels holding the field at the depths `d ti q n` of the levels `q` at the
nodes. -/
def HoldsOnLevels (g : SInterp.Grid K) (f : Multilinear K) (times : List Int) (levels : List (K × K))
    (d : Int → K × K → Nat × Nat → K) (data : List (List (List (List (SInterp.MV K))))) : Prop :=
  List.Forall₂ (fun (ti : Int) row => List.Forall₂ (fun q s => ∃ A, s = plain A ∧
    HoldsNodes g (fun n => f.at (nodePos g n) (d ti q n) (ti : K)) A) levels row) times data

/-- C132, structured grids with plain sigma levels (no critical depth, or no stretching), both
transforms: a field linear in position and time and, at a constant rate, in depth below the free
surface is reproduced exactly at every located point in the water. Missing: stretched levels with a
critical depth, and the seafloor itself. -/
theorem C132_quads_partial (sqrt : K → K) (g : SInterp.Grid K) (hk0 : (g.pads .node).1 ≠ .other)
    (hk1 : (g.pads .node).2 ≠ .other) (a c : K × K × K) (δ : K) (h : Nat × Nat → K)
    (ζ : Int → Nat × Nat → K) (times : List Int) (hs : StrictIncr times)
    (o : RomsObj K (List (List (SInterp.MV K))))
    (hb : ∃ A, o.bathymetry = plain A ∧ HoldsNodes g h A) (hz : HoldsOverTime g times ζ o.zeta)
    (hplain : o.hc = 0 ∨ ∀ q ∈ o.levels, q.1 = q.2) (hhc : 0 ≤ o.hc)
    (hmono : o.levels.Pairwise fun p q => p.1 < q.1 ∧ p.2 < q.2)
    (h0 : o.levels.head? = some (-1, -1)) (h1 : o.levels.getLast? = some (0, 0))
    (hl : o.levels.length ≠ o.numLayers)
    (data : List (List (List (List (SInterp.MV K)))))
    (hdata : HoldsOnLevels g (inDepth a c δ) times o.levels (fun ti q n => -(h n + ζ ti n) * q.2) data)
    (sbc bbc : BC) (t : Int) (e : Bool) (ht : OnAxis times t) (pts : List (SPt K)) (H Z : SPt K → K)
    (hpts : ∀ p ∈ pts, PlacedQuad sqrt g p ∧ 0 < H p ∧ 0 ≤ p.z ∧ p.z < H p + Z p ∧
      ((o.vtransform = 1 ∧ o.hc ≤ H p) ∨ o.vtransform = 2))
    (hHZ : RomsColumnsAt sqrt g times o sbc bbc t e pts H Z) :
    eval (xyS sqrt g (some .node)) times
        (romsSys (xyS sqrt g (some .node)) SPt.z times o sbc bbc t e) (.timeDepth data) pts t e =
      .ok (pts.map fun p =>
        { value := some ((inDepth a c δ).at p.pos p.z (t : K)), masked := false }) := by
  have hon : ∀ p ∈ pts, PlacedQuad sqrt g p := fun p hp => (hpts p hp).1
  have hn : 2 ≤ o.levels.length := by
    rcases hlv : o.levels with _ | ⟨x, _ | ⟨y, r⟩⟩
    · rw [hlv] at h0; simp at h0
    · rw [hlv] at h0 h1
      simp only [List.head?_cons, Option.some.injEq, List.getLast?_singleton] at h0 h1
      rw [h0] at h1
      have := congrArg Prod.fst h1
      simp at this
    · simp
  have halpha : (romsSys (xyS sqrt g (some .node)) SPt.z times o sbc bbc t e).alphas pts =
      romsAlphas (fun x => x) o.vtransform o.hc o.levels o.numLayers sbc bbc
        (pts.map fun p => (p.z, H p, Z p, false)) := by
    obtain ⟨hH, hZ⟩ := hHZ
    unfold eval at hH hZ
    simp only at hH hZ
    unfold romsSys
    simp only
    rw [hZ, hH, numbers_ok, numbers_ok]
    simp only
    congr 1
    apply rows_ok pts (fun p n => (SPt.z p, (pts.map H).getD n 0, (pts.map Z).getD n 0, false))
    intro n p hp
    rw [getD_map_of pts H n p hp, getD_map_of pts Z n p hp]
  obtain ⟨ents, he, hr⟩ := C13_roms (fun x : K => x) Rounding.id (fun _ h => h) o.vtransform o.hc
    o.levels o.numLayers hhc hmono h0 h1 sbc bbc (pts.map fun p => (p.z, H p, Z p, false)) (by
      intro r hr
      obtain ⟨p, hp, rfl⟩ := List.mem_map.mp hr
      obtain ⟨_, p1, p2, p3, p4⟩ := hpts p hp
      exact ⟨p1, lt_of_le_of_lt p2 p3, p4⟩)
  rw [he] at halpha
  rw [List.forall₂_map_left_iff, List.forall₂_iff_get] at hr
  have key : ∀ (n : Nat) (p : SPt K) (en : Entry K), pts[n]? = some p → ents[n]? = some en →
      en.masked = false ∧ ∃ (β : K) (k : Nat) (sa sb : K), en.alpha = some β ∧ en.idx = (k : Int) ∧
        (o.levels.map Prod.snd)[k]? = some sa ∧ (o.levels.map Prod.snd)[k + 1]? = some sb ∧
        -(H p + Z p) * sa + (-(H p + Z p) * sb - -(H p + Z p) * sa) * β = p.z ∧ 0 ≤ β ∧ β ≤ 1 := by
    intro n p en hp hen
    obtain ⟨i1, rfl⟩ := List.getElem?_eq_some_iff.mp hp
    obtain ⟨i2, rfl⟩ := List.getElem?_eq_some_iff.mp hen
    obtain ⟨_, p1, p2, p3, p4⟩ := hpts _ (List.getElem_mem i1)
    obtain ⟨hm, col, α, hcol, hα, ⟨k, da, db, hk, hda, hdb, _, _, b1, b2⟩, hrec⟩ :=
      hr.2 n i1 i2 rfl p2 p3
    have hz := hrec (fun _ => rfl) k da db hk hda hdb
    simp only [List.get_eq_getElem] at hcol hz
    rw [roms_plain _ _ _ _ _ p1 hhc (p4.imp (fun x => x.1) id) hplain] at hcol
    cases hcol
    rw [List.getElem?_map] at hda hdb
    obtain ⟨qa, hqa, rfl⟩ := Option.map_eq_some_iff.mp hda
    obtain ⟨qb, hqb, rfl⟩ := Option.map_eq_some_iff.mp hdb
    exact ⟨hm, α, k, qa.2, qb.2, hα, hk, by rw [List.getElem?_map, hqa]; rfl,
      by rw [List.getElem?_map, hqb]; rfl, hz, b1, b2⟩
  have hlen : ents.length = pts.length := hr.1.symm
  refine sigma_exact (xyS sqrt g (some .node)) SPt.z SPt.pos (nodePos g) (fun p => sAt sqrt g p)
    (PlacedQuad sqrt g) (fun F s => ∃ A, s = plain A ∧ HoldsNodes g F A)
    (by rintro F s ⟨A, rfl, hA⟩ ps hps; exact xyS_at sqrt g hk0 hk1 F A hA ps hps)
    (fun p hp => (sAt_linear sqrt g p hp).1) (fun p hp => (sAt_linear sqrt g p hp).2.1)
    (fun p hp => (sAt_linear sqrt g p hp).2.2) times hs (o.levels.map Prod.snd) (by simpa using hn)
    a c δ h ζ o.zeta hz data ?_ t e ht pts hon H Z ?_ _ hHZ.2 (by rw [List.length_map]; exact hl) ents halpha
    ⟨hlen, ?_⟩ ?_
  · refine hdata.imp ?_
    intro ti row hrow
    rw [List.forall₂_map_left_iff]
    exact hrow
  · intro p hp
    obtain ⟨A, hA1, hA2⟩ := hb
    have := hHZ.1
    unfold eval at this
    simp only at this
    rw [hA1, xyS_at sqrt g hk0 hk1 h A hA2 pts hon] at this
    simp only [Except.ok.injEq] at this
    have := List.map_inj_left.mp this p hp
    simp only [Cell.mk.injEq, Option.some.injEq, and_true] at this
    exact this.symm
  · intro en hmem hu
    obtain ⟨n, hen⟩ := List.getElem?_of_mem hmem
    have hn2 : n < pts.length := by
      rw [← hlen]; exact (List.getElem?_eq_some_iff.mp hen).1
    obtain ⟨_, α, k, sa, sb, hα, hk, hsa, hsb, _, b1, b2⟩ :=
      key n _ en (List.getElem?_eq_getElem hn2) hen
    have hkl : k + 1 < (o.levels.map Prod.snd).length := (List.getElem?_eq_some_iff.mp hsb).1
    exact ⟨by omega, α, hα, b1, b2, Or.inl ⟨by omega, by omega⟩⟩
  · intro n p en hp hen
    obtain ⟨hm, α, k, sa, sb, h1, h2, h3, h4, h5, _, _⟩ := key n p en hp hen
    exact ⟨hm, α, k, sa, sb, h1, h2, h3, h4, h5⟩

/-- C132 in full, structured grids: also stretched levels with a critical depth (the second transform;
level `q` of a column lies at the part `-(hc * s + h * C) / (hc + h)` of the water). -/
def C132_roms_statement : Prop :=
  ∀ (sqrt : ℚ → ℚ) (g : SInterp.Grid ℚ) (a c : ℚ × ℚ × ℚ) (δ : ℚ) (h : Nat × Nat → ℚ)
    (ζ : Int → Nat × Nat → ℚ) (times : List Int) (o : RomsObj ℚ (List (List (SInterp.MV ℚ))))
    (data : List (List (List (List (SInterp.MV ℚ))))) (sbc bbc : BC) (t : Int) (e : Bool)
    (pts : List (SPt ℚ)) (H Z : SPt ℚ → ℚ), (∀ x, 0 ≤ x → sqrt (x * x) = x) → (g.pads .node).1 ≠ .other → (g.pads .node).2 ≠ .other →
    StrictIncr times → (∃ A, o.bathymetry = plain A ∧ HoldsNodes g h A) →
    HoldsOverTime g times ζ o.zeta → 0 ≤ o.hc →
    (o.levels.Pairwise fun p q => p.1 < q.1 ∧ p.2 < q.2) → o.levels.head? = some (-1, -1) →
    o.levels.getLast? = some (0, 0) → o.levels.length ≠ o.numLayers → o.vtransform = 2 →
    HoldsOnLevels g (inDepth a c δ) times o.levels
      (fun ti q n => -(h n + ζ ti n) * ((o.hc * q.1 + h n * q.2) / (o.hc + h n))) data →
    OnAxis times t →
    (∀ p ∈ pts, PlacedQuad sqrt g p ∧ 0 < H p ∧ 0 ≤ p.z ∧ p.z < H p + Z p) →
    RomsColumnsAt sqrt g times o sbc bbc t e pts H Z →
    eval (xyS sqrt g (some .node)) times
        (romsSys (xyS sqrt g (some .node)) SPt.z times o sbc bbc t e) (.timeDepth data) pts t e =
      .ok (pts.map fun p =>
        { value := some ((inDepth a c δ).at p.pos p.z (t : ℚ)), masked := false })

/-- One square cell. -/
def squareQ : SInterp.Grid ℚ where
  lon := [[0, 2], [0, 2]]
  lat := [[0, 0], [2, 2]]
  pads := fun _ => (.none, .none)
  centerMask := none
  behavior := "zero"

private theorem holds_square (F : Nat × Nat → ℚ) :
    HoldsNodes squareQ F [[F (0, 0), F (0, 1)], [F (1, 0), F (1, 1)]] := by
  refine ⟨⟨2, by unfold Rectangular; simp⟩, ?_⟩
  intro i j x y hx hy
  simp only [squareQ, lowPads] at hx hy ⊢
  rcases i with _ | _ | i <;> rcases j with _ | _ | j <;> simp [entry] at hx hy ⊢

/-- The array of the values at the four nodes of the square. -/
private def sq (F : Nat × Nat → ℚ) : List (List (SInterp.MV ℚ)) :=
  plain [[F (0, 0), F (0, 1)], [F (1, 0), F (1, 1)]]

private theorem placed_square (z : ℚ) :
    PlacedQuad Rat.sqrt squareQ ⟨some (0, 0), (1, 1 / 2), z⟩ := by
  refine ⟨0, 0, 1 / 2, 1 / 4, (0, 0, 2, 2), (0, 2, 2, 0), rfl, ?_, ?_, ?_, ?_, ?_⟩
  · simp [IsCorners, entry, squareQ]
  · simp [IsCorners, entry, squareQ]
  · show SInterp.offset Rat.sqrt squareQ (1, 1 / 2) (0, 0) = _
    decide +kernel
  · simp [bilinear]
  · simp [bilinear]; norm_num

/-- C132 fails with stretched levels and a critical depth: the depths of the levels at a point are
computed from the interpolated bathymetry, and are not the interpolated depths of the levels at the
nodes. The witness is the depth itself as a field over a seafloor sloping from 10 m to 30 m: asked at
20/3 m the variable gives 105/16. -/
theorem C132_roms_refuted : ¬ C132_roms_statement := by
  intro hst
  have := hst Rat.sqrt squareQ (0, 0, 0) (0, 0, 0) 1 (fun n => if n.2 = 0 then 10 else 30)
    (fun _ _ => 0) [0, 10]
    { bathymetry := sq fun n => if n.2 = 0 then 10 else 30
      zeta := [sq fun _ => 0, sq fun _ => 0]
      vtransform := 2
      hc := 10
      levels := [(-1, -1), (-1 / 2, -1 / 4), (0, 0)]
      numLayers := 2 }
    ([0, 10].map fun ti : Int => [(-1, -1), (-1 / 2, -1 / 4), (0, 0)].map fun q : ℚ × ℚ => sq fun n =>
      (inDepth (0, 0, 0) (0, 0, 0) 1).at (nodePos squareQ n)
        (-((if n.2 = 0 then 10 else 30) + 0) * ((10 * q.1 + (if n.2 = 0 then 10 else 30) * q.2) /
          (10 + (if n.2 = 0 then 10 else 30)))) (ti : ℚ))
    .extrapolate .mask 5 false [⟨some (0, 0), (1, 1 / 2), 20 / 3⟩] (fun _ => 20) (fun _ => 0)
    (fun x hx => by rw [Rat.sqrt_eq, abs_of_nonneg hx]) (by decide) (by decide) (by unfold StrictIncr; decide)
    ⟨_, rfl, holds_square _⟩
    (List.Forall₂.cons ⟨_, rfl, holds_square _⟩ (List.Forall₂.cons ⟨_, rfl, holds_square _⟩
      List.Forall₂.nil))
    (by norm_num) (by decide +kernel) rfl rfl (by decide) rfl
    (by
      unfold HoldsOnLevels
      rw [List.forall₂_map_right_iff]
      refine List.forall₂_same.mpr fun ti _ => ?_
      rw [List.forall₂_map_right_iff]
      exact List.forall₂_same.mpr fun q _ => ⟨_, rfl, holds_square _⟩)
    ⟨0, 10, rfl, rfl, by decide, by decide⟩
    (by
      intro p hp
      simp only [List.mem_singleton] at hp
      subst hp
      exact ⟨placed_square _, by norm_num, by norm_num, by norm_num⟩)
    (by unfold RomsColumnsAt; decide +kernel)
  revert this
  decide +kernel

/-- An object of unstretched levels with a critical depth over a sloping seafloor under a moving
surface. -/
private def slopingRoms : RomsObj ℚ (List (List (SInterp.MV ℚ))) where
  bathymetry := sq fun n => if n.2 = 0 then 10 else 30
  zeta := [sq fun n => if (0 : Int) = 0 then (if n.2 = 0 then 1 else 0) else 2,
    sq fun n => if (10 : Int) = 0 then (if n.2 = 0 then 1 else 0) else 2]
  vtransform := 1
  hc := 10
  levels := [(-1, -1), (-1 / 2, -1 / 2), (0, 0)]
  numLayers := 2

private def slopingData : List (List (List (List (SInterp.MV ℚ)))) :=
  [0, 10].map fun ti : Int => slopingRoms.levels.map fun q => sq fun n =>
    (inDepth (1, 2, 3) (0, 1, 0) 4).at (nodePos squareQ n)
      (-((if n.2 = 0 then 10 else 30) +
        (if ti = 0 then (if n.2 = 0 then 1 else 0) else 2)) * q.2) (ti : ℚ)

/-- The hypotheses of the theorem for structured grids hold there. -/
example : eval (xyS Rat.sqrt squareQ (some .node)) [0, 10]
    (romsSys (xyS Rat.sqrt squareQ (some .node)) SPt.z [0, 10] slopingRoms
      .extrapolate .mask 5 false) (.timeDepth slopingData)
    [⟨some (0, 0), (1, 1 / 2), 15⟩] 5 false = .ok [⟨some (1 + 2 + 3 / 2 + 5 + 60), false⟩] := by
  refine (C132_quads_partial Rat.sqrt squareQ (by decide) (by decide) (1, 2, 3) (0, 1, 0) 4
    (fun n => if n.2 = 0 then 10 else 30)
    (fun ti n => if ti = 0 then (if n.2 = 0 then 1 else 0) else 2) [0, 10]
    (by unfold StrictIncr; decide) slopingRoms ⟨_, rfl, holds_square _⟩
    ?_ (Or.inr (by decide +kernel)) (by decide +kernel) (by decide +kernel) rfl rfl
    (by decide) slopingData ?_ _ _ 5 false
    ⟨0, 10, rfl, rfl, by decide, by decide⟩ _ (fun _ => 20) (fun _ => 5 / 4) ?_
    (by unfold RomsColumnsAt; decide +kernel)).trans ?_
  · exact List.Forall₂.cons ⟨_, rfl, holds_square _⟩ (List.Forall₂.cons ⟨_, rfl, holds_square _⟩
      List.Forall₂.nil)
  · unfold HoldsOnLevels slopingData
    rw [List.forall₂_map_right_iff]
    refine List.forall₂_same.mpr fun ti _ => ?_
    rw [List.forall₂_map_right_iff]
    exact List.forall₂_same.mpr fun q _ => ⟨_, rfl, holds_square _⟩
  · intro p hp
    simp only [List.mem_singleton] at hp
    subst hp
    exact ⟨placed_square _, by norm_num, by norm_num, by norm_num, Or.inl ⟨rfl, by decide +kernel⟩⟩
  · simp [Multilinear.at, inDepth]; norm_num

end

end Verif
