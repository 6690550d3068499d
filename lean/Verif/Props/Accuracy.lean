import Verif.Spec.Accuracy
import Verif.Props.At

/-!
# C170, C171: how close results are to the field the data were taken from
-/

set_option autoImplicit false

namespace Verif
open Verif.At Verif.DepthM Verif.Spec Verif.TimeM

section Accuracy
variable {K P σ : Type} [Field K] [LinearOrder K] [IsStrictOrderedRing K]

/-! ## Means of approximations -/

theorem near_mix {α v w x y E : K} (h0 : 0 ≤ α) (h1 : α ≤ 1) (hv : |v - x| ≤ E)
    (hw : |w - y| ≤ E) : |((1 - α) * v + α * w) - ((1 - α) * x + α * y)| ≤ E := by
  rw [abs_le] at hv hw ⊢
  have a1 := mul_nonneg (sub_nonneg.2 h1) (sub_nonneg.2 hv.1)
  have a2 := mul_nonneg h0 (sub_nonneg.2 hw.1)
  have a3 := mul_nonneg (sub_nonneg.2 h1) (sub_nonneg.2 hv.2)
  have a4 := mul_nonneg h0 (sub_nonneg.2 hw.2)
  constructor <;> linarith

theorem near_three {a b c u v w x y z E : K} (ha : 0 ≤ a) (hb : 0 ≤ b) (hc : 0 ≤ c)
    (hs : a + b + c = 1) (hu : |u - x| ≤ E) (hv : |v - y| ≤ E) (hw : |w - z| ≤ E) :
    |(u * a + v * b + w * c) - (x * a + y * b + z * c)| ≤ E := by
  rw [abs_le] at hu hv hw ⊢
  have e : E = E * (a + b + c) := by rw [hs, mul_one]
  have a1 := mul_nonneg ha (sub_nonneg.2 hu.1)
  have a2 := mul_nonneg hb (sub_nonneg.2 hv.1)
  have a3 := mul_nonneg hc (sub_nonneg.2 hw.1)
  have b1 := mul_nonneg ha (sub_nonneg.2 hu.2)
  have b2 := mul_nonneg hb (sub_nonneg.2 hv.2)
  have b3 := mul_nonneg hc (sub_nonneg.2 hw.2)
  constructor
  · rw [e]; linarith
  · rw [e]; linarith

theorem near_bilinear {l m E : K} (hu : InUnit (l, m)) (v w : K × K × K × K)
    (h0 : |v.1 - w.1| ≤ E) (h1 : |v.2.1 - w.2.1| ≤ E) (h2 : |v.2.2.1 - w.2.2.1| ≤ E)
    (h3 : |v.2.2.2 - w.2.2.2| ≤ E) : |bilinear v l m - bilinear w l m| ≤ E := by
  obtain ⟨a, b, c, d⟩ := hu
  exact near_mix c d (near_mix a b h0 h3) (near_mix a b h1 h2)

/-- Squares are convex. -/
private theorem sq_mix {x u v r : K} (h0 : 0 ≤ r) (h1 : r ≤ 1) :
    (x - ((1 - r) * u + r * v)) ^ 2 ≤ (1 - r) * (x - u) ^ 2 + r * (x - v) ^ 2 := by
  have := mul_nonneg (mul_nonneg h0 (sub_nonneg.2 h1)) (sq_nonneg (u - v))
  nlinarith

private theorem sq_three {x u v w a b c : K} (ha : 0 ≤ a) (hb : 0 ≤ b) (hc : 0 ≤ c)
    (hs : a + b + c = 1) :
    (x - (a * u + b * v + c * w)) ^ 2 ≤ a * (x - u) ^ 2 + b * (x - v) ^ 2 + c * (x - w) ^ 2 := by
  have h1 := mul_nonneg (mul_nonneg ha hb) (sq_nonneg (u - v))
  have h2 := mul_nonneg (mul_nonneg ha hc) (sq_nonneg (u - w))
  have h3 := mul_nonneg (mul_nonneg hb hc) (sq_nonneg (v - w))
  have e : a * (x - u) ^ 2 + b * (x - v) ^ 2 + c * (x - w) ^ 2 - (x - (a * u + b * v + c * w)) ^ 2 =
      a * b * (u - v) ^ 2 + a * c * (u - w) ^ 2 + b * c * (v - w) ^ 2 := by
    obtain rfl : c = 1 - a - b := by linarith
    ring
  linarith

/-- The corners of a triangle are no further from a point in it than its longest side. -/
theorem sqDist_three {A B C n p : K × K} {h : K} (hp : InTriangle A B C p)
    (hA : sqDist n A ≤ h) (hB : sqDist n B ≤ h) (hC : sqDist n C ≤ h) : sqDist n p ≤ h := by
  obtain ⟨a, b, c, ha, hb, hc, hs, h1, h2⟩ := hp
  unfold sqDist at *
  rw [h1, h2]
  have x := sq_three (x := n.1) (u := A.1) (v := B.1) (w := C.1) ha hb hc hs
  have y := sq_three (x := n.2) (u := A.2) (v := B.2) (w := C.2) ha hb hc hs
  have e : h = h * (a + b + c) := by rw [hs, mul_one]
  have m1 := mul_le_mul_of_nonneg_left hA ha
  have m2 := mul_le_mul_of_nonneg_left hB hb
  have m3 := mul_le_mul_of_nonneg_left hC hc
  rw [e]
  linarith

/-- And those of a quadrilateral no further than its longest side or diagonal. -/
theorem sqDist_quad {px py : K × K × K × K} {n p : K × K} {l m h : K} (hu : InUnit (l, m))
    (h1 : bilinear px l m = p.1) (h2 : bilinear py l m = p.2)
    (d0 : sqDist n (px.1, py.1) ≤ h) (d1 : sqDist n (px.2.1, py.2.1) ≤ h)
    (d2 : sqDist n (px.2.2.1, py.2.2.1) ≤ h) (d3 : sqDist n (px.2.2.2, py.2.2.2) ≤ h) :
    sqDist n p ≤ h := by
  obtain ⟨a, b, c, d⟩ := hu
  simp only at a b c d
  have key : ∀ (x : K) (q : K × K × K × K), (x - bilinear q l m) ^ 2 ≤
      bilinear ((x - q.1) ^ 2, (x - q.2.1) ^ 2, (x - q.2.2.1) ^ 2, (x - q.2.2.2) ^ 2) l m := by
    intro x q
    refine le_trans (sq_mix c d) ?_
    have e1 := mul_le_mul_of_nonneg_left (sq_mix (x := x) (u := q.1) (v := q.2.2.2) a b)
      (sub_nonneg.2 d)
    have e2 := mul_le_mul_of_nonneg_left (sq_mix (x := x) (u := q.2.1) (v := q.2.2.1) a b) c
    unfold bilinear
    linarith
  have k1 := key n.1 px
  have k2 := key n.2 py
  unfold sqDist at *
  rw [← h1, ← h2]
  simp only at d0 d1 d2 d3
  unfold bilinear at *
  have w0 := mul_nonneg (sub_nonneg.2 d) (sub_nonneg.2 b)
  have w1 := mul_nonneg c (sub_nonneg.2 b)
  have w2 := mul_nonneg c a
  have w3 := mul_nonneg (sub_nonneg.2 d) a
  have m0 := mul_le_mul_of_nonneg_left d0 w0
  have m1 := mul_le_mul_of_nonneg_left d1 w1
  have m2 := mul_le_mul_of_nonneg_left d2 w2
  have m3 := mul_le_mul_of_nonneg_left d3 w3
  have e : h = (1 - m) * (1 - l) * h + m * (1 - l) * h + m * l * h + (1 - m) * l * h := by ring
  rw [e]
  linarith

/-! ## From the corners to the result -/

omit [LinearOrder K] [IsStrictOrderedRing K] in
private theorem ml_levels (f : Multilinear K) (p : K × K) (t a b z β : K)
    (h : a + (b - a) * β = z) : (1 - β) * f.at p a t + β * f.at p b t = f.at p z t := by
  subst h
  unfold Multilinear.at
  ring

omit [LinearOrder K] [IsStrictOrderedRing K] in
private theorem ml_times (f : Multilinear K) (p : K × K) (z a b t α : K)
    (h : a + α * (b - a) = t) : (1 - α) * f.at p z a + α * f.at p z b = f.at p z t := by
  subst h
  unfold Multilinear.at
  ring

/-- A point between two neighbours is no further from either than they are apart. -/
private theorem between_near {a b x α s : K} (h0 : 0 ≤ α) (h1 : α ≤ 1) (h : a + α * (b - a) = x)
    (hs : |b - a| ≤ s) : |a - x| ≤ s ∧ |b - x| ≤ s := by
  subst h
  have e1 : a - (a + α * (b - a)) = -(α * (b - a)) := by ring
  have e2 : b - (a + α * (b - a)) = (1 - α) * (b - a) := by ring
  rw [e1, e2, abs_neg, abs_mul, abs_mul, abs_of_nonneg h0, abs_of_nonneg (sub_nonneg.2 h1)]
  have := abs_nonneg (b - a)
  constructor
  · nlinarith
  · nlinarith

/-- The two times that serve a time on the axis are no further from it than the steps of the axis. -/
theorem times_near {times : List Int} {t : Int} (hs : StrictIncr times) (ht : OnAxis times t)
    {e : Bool} {i j : Nat} {α τ : K} (h0 : 0 ≤ τ)
    (hst : StepsAtMost (times.map fun x : Int => (x : K)) τ) (hw : TimeWeights times t e i j α) :
    ∃ a b : Int, times[i]? = some a ∧ times[j]? = some b ∧
      (a : K) + α * ((b : K) - (a : K)) = (t : K) ∧ |(a : K) - t| ≤ τ ∧ |(b : K) - t| ≤ τ := by
  obtain ⟨a, b, ha, hb, hab⟩ := weights_on_axis hs ht hw
  refine ⟨a, b, ha, hb, hab, ?_⟩
  have same : i = j → |(a : K) - t| ≤ τ ∧ |(b : K) - t| ≤ τ := by
    rintro rfl
    rw [ha] at hb
    cases hb
    have : (a : K) = t := by rw [← hab]; ring
    rw [this, sub_self, abs_zero]
    exact ⟨h0, h0⟩
  obtain ⟨a0, a1, hi, hj, hc⟩ := hw
  rcases hc with ⟨h1, h2, -⟩ | h1 | ⟨_, h, _⟩
  · rcases Nat.lt_or_ge i j with h | h
    · obtain rfl : j = i + 1 := by omega
      refine between_near a0 a1 hab (hst i a b ?_ ?_)
      · rw [List.getElem?_map, ha]; rfl
      · rw [List.getElem?_map, hb]; rfl
    · exact same (by omega)
  · exact same (by omega)
  · exact same h

/-- What the horizontal stage does with slices that hold a field: a value for every point, and one that
is as close to a linear function as the field is at the corners of the point's cell. -/
private structure Horizontal (xy : σ → List P → Except Err (List (Cell K))) (pos : P → K × K)
    (Q : P → Prop) (Corner : P → K × K → Prop) (F : SpaceTime K) (slice : K → K → σ)
    (hor : K → K → P → K) : Prop where
  value : ∀ (zk tk : K) (ps : List P), (∀ p ∈ ps, Q p) → xy (slice zk tk) ps =
    .ok (ps.map fun p => { value := some (hor zk tk p), masked := false })
  near : ∀ (zk tk : K) (p : P) (q : K × K × K) (E : K), Q p →
    (∀ n, Corner p n → |F n zk tk - (q.1 + q.2.1 * n.1 + q.2.2 * n.2)| ≤ E) →
    |hor zk tk p - (q.1 + q.2.1 * (pos p).1 + q.2.2 * (pos p).2)| ≤ E

/-- The coefficients in position of a field at a depth and time. -/
private def flat (f : Multilinear K) (z t : K) : K × K × K :=
  (f.a.1 + z * f.b.1 + t * f.c.1 + z * t * f.d.1,
    f.a.2.1 + z * f.b.2.1 + t * f.c.2.1 + z * t * f.d.2.1,
    f.a.2.2 + z * f.b.2.2 + t * f.c.2.2 + z * t * f.d.2.2)

omit [LinearOrder K] [IsStrictOrderedRing K] in
private theorem at_flat (f : Multilinear K) (p : K × K) (z t : K) :
    f.at p z t = (flat f z t).1 + (flat f z t).2.1 * p.1 + (flat f z t).2.2 * p.2 := by
  unfold Multilinear.at flat
  ring

/-- The results are numbers this close to the field. -/
def CloseResults (pos : P → K × K) (z : P → K) (F : SpaceTime K) (t : K) (E : K) (pts : List P)
    (out : List (Cell K)) : Prop :=
  List.Forall₂ (fun p c => c.masked = false ∧ ∃ v, c.value = some v ∧ |v - F (pos p) (z p) t| ≤ E)
    pts out

private theorem close_levels {xy : σ → List P → Except Err (List (Cell K))} {pos : P → K × K}
    {z : P → K} {Q : P → Prop} {Corner : P → K × K → Prop} {F : SpaceTime K} {slice : K → K → σ}
    {hor : K → K → P → K} (H : Horizontal xy pos Q Corner F slice hor)
    {times : List Int} (hs : StrictIncr times) {levels : List K}
    (hl : StrictIncr levels ∨ StrictDecr levels) (hn : 2 ≤ levels.length) (sbc bbc : BC) {t : Int}
    (e : Bool) (ht : OnAxis times t) {pts : List P}
    (hpts : ∀ p ∈ pts, Q p ∧ WithinLevels levels (z p)) {τ ζ E : K} (hτ : 0 ≤ τ)
    (hst : StepsAtMost (times.map fun x : Int => (x : K)) τ) (hsz : StepsAtMost levels ζ)
    (A : P → Multilinear K) (hA : ∀ p ∈ pts, (A p).at (pos p) (z p) t = F (pos p) (z p) t)
    (hE : ∀ p ∈ pts, ∀ n, Corner p n → ∀ zk tk : K, |zk - z p| ≤ ζ → |tk - (t : K)| ≤ τ →
      |F n zk tk - (A p).at n zk tk| ≤ E) :
    ∃ out, eval xy times (levelSys z levels sbc bbc)
        (.timeDepth (times.map fun ti : Int => levels.map fun zk => slice zk (ti : K))) pts t e =
        .ok out ∧ CloseResults pos z F t E pts out := by
  have hne : times ≠ [] := by
    obtain ⟨lo, hi, h0, _⟩ := ht
    rintro rfl
    simp at h0
  let T : Nat → K := fun i => match times[i]? with
    | some a => (a : K)
    | none => 0
  let Z : Nat → K := fun k => match levels[k]? with
    | some a => a
    | none => 0
  have hserve : ServedBy xy times levels.length
      (times.map fun ti : Int => levels.map fun zk => slice zk (ti : K)) Q
      (fun i k p => hor (Z k) (T i) p) := by
    refine ⟨by simp, ?_, ?_⟩
    · intro r hr
      obtain ⟨ti, _, rfl⟩ := List.mem_map.mp hr
      simp
    · intro i k r s hr hsl ps hps
      rw [List.getElem?_map] at hr
      obtain ⟨ti, hti, rfl⟩ := Option.map_eq_some_iff.mp hr
      rw [List.getElem?_map] at hsl
      obtain ⟨zk, hzk, rfl⟩ := Option.map_eq_some_iff.mp hsl
      rw [H.value zk (ti : K) ps hps]
      simp only [T, Z, hti, hzk]
  obtain ⟨i, j, α, hw, hall⟩ := C113_levels_partial xy times hs hne levels.length hn _ Q _ hserve t e
    (Or.inr (Or.inr ht))
  obtain ⟨a, b, hta, htb, hab, hna, hnb⟩ := times_near hs ht hτ hst hw
  obtain ⟨ents, hents, hpk, hdetail⟩ := levelSys_picks z levels hl hn sbc bbc pts
    (fun p hp => (hpts p hp).2)
  obtain ⟨out, ho, hol, hr⟩ := hall (levelSys z levels sbc bbc) pts ents (fun p hp => (hpts p hp).1)
    (by simp only [levelSys]; omega) hents hpk
  refine ⟨out, ho, List.forall₂_iff_get.mpr ⟨hol.symm, ?_⟩⟩
  intro n h1 h2
  have hpn : pts[n]? = some (pts.get ⟨n, h1⟩) := List.getElem?_eq_getElem h1
  have hen := List.getElem?_eq_getElem (l := ents) (i := n) (by rw [hpk.1]; exact h1)
  generalize pts.get ⟨n, h1⟩ = p at hpn
  generalize ents[n]'(by rw [hpk.1]; exact h1) = ent at hen
  have hmem := List.mem_of_getElem? hpn
  obtain ⟨c, hc, hcm, hcv⟩ := hr n p ent hpn hen
  have hcg : out.get ⟨n, h2⟩ = c := by
    rw [List.getElem?_eq_getElem h2] at hc
    exact Option.some.inj hc
  obtain ⟨hm, β, k, za, zb, hβ, hk, hza, hzb, hzz⟩ := hdetail n p ent hpn hen
  obtain ⟨β', v, w, hβ', hv, hw', hval⟩ := hcv hm
  rw [hβ] at hβ'; cases hβ'
  obtain ⟨_, β', hβ', b0, b1, _⟩ := hpk.2 ent (List.mem_of_getElem? hen) hm
  rw [hβ] at hβ'; cases hβ'
  have hk1 : k + 1 < levels.length := (List.getElem?_eq_some_iff.mp hzb).1
  obtain ⟨nza, nzb⟩ := between_near (x := z p) b0 b1 (by rw [← hzz]; ring) (hsz k za zb hza hzb)
  have hcol : ∀ zk tk : K, |zk - z p| ≤ ζ → |tk - (t : K)| ≤ τ →
      |hor zk tk p - (A p).at (pos p) zk tk| ≤ E := by
    intro zk tk g1 g2
    rw [at_flat]
    refine H.near zk tk p _ E (hpts p hmem).1 ?_
    intro n' hn'
    have := hE p hmem n' hn' zk tk g1 g2
    rwa [at_flat] at this
  have hmix : ∀ (x : K) (i : Nat), |T i - t| ≤ τ → LevelMix levels.length
      (fun k => hor (Z k) (T i) p) ent.idx β x → |x - (A p).at (pos p) (z p) (T i)| ≤ E := by
    intro x i hti hx
    rcases hx with ⟨k', h1, h2, h3⟩ | ⟨h1, _, _⟩ | ⟨h1, _, _⟩
    · obtain rfl : k' = k := by omega
      rw [h3, ← ml_levels (A p) (pos p) (T i) za zb (z p) β hzz]
      simp only [Z, hza, hzb]
      exact near_mix b0 b1 (hcol _ _ nza hti) (hcol _ _ nzb hti)
    · omega
    · omega
  have hTi : T i = (a : K) := by simp only [T, hta]
  have hTj : T j = (b : K) := by simp only [T, htb]
  rw [hcg]
  refine ⟨by rw [hcm, hm], _, hval, ?_⟩
  rw [← hA p hmem, ← ml_times (A p) (pos p) (z p) a b t α hab]
  have g1 := hmix v i (by rw [hTi]; exact hna) hv
  have g2 := hmix w j (by rw [hTj]; exact hnb) hw'
  rw [hTi] at g1
  rw [hTj] at g2
  exact near_mix hw.1 hw.2.1 g1 g2

private theorem close_surface {xy : σ → List P → Except Err (List (Cell K))} {pos : P → K × K}
    {Q : P → Prop} {Corner : P → K × K → Prop} {F : SpaceTime K} {slice : K → K → σ}
    {hor : K → K → P → K} (H : Horizontal xy pos Q Corner F slice hor)
    {times : List Int} (hs : StrictIncr times) (ds : DepthSys K P) {t : Int}
    (e : Bool) (ht : OnAxis times t) {pts : List P}
    (hpts : ∀ p ∈ pts, Q p) {τ E : K} (hτ : 0 ≤ τ)
    (hst : StepsAtMost (times.map fun x : Int => (x : K)) τ)
    (A : P → Multilinear K) (hA : ∀ p ∈ pts, (A p).at (pos p) 0 t = F (pos p) 0 t)
    (hE : ∀ p ∈ pts, ∀ n, Corner p n → ∀ tk : K, |tk - (t : K)| ≤ τ → |F n 0 tk - (A p).at n 0 tk| ≤ E) :
    ∃ out, eval xy times ds (.time (times.map fun ti : Int => slice 0 (ti : K))) pts t e = .ok out ∧
      CloseResults pos (fun _ => 0) F t E pts out := by
  have hne : times ≠ [] := by
    obtain ⟨lo, hi, h0, _⟩ := ht
    rintro rfl
    simp at h0
  let T : Nat → K := fun i => match times[i]? with
    | some a => (a : K)
    | none => 0
  obtain ⟨i, j, α, hw, hall⟩ := C113_surface xy times hs hne
    (times.map fun ti : Int => slice 0 (ti : K)) (by simp) Q (fun i p => hor 0 (T i) p) (by
      intro i s his ps hps
      rw [List.getElem?_map] at his
      obtain ⟨ti, hti, rfl⟩ := Option.map_eq_some_iff.mp his
      rw [H.value 0 (ti : K) ps hps]
      simp only [T, hti]) t e (Or.inr (Or.inr ht))
  obtain ⟨a, b, hta, htb, hab, hna, hnb⟩ := times_near hs ht hτ hst hw
  refine ⟨_, hall ds pts hpts, ?_⟩
  unfold CloseResults
  rw [List.forall₂_map_right_iff, List.forall₂_same]
  intro p hp
  refine ⟨rfl, _, rfl, ?_⟩
  have hTi : T i = (a : K) := by simp only [T, hta]
  have hTj : T j = (b : K) := by simp only [T, htb]
  have hcol : ∀ tk : K, |tk - (t : K)| ≤ τ → |hor 0 tk p - (A p).at (pos p) 0 tk| ≤ E := by
    intro tk g
    rw [at_flat]
    refine H.near 0 tk p _ E (hpts p hp) ?_
    intro n' hn'
    have := hE p hp n' hn' tk g
    rwa [at_flat] at this
  rw [← hA p hp, ← ml_times (A p) (pos p) 0 a b t α hab, hTi, hTj]
  exact near_mix hw.1 hw.2.1 (hcol _ hna) (hcol _ hnb)

/-! ## The horizontal stages -/

/-- A corner of the triangle the point is in. -/
private def TriCorner (m : UGeom.Mesh K) (p : UPt K) (n : K × K) : Prop :=
  ∃ (a b c : Int) (A B C : K × K), Np.pyGet m.faces p.face = .ok [a, b, c] ∧
    Np.pyGet m.nodes a = .ok A ∧ Np.pyGet m.nodes b = .ok B ∧ Np.pyGet m.nodes c = .ok C ∧
    InTriangle A B C p.pos ∧ (n = A ∨ n = B ∨ n = C)

private theorem tri_horizontal (m : UGeom.Mesh K) (F : SpaceTime K) :
    Horizontal (xyU m .node) UPt.pos (InItsTriangle m) (TriCorner m) F
      (fun zk tk => m.nodes.map fun n => some (F n zk tk))
      (fun zk tk p => uValue m (m.nodes.map fun n => some (F n zk tk)) p) := by
  have hon : ∀ (zk tk : K) (p : UPt K), InItsTriangle m p → ∃ (A B C : K × K) (a b c : K),
      TriCorner m p A ∧ TriCorner m p B ∧ TriCorner m p C ∧ Weighted A B C p.pos a b c ∧
      0 ≤ a ∧ 0 ≤ b ∧ 0 ≤ c ∧
      UGeom.interpNode m (m.nodes.map fun n => some (F n zk tk)) p.face p.pos =
        .ok (some (F A zk tk * a + F B zk tk * b + F C zk tk * c)) := by
    intro zk tk p hp
    obtain ⟨hf, a, b, c, A, B, C, h1, h2, h3, h4, h5, h6⟩ := hp
    have hd : ∀ (i : Int) (A : K × K), Np.pyGet m.nodes i = .ok A →
        Np.pyGet (m.nodes.map fun n => some (F n zk tk)) i = .ok (some (F A zk tk)) := fun i A hA =>
      pyGet_map' (fun n : K × K => some (F n zk tk)) _ _ _ hA
    obtain ⟨wa, wb, wc, hw, he⟩ := interpNode_on (m := m) ⟨a, b, c, h1, h2, h3, h4, hd _ _ h2,
      hd _ _ h3, hd _ _ h4⟩ hf h5 p.pos
    have hin := h6
    obtain ⟨a', b', c', p1, p2, p3, hw'⟩ := h6
    have hu := (UGeom.weighted_iff (UGeom.denom_ne h5) p.pos wa wb wc).mp hw
    have hu' := (UGeom.weighted_iff (UGeom.denom_ne h5) p.pos a' b' c').mp hw'
    obtain rfl : a' = wa := hu'.1.trans hu.1.symm
    obtain rfl : b' = wb := hu'.2.1.trans hu.2.1.symm
    obtain rfl : c' = wc := hu'.2.2.trans hu.2.2.symm
    have hc : ∀ n, (n = A ∨ n = B ∨ n = C) → TriCorner m p n := fun n hn =>
      ⟨a, b, c, A, B, C, h1, h2, h3, h4, hin, hn⟩
    exact ⟨A, B, C, a', b', c', hc _ (by simp), hc _ (by simp), hc _ (by simp), hw, p1, p2, p3, he⟩
  constructor
  · intro zk tk ps hps
    have hmap : mapE (fun x : Int × (K × K) => UGeom.interpNode m
        (m.nodes.map fun n => some (F n zk tk)) x.1 x.2) (ps.map fun p => (p.face, p.pos)) =
        .ok ((ps.map fun p => (p.face, p.pos)).map fun x =>
          some (uValue m (m.nodes.map fun n => some (F n zk tk)) ⟨x.1, x.2, 0⟩)) := by
      refine mapE_ok ?_
      intro x hx
      obtain ⟨p, hp, rfl⟩ := List.mem_map.mp hx
      obtain ⟨A, B, C, a, b, c, _, _, _, _, _, _, _, he⟩ := hon zk tk p (hps p hp)
      unfold uValue
      simp only [he]
    unfold xyU UGeom.interpolate
    simp only [hmap, List.map_map]
    rfl
  · intro zk tk p q E hp hE
    obtain ⟨A, B, C, a, b, c, cA, cB, cC, ⟨w1, w2, w3⟩, pa, pb, pc, he⟩ := hon zk tk p hp
    have hval : uValue m (m.nodes.map fun n => some (F n zk tk)) p =
        F A zk tk * a + F B zk tk * b + F C zk tk * c := by
      unfold uValue
      rw [he]
    rw [hval]
    have hlin : q.1 + q.2.1 * p.pos.1 + q.2.2 * p.pos.2 =
        (q.1 + q.2.1 * A.1 + q.2.2 * A.2) * a + (q.1 + q.2.1 * B.1 + q.2.2 * B.2) * b +
          (q.1 + q.2.1 * C.1 + q.2.2 * C.2) * c := by
      rw [w2, w3]
      linear_combination -q.1 * w1
    rw [hlin]
    exact near_three pa pb pc w1 (hE A cA) (hE B cB) (hE C cC)

/-- The array holds the field at every node of the grid, behind the padding of node data. -/
def HoldsSamples (g : SInterp.Grid K) (φ : K × K → K) (A : List (List K)) : Prop :=
  (∃ c, Rectangular c A) ∧ ∀ (i j : Nat) (x y : K), entry g.lon i j = some x →
    entry g.lat i j = some y →
    entry A (i + lowPads (g.pads .node).1) (j + lowPads (g.pads .node).2) = some (φ (x, y))

/-- The four corners of a cell. -/
def quadCorners (px py : K × K × K × K) : List (K × K) :=
  [(px.1, py.1), (px.2.1, py.2.1), (px.2.2.1, py.2.2.1), (px.2.2.2, py.2.2.2)]

/-- The point was located in a cell of the structured grid, its position in the unit square. -/
def InItsCell (sqrt : K → K) (g : SInterp.Grid K) (p : SPt K) : Prop :=
  ∃ (i j : Nat) (l m : K) (px py : K × K × K × K), p.cell = some ((i : Int), (j : Int)) ∧
    IsCorners g.lon i j px ∧ IsCorners g.lat i j py ∧ InUnit (l, m) ∧
    SInterp.offset sqrt g p.pos ((i : Int), (j : Int)) = .ok (some (l, m))

private def QuadCorner (sqrt : K → K) (g : SInterp.Grid K) (p : SPt K) (n : K × K) : Prop :=
  ∃ (i j : Nat) (l m : K) (px py : K × K × K × K), p.cell = some ((i : Int), (j : Int)) ∧
    IsCorners g.lon i j px ∧ IsCorners g.lat i j py ∧ InUnit (l, m) ∧
    SInterp.offset sqrt g p.pos ((i : Int), (j : Int)) = .ok (some (l, m)) ∧ n ∈ quadCorners px py

private def quadValue (sqrt : K → K) (g : SInterp.Grid K) (A : List (List K)) (p : SPt K) : K :=
  match p.cell with
  | none => 0
  | some ij => match SInterp.nodeValue sqrt g (plain A) p.pos ij with
    | .ok (some x) => x
    | _ => 0

private theorem quad_horizontal (sqrt : K → K) (hsq : SqrtOk sqrt) (g : SInterp.Grid K) (c' : Nat)
    (hlon : Rectangular c' g.lon) (hlat : Rectangular c' g.lat)
    (hk0 : (g.pads .node).1 ≠ .other) (hk1 : (g.pads .node).2 ≠ .other) (F : SpaceTime K)
    (A : K → K → List (List K)) (hA : ∀ z t, HoldsSamples g (fun n => F n z t) (A z t)) :
    Horizontal (xyS sqrt g (some .node)) SPt.pos (InItsCell sqrt g) (QuadCorner sqrt g) F
      (fun zk tk => plain (A zk tk)) (fun zk tk p => quadValue sqrt g (A zk tk) p) := by
  have hon : ∀ (zk tk : K) (p : SPt K), InItsCell sqrt g p → ∃ (ij : Int × Int) (l m : K)
      (px py : K × K × K × K), p.cell = some ij ∧ InUnit (l, m) ∧
      (∀ n ∈ quadCorners px py, QuadCorner sqrt g p n) ∧
      bilinear px l m = p.pos.1 ∧ bilinear py l m = p.pos.2 ∧
      SInterp.nodeValue sqrt g (plain (A zk tk)) p.pos ij =
        .ok (some (bilinear (F (px.1, py.1) zk tk, F (px.2.1, py.2.1) zk tk,
          F (px.2.2.1, py.2.2.1) zk tk, F (px.2.2.2, py.2.2.2) zk tk) l m)) := by
    intro zk tk p hp
    obtain ⟨i, j, l, m, px, py, hcell, hx, hy, hu, ho⟩ := hp
    obtain ⟨e1, e2⟩ := C45_maps_back sqrt hsq g c' hlon hlat i j px py hx hy p.pos l m ho
    obtain ⟨⟨c, hc⟩, hA⟩ := hA zk tk
    refine ⟨_, l, m, px, py, hcell, hu, fun n hn => ⟨i, j, l, m, px, py, hcell, hx, hy, hu, ho, hn⟩,
      e1, e2, ?_⟩
    refine C46_value sqrt g (A zk tk) c hc p.pos i j l m _ ho hk0 hk1 ?_
    obtain ⟨x0, x1, x2, x3⟩ := hx
    obtain ⟨y0, y1, y2, y3⟩ := hy
    refine ⟨hA _ _ _ _ x0 y0, ?_, ?_, ?_⟩
    · have := hA _ _ _ _ x1 y1
      rwa [show i + 1 + lowPads (g.pads .node).1 = i + lowPads (g.pads .node).1 + 1
        by omega] at this
    · have := hA _ _ _ _ x2 y2
      rwa [show i + 1 + lowPads (g.pads .node).1 = i + lowPads (g.pads .node).1 + 1
        by omega, show j + 1 + lowPads (g.pads .node).2 =
          j + lowPads (g.pads .node).2 + 1 by omega] at this
    · have := hA _ _ _ _ x3 y3
      rwa [show j + 1 + lowPads (g.pads .node).2 =
          j + lowPads (g.pads .node).2 + 1 by omega] at this
  constructor
  · intro zk tk ps hps
    have hI : SInterp.interpolate sqrt g (some .node) false (plain (A zk tk))
        (ps.map fun p => (p.pos, p.cell)) = .ok (ps.map fun p => some (quadValue sqrt g (A zk tk) p)) := by
      unfold SInterp.interpolate
      split
      · rename_i hall
        rw [List.all_eq_true] at hall
        cases ps with
        | nil => rfl
        | cons p ps =>
          obtain ⟨ij, l, m, px, py, hc, _⟩ := hon zk tk p (hps p (by simp))
          have := hall (p.pos, p.cell) (by simp)
          simp [hc] at this
      · simp only [Bool.false_eq_true, if_false]
        have := mapE_ok (f := fun q : (K × K) × Option (Int × Int) => match q.2 with
          | none => .ok none
          | some ij => SInterp.nodeValue sqrt g (plain (A zk tk)) q.1 ij)
          (g := fun q => some (quadValue sqrt g (A zk tk) ⟨q.2, q.1, 0⟩))
          (l := ps.map fun p => (p.pos, p.cell)) (by
            intro q hq
            obtain ⟨p, hp, rfl⟩ := List.mem_map.mp hq
            obtain ⟨ij, l, m, px, py, hc, _, _, _, _, hv⟩ := hon zk tk p (hps p hp)
            simp only [hc]
            unfold quadValue
            simp only [hv])
        rw [List.map_map] at this
        exact this
    unfold xyS
    rw [hI]
    simp only [List.map_map]
    rfl
  · intro zk tk p q E hp hE
    obtain ⟨ij, l, m, px, py, hc, hu, hco, e1, e2, hv⟩ := hon zk tk p hp
    have hval : quadValue sqrt g (A zk tk) p = bilinear (F (px.1, py.1) zk tk, F (px.2.1, py.2.1) zk tk,
          F (px.2.2.1, py.2.2.1) zk tk, F (px.2.2.2, py.2.2.2) zk tk) l m := by
      unfold quadValue
      rw [hc]
      simp only [hv]
    rw [hval]
    have hlin : q.1 + q.2.1 * p.pos.1 + q.2.2 * p.pos.2 =
        bilinear (q.1 + q.2.1 * px.1 + q.2.2 * py.1, q.1 + q.2.1 * px.2.1 + q.2.2 * py.2.1,
          q.1 + q.2.1 * px.2.2.1 + q.2.2 * py.2.2.1, q.1 + q.2.1 * px.2.2.2 + q.2.2 * py.2.2.2) l m := by
      rw [← e1, ← e2]
      unfold bilinear
      ring
    rw [hlin]
    refine near_bilinear hu _ _ ?_ ?_ ?_ ?_
    · exact hE _ (hco _ (by simp [quadCorners]))
    · exact hE _ (hco _ (by simp [quadCorners]))
    · exact hE _ (hco _ (by simp [quadCorners]))
    · exact hE _ (hco _ (by simp [quadCorners]))

/-! ## Smooth fields -/

/-- The tangent of a field, with the slopes given. -/
def tangent (f0 a b c d : K) (p : K × K) (z t : K) : Multilinear K where
  a := (f0 - a * p.1 - b * p.2 - c * z - d * t, a, b)
  b := (c, 0, 0)
  c := (d, 0, 0)
  d := (0, 0, 0)

omit [LinearOrder K] [IsStrictOrderedRing K] in
theorem tangent_at (f0 a b c d : K) (p : K × K) (z t : K) (p' : K × K) (z' t' : K) :
    (tangent f0 a b c d p z t).at p' z' t' =
      f0 + a * (p'.1 - p.1) + b * (p'.2 - p.2) + c * (z' - z) + d * (t' - t) := by
  unfold tangent Multilinear.at
  ring

theorem remainder {mh mz mt h ζ τ d2 dz dt : K} (m1 : 0 ≤ mh) (m2 : 0 ≤ mz) (m3 : 0 ≤ mt)
    (h1 : d2 ≤ h ^ 2) (h2 : |dz| ≤ ζ) (h3 : |dt| ≤ τ) :
    mh * d2 + mz * dz ^ 2 + mt * dt ^ 2 ≤ mh * h ^ 2 + mz * ζ ^ 2 + mt * τ ^ 2 := by
  have e2 : dz ^ 2 ≤ ζ ^ 2 := by
    rw [← sq_abs dz]
    exact pow_le_pow_left₀ (abs_nonneg _) h2 2
  have e3 : dt ^ 2 ≤ τ ^ 2 := by
    rw [← sq_abs dt]
    exact pow_le_pow_left₀ (abs_nonneg _) h3 2
  have a1 := mul_le_mul_of_nonneg_left h1 m1
  have a2 := mul_le_mul_of_nonneg_left e2 m2
  have a3 := mul_le_mul_of_nonneg_left e3 m3
  linarith

/-- No two corners of a triangle of the mesh are further apart than `h`. -/
def TrianglesAtMost (m : UGeom.Mesh K) (h : K) : Prop :=
  ∀ (f a b c : Int) (A B C : K × K), Np.pyGet m.faces f = .ok [a, b, c] →
    Np.pyGet m.nodes a = .ok A → Np.pyGet m.nodes b = .ok B → Np.pyGet m.nodes c = .ok C →
    ∀ X ∈ [A, B, C], ∀ Y ∈ [A, B, C], sqDist X Y ≤ h ^ 2

/-- No two corners of a cell of the grid are further apart than `h`. -/
def CellsAtMost (g : SInterp.Grid K) (h : K) : Prop :=
  ∀ (i j : Nat) (px py : K × K × K × K), IsCorners g.lon i j px → IsCorners g.lat i j py →
    ∀ X ∈ quadCorners px py, ∀ Y ∈ quadCorners px py, sqDist X Y ≤ h ^ 2

private theorem triCorner_near {m : UGeom.Mesh K} {h : K} (hm : TrianglesAtMost m h) {p : UPt K}
    {n : K × K} (hc : TriCorner m p n) : sqDist n p.pos ≤ h ^ 2 := by
  obtain ⟨a, b, c, A, B, C, h1, h2, h3, h4, h5, h6⟩ := hc
  have hn : n ∈ [A, B, C] := by simpa using h6
  have := hm p.face a b c A B C h1 h2 h3 h4 n hn
  exact sqDist_three h5 (this A (by simp)) (this B (by simp)) (this C (by simp))

private theorem quadCorner_near {sqrt : K → K} (hsq : SqrtOk sqrt) {g : SInterp.Grid K} {c' : Nat}
    (hlon : Rectangular c' g.lon) (hlat : Rectangular c' g.lat) {h : K} (hm : CellsAtMost g h)
    {p : SPt K} {n : K × K} (hc : QuadCorner sqrt g p n) : sqDist n p.pos ≤ h ^ 2 := by
  obtain ⟨i, j, l, m, px, py, _, hx, hy, hu, ho, hn⟩ := hc
  obtain ⟨e1, e2⟩ := C45_maps_back sqrt hsq g c' hlon hlat i j px py hx hy p.pos l m ho
  have := hm i j px py hx hy n hn
  exact sqDist_quad hu e1 e2 (this _ (by simp [quadCorners])) (this _ (by simp [quadCorners]))
    (this _ (by simp [quadCorners])) (this _ (by simp [quadCorners]))

/-- C170, triangles. Data taken from a smooth field: the results are as close to the field as its
curvature times the squares of the sizes of the triangles and of the steps between levels and times.
Missing: the depth of the level listed last. -/
theorem C170_triangles_partial (m : UGeom.Mesh K) (F : SpaceTime K) (mh mz mt h ζ τ : K) (m1 : 0 ≤ mh)
    (m2 : 0 ≤ mz) (m3 : 0 ≤ mt) (hF : BendsAtMost F mh mz mt) (hm : TrianglesAtMost m h)
    (times : List Int) (hs : StrictIncr times) (hτ : 0 ≤ τ)
    (hst : StepsAtMost (times.map fun x : Int => (x : K)) τ) (levels : List K)
    (hl : StrictIncr levels ∨ StrictDecr levels) (hn : 2 ≤ levels.length) (hsz : StepsAtMost levels ζ)
    (sbc bbc : BC) (t : Int) (e : Bool) (ht : OnAxis times t) (pts : List (UPt K))
    (hpts : ∀ p ∈ pts, InItsTriangle m p ∧ WithinLevels levels p.z) :
    ∃ out, eval (xyU m .node) times (levelSys UPt.z levels sbc bbc)
        (.timeDepth (times.map fun ti : Int => levels.map fun zk => m.nodes.map fun n =>
          some (F n zk (ti : K)))) pts t e = .ok out ∧
      CloseResults UPt.pos UPt.z F t (mh * h ^ 2 + mz * ζ ^ 2 + mt * τ ^ 2) pts out := by
  choose a b c d hd using fun p : UPt K => hF p.pos p.z (t : K)
  refine close_levels (tri_horizontal m F) hs hl hn sbc bbc e ht hpts hτ hst hsz
    (fun p => tangent (F p.pos p.z t) (a p) (b p) (c p) (d p) p.pos p.z t) ?_ ?_
  · intro p _
    rw [tangent_at]
    ring
  · intro p _ n hc zk tk g1 g2
    rw [tangent_at]
    exact le_trans (hd p n zk tk) (remainder m1 m2 m3 (triCorner_near hm hc) g1 g2)

/-- C170, triangles, data over time only. -/
theorem C170_surface_triangles (m : UGeom.Mesh K) (F : SpaceTime K) (mh mz mt h τ : K) (m1 : 0 ≤ mh)
    (m2 : 0 ≤ mz) (m3 : 0 ≤ mt) (hF : BendsAtMost F mh mz mt) (hm : TrianglesAtMost m h)
    (times : List Int) (hs : StrictIncr times) (hτ : 0 ≤ τ)
    (hst : StepsAtMost (times.map fun x : Int => (x : K)) τ) (ds : DepthSys K (UPt K))
    (t : Int) (e : Bool) (ht : OnAxis times t) (pts : List (UPt K))
    (hpts : ∀ p ∈ pts, InItsTriangle m p) :
    ∃ out, eval (xyU m .node) times ds
        (.time (times.map fun ti : Int => m.nodes.map fun n => some (F n 0 (ti : K)))) pts t e = .ok out ∧
      CloseResults UPt.pos (fun _ => 0) F t (mh * h ^ 2 + mt * τ ^ 2) pts out := by
  choose a b c d hd using fun p : UPt K => hF p.pos 0 (t : K)
  refine close_surface (tri_horizontal m F) hs ds e ht hpts hτ hst
    (fun p => tangent (F p.pos 0 t) (a p) (b p) (c p) (d p) p.pos 0 t) ?_ ?_
  · intro p _
    rw [tangent_at]
    ring
  · intro p _ n hc tk g
    rw [tangent_at]
    have := le_trans (hd p n 0 tk) (remainder (ζ := 0) m1 m2 m3 (triCorner_near hm hc)
      (by rw [sub_zero, abs_zero]) g)
    linarith

/-- C170, structured grids. Missing: the depth of the level listed last. -/
theorem C170_quads_partial (sqrt : K → K) (hsq : SqrtOk sqrt) (g : SInterp.Grid K) (c' : Nat)
    (hlon : Rectangular c' g.lon) (hlat : Rectangular c' g.lat)
    (hk0 : (g.pads .node).1 ≠ .other) (hk1 : (g.pads .node).2 ≠ .other) (F : SpaceTime K)
    (mh mz mt h ζ τ : K) (m1 : 0 ≤ mh) (m2 : 0 ≤ mz) (m3 : 0 ≤ mt) (hF : BendsAtMost F mh mz mt)
    (hm : CellsAtMost g h)
    (A : K → K → List (List K)) (hA : ∀ z t, HoldsSamples g (fun n => F n z t) (A z t))
    (times : List Int) (hs : StrictIncr times) (hτ : 0 ≤ τ)
    (hst : StepsAtMost (times.map fun x : Int => (x : K)) τ) (levels : List K)
    (hl : StrictIncr levels ∨ StrictDecr levels) (hn : 2 ≤ levels.length) (hsz : StepsAtMost levels ζ)
    (sbc bbc : BC) (t : Int) (e : Bool) (ht : OnAxis times t) (pts : List (SPt K))
    (hpts : ∀ p ∈ pts, InItsCell sqrt g p ∧ WithinLevels levels p.z) :
    ∃ out, eval (xyS sqrt g (some .node)) times (levelSys SPt.z levels sbc bbc)
        (.timeDepth (times.map fun ti : Int => levels.map fun zk => plain (A zk (ti : K)))) pts t e =
        .ok out ∧
      CloseResults SPt.pos SPt.z F t (mh * h ^ 2 + mz * ζ ^ 2 + mt * τ ^ 2) pts out := by
  choose a b c d hd using fun p : SPt K => hF p.pos p.z (t : K)
  refine close_levels (quad_horizontal sqrt hsq g c' hlon hlat hk0 hk1 F A hA) hs hl hn sbc bbc e ht
    hpts hτ hst hsz
    (fun p => tangent (F p.pos p.z t) (a p) (b p) (c p) (d p) p.pos p.z t) ?_ ?_
  · intro p _
    rw [tangent_at]
    ring
  · intro p _ n hc zk tk g1 g2
    rw [tangent_at]
    exact le_trans (hd p n zk tk) (remainder m1 m2 m3 (quadCorner_near hsq hlon hlat hm hc) g1 g2)

/-- C170, structured grids, data over time only. -/
theorem C170_surface_quads (sqrt : K → K) (hsq : SqrtOk sqrt) (g : SInterp.Grid K) (c' : Nat)
    (hlon : Rectangular c' g.lon) (hlat : Rectangular c' g.lat)
    (hk0 : (g.pads .node).1 ≠ .other) (hk1 : (g.pads .node).2 ≠ .other) (F : SpaceTime K)
    (mh mz mt h τ : K) (m1 : 0 ≤ mh) (m2 : 0 ≤ mz) (m3 : 0 ≤ mt) (hF : BendsAtMost F mh mz mt)
    (hm : CellsAtMost g h)
    (A : K → K → List (List K)) (hA : ∀ z t, HoldsSamples g (fun n => F n z t) (A z t))
    (times : List Int) (hs : StrictIncr times) (hτ : 0 ≤ τ)
    (hst : StepsAtMost (times.map fun x : Int => (x : K)) τ) (ds : DepthSys K (SPt K))
    (t : Int) (e : Bool) (ht : OnAxis times t) (pts : List (SPt K))
    (hpts : ∀ p ∈ pts, InItsCell sqrt g p) :
    ∃ out, eval (xyS sqrt g (some .node)) times ds
        (.time (times.map fun ti : Int => plain (A 0 (ti : K)))) pts t e = .ok out ∧
      CloseResults SPt.pos (fun _ => 0) F t (mh * h ^ 2 + mt * τ ^ 2) pts out := by
  choose a b c d hd using fun p : SPt K => hF p.pos 0 (t : K)
  refine close_surface (quad_horizontal sqrt hsq g c' hlon hlat hk0 hk1 F A hA) hs ds e ht hpts hτ hst
    (fun p => tangent (F p.pos 0 t) (a p) (b p) (c p) (d p) p.pos 0 t) ?_ ?_
  · intro p _
    rw [tangent_at]
    ring
  · intro p _ n hc tk g
    rw [tangent_at]
    have := le_trans (hd p n 0 tk) (remainder (ζ := 0) m1 m2 m3 (quadCorner_near hsq hlon hlat hm hc)
      (by rw [sub_zero, abs_zero]) g)
    linarith

/-! ## Rough fields -/

theorem abs_of_sqDist {n p : K × K} {h : K} (h0 : 0 ≤ h) (hd : sqDist n p ≤ h ^ 2) :
    |n.1 - p.1| ≤ h ∧ |n.2 - p.2| ≤ h := by
  unfold sqDist at hd
  constructor
  · exact abs_le_of_sq_le_sq (by linarith [sq_nonneg (n.2 - p.2)]) h0
  · exact abs_le_of_sq_le_sq (by linarith [sq_nonneg (n.1 - p.1)]) h0

theorem rate {lh lz lt h ζ τ dx dy dz dt : K} (m1 : 0 ≤ lh) (m2 : 0 ≤ lz) (m3 : 0 ≤ lt)
    (h1 : dx ≤ h) (h2 : dy ≤ h) (h3 : dz ≤ ζ) (h4 : dt ≤ τ) :
    lh * (dx + dy) + lz * dz + lt * dt ≤ lh * (2 * h) + lz * ζ + lt * τ := by
  have a1 := mul_le_mul_of_nonneg_left (show dx + dy ≤ 2 * h by linarith) m1
  have a2 := mul_le_mul_of_nonneg_left h3 m2
  have a3 := mul_le_mul_of_nonneg_left h4 m3
  linarith

/-- C171, triangles. Data taken from any field that changes at limited rates. Missing: the depth of the
level listed last. -/
theorem C171_triangles_partial (m : UGeom.Mesh K) (F : SpaceTime K) (lh lz lt h ζ τ : K) (m1 : 0 ≤ lh)
    (m2 : 0 ≤ lz) (m3 : 0 ≤ lt) (hF : ChangesAtMost F lh lz lt) (h0 : 0 ≤ h) (hm : TrianglesAtMost m h)
    (times : List Int) (hs : StrictIncr times) (hτ : 0 ≤ τ)
    (hst : StepsAtMost (times.map fun x : Int => (x : K)) τ) (levels : List K)
    (hl : StrictIncr levels ∨ StrictDecr levels) (hn : 2 ≤ levels.length) (hsz : StepsAtMost levels ζ)
    (sbc bbc : BC) (t : Int) (e : Bool) (ht : OnAxis times t) (pts : List (UPt K))
    (hpts : ∀ p ∈ pts, InItsTriangle m p ∧ WithinLevels levels p.z) :
    ∃ out, eval (xyU m .node) times (levelSys UPt.z levels sbc bbc)
        (.timeDepth (times.map fun ti : Int => levels.map fun zk => m.nodes.map fun n =>
          some (F n zk (ti : K)))) pts t e = .ok out ∧
      CloseResults UPt.pos UPt.z F t (lh * (2 * h) + lz * ζ + lt * τ) pts out := by
  refine close_levels (tri_horizontal m F) hs hl hn sbc bbc e ht hpts hτ hst hsz
    (fun p => tangent (F p.pos p.z t) 0 0 0 0 p.pos p.z t) ?_ ?_
  · intro p _
    rw [tangent_at]
    ring
  · intro p _ n hc zk tk g1 g2
    obtain ⟨d1, d2⟩ := abs_of_sqDist h0 (triCorner_near hm hc)
    rw [tangent_at]
    have := le_trans (hF p.pos p.z t n zk tk) (rate m1 m2 m3 d1 d2 g1 g2)
    simpa using this

/-- C171, triangles, data over time only. -/
theorem C171_surface_triangles (m : UGeom.Mesh K) (F : SpaceTime K) (lh lz lt h τ : K) (m1 : 0 ≤ lh)
    (m2 : 0 ≤ lz) (m3 : 0 ≤ lt) (hF : ChangesAtMost F lh lz lt) (h0 : 0 ≤ h) (hm : TrianglesAtMost m h)
    (times : List Int) (hs : StrictIncr times) (hτ : 0 ≤ τ)
    (hst : StepsAtMost (times.map fun x : Int => (x : K)) τ) (ds : DepthSys K (UPt K))
    (t : Int) (e : Bool) (ht : OnAxis times t) (pts : List (UPt K))
    (hpts : ∀ p ∈ pts, InItsTriangle m p) :
    ∃ out, eval (xyU m .node) times ds
        (.time (times.map fun ti : Int => m.nodes.map fun n => some (F n 0 (ti : K)))) pts t e = .ok out ∧
      CloseResults UPt.pos (fun _ => 0) F t (lh * (2 * h) + lt * τ) pts out := by
  refine close_surface (tri_horizontal m F) hs ds e ht hpts hτ hst
    (fun p => tangent (F p.pos 0 t) 0 0 0 0 p.pos 0 t) ?_ ?_
  · intro p _
    rw [tangent_at]
    ring
  · intro p _ n hc tk g
    obtain ⟨d1, d2⟩ := abs_of_sqDist h0 (triCorner_near hm hc)
    rw [tangent_at]
    have := le_trans (hF p.pos 0 t n 0 tk) (rate (ζ := 0) m1 m2 m3 d1 d2
      (by rw [sub_zero, abs_zero]) g)
    simpa using this

/-- C171, structured grids. Missing: the depth of the level listed last. -/
theorem C171_quads_partial (sqrt : K → K) (hsq : SqrtOk sqrt) (g : SInterp.Grid K) (c' : Nat)
    (hlon : Rectangular c' g.lon) (hlat : Rectangular c' g.lat)
    (hk0 : (g.pads .node).1 ≠ .other) (hk1 : (g.pads .node).2 ≠ .other) (F : SpaceTime K)
    (lh lz lt h ζ τ : K) (m1 : 0 ≤ lh) (m2 : 0 ≤ lz) (m3 : 0 ≤ lt) (hF : ChangesAtMost F lh lz lt)
    (h0 : 0 ≤ h) (hm : CellsAtMost g h)
    (A : K → K → List (List K)) (hA : ∀ z t, HoldsSamples g (fun n => F n z t) (A z t))
    (times : List Int) (hs : StrictIncr times) (hτ : 0 ≤ τ)
    (hst : StepsAtMost (times.map fun x : Int => (x : K)) τ) (levels : List K)
    (hl : StrictIncr levels ∨ StrictDecr levels) (hn : 2 ≤ levels.length) (hsz : StepsAtMost levels ζ)
    (sbc bbc : BC) (t : Int) (e : Bool) (ht : OnAxis times t) (pts : List (SPt K))
    (hpts : ∀ p ∈ pts, InItsCell sqrt g p ∧ WithinLevels levels p.z) :
    ∃ out, eval (xyS sqrt g (some .node)) times (levelSys SPt.z levels sbc bbc)
        (.timeDepth (times.map fun ti : Int => levels.map fun zk => plain (A zk (ti : K)))) pts t e =
        .ok out ∧
      CloseResults SPt.pos SPt.z F t (lh * (2 * h) + lz * ζ + lt * τ) pts out := by
  refine close_levels (quad_horizontal sqrt hsq g c' hlon hlat hk0 hk1 F A hA) hs hl hn sbc bbc e ht
    hpts hτ hst hsz (fun p => tangent (F p.pos p.z t) 0 0 0 0 p.pos p.z t) ?_ ?_
  · intro p _
    rw [tangent_at]
    ring
  · intro p _ n hc zk tk g1 g2
    obtain ⟨d1, d2⟩ := abs_of_sqDist h0 (quadCorner_near hsq hlon hlat hm hc)
    rw [tangent_at]
    have := le_trans (hF p.pos p.z t n zk tk) (rate m1 m2 m3 d1 d2 g1 g2)
    simpa using this

/-- C171, structured grids, data over time only. -/
theorem C171_surface_quads (sqrt : K → K) (hsq : SqrtOk sqrt) (g : SInterp.Grid K) (c' : Nat)
    (hlon : Rectangular c' g.lon) (hlat : Rectangular c' g.lat)
    (hk0 : (g.pads .node).1 ≠ .other) (hk1 : (g.pads .node).2 ≠ .other) (F : SpaceTime K)
    (lh lz lt h τ : K) (m1 : 0 ≤ lh) (m2 : 0 ≤ lz) (m3 : 0 ≤ lt) (hF : ChangesAtMost F lh lz lt)
    (h0 : 0 ≤ h) (hm : CellsAtMost g h)
    (A : K → K → List (List K)) (hA : ∀ z t, HoldsSamples g (fun n => F n z t) (A z t))
    (times : List Int) (hs : StrictIncr times) (hτ : 0 ≤ τ)
    (hst : StepsAtMost (times.map fun x : Int => (x : K)) τ) (ds : DepthSys K (SPt K))
    (t : Int) (e : Bool) (ht : OnAxis times t) (pts : List (SPt K))
    (hpts : ∀ p ∈ pts, InItsCell sqrt g p) :
    ∃ out, eval (xyS sqrt g (some .node)) times ds
        (.time (times.map fun ti : Int => plain (A 0 (ti : K)))) pts t e = .ok out ∧
      CloseResults SPt.pos (fun _ => 0) F t (lh * (2 * h) + lt * τ) pts out := by
  refine close_surface (quad_horizontal sqrt hsq g c' hlon hlat hk0 hk1 F A hA) hs ds e ht hpts hτ hst
    (fun p => tangent (F p.pos 0 t) 0 0 0 0 p.pos 0 t) ?_ ?_
  · intro p _
    rw [tangent_at]
    ring
  · intro p _ n hc tk g
    obtain ⟨d1, d2⟩ := abs_of_sqDist h0 (quadCorner_near hsq hlon hlat hm hc)
    rw [tangent_at]
    have := le_trans (hF p.pos 0 t n 0 tk) (rate (ζ := 0) m1 m2 m3 d1 d2
      (by rw [sub_zero, abs_zero]) g)
    simpa using this

end Accuracy

/-! ## Cases -/

/-- A mesh is no coarser than its whole extent. -/
private theorem triangles_of_nodes {m : UGeom.Mesh ℚ} {h : ℚ}
    (hm : ∀ X ∈ m.nodes, ∀ Y ∈ m.nodes, sqDist X Y ≤ h ^ 2) : TrianglesAtMost m h := by
  intro f a b c A B C _ h2 h3 h4 X hX Y hY
  have mem : ∀ Z ∈ [A, B, C], Z ∈ m.nodes := by
    intro Z hZ
    simp only [List.mem_cons, List.not_mem_nil, or_false] at hZ
    rcases hZ with rfl | rfl | rfl
    · exact UGeom.pyGet_mem h2
    · exact UGeom.pyGet_mem h3
    · exact UGeom.pyGet_mem h4
  exact hm X (mem X hX) Y (mem Y hY)

theorem oneTriangle_size : TrianglesAtMost oneTriangle 6 :=
  triangles_of_nodes (by unfold sqDist; decide +kernel)

/-- C170 in full: the depth of the level listed last included. -/
def C170_statement : Prop :=
  ∀ (m : UGeom.Mesh ℚ) (F : SpaceTime ℚ) (mh mz mt h ζ τ : ℚ) (times : List Int) (levels : List ℚ)
    (sbc bbc : BC) (t : Int) (e : Bool) (pts : List (UPt ℚ)), 0 ≤ mh → 0 ≤ mz → 0 ≤ mt →
    BendsAtMost F mh mz mt → TrianglesAtMost m h → StrictIncr times → 0 ≤ τ →
    StepsAtMost (times.map fun x : Int => (x : ℚ)) τ → (StrictIncr levels ∨ StrictDecr levels) →
    2 ≤ levels.length → StepsAtMost levels ζ → OnAxis times t →
    (∀ p ∈ pts, InItsTriangle m p ∧ ∃ first last, levels.head? = some first ∧
      levels.getLast? = some last ∧ min first last ≤ p.z ∧ p.z ≤ max first last) →
    ∃ out, eval (xyU m .node) times (levelSys UPt.z levels sbc bbc)
        (.timeDepth (times.map fun ti : Int => levels.map fun zk => m.nodes.map fun n =>
          some (F n zk (ti : ℚ)))) pts t e = .ok out ∧
      CloseResults UPt.pos UPt.z F t (mh * h ^ 2 + mz * ζ ^ 2 + mt * τ ^ 2) pts out

/-- C171 in full: the depth of the level listed last included. -/
def C171_statement : Prop :=
  ∀ (m : UGeom.Mesh ℚ) (F : SpaceTime ℚ) (lh lz lt h ζ τ : ℚ) (times : List Int) (levels : List ℚ)
    (sbc bbc : BC) (t : Int) (e : Bool) (pts : List (UPt ℚ)), 0 ≤ lh → 0 ≤ lz → 0 ≤ lt →
    ChangesAtMost F lh lz lt → 0 ≤ h → TrianglesAtMost m h → StrictIncr times → 0 ≤ τ →
    StepsAtMost (times.map fun x : Int => (x : ℚ)) τ → (StrictIncr levels ∨ StrictDecr levels) →
    2 ≤ levels.length → StepsAtMost levels ζ → OnAxis times t →
    (∀ p ∈ pts, InItsTriangle m p ∧ ∃ first last, levels.head? = some first ∧
      levels.getLast? = some last ∧ min first last ≤ p.z ∧ p.z ≤ max first last) →
    ∃ out, eval (xyU m .node) times (levelSys UPt.z levels sbc bbc)
        (.timeDepth (times.map fun ti : Int => levels.map fun zk => m.nodes.map fun n =>
          some (F n zk (ti : ℚ)))) pts t e = .ok out ∧
      CloseResults UPt.pos UPt.z F t (lh * (2 * h) + lz * ζ + lt * τ) pts out

/-- Steps of a list of two. -/
theorem steps_two {a b s : ℚ} (h : |b - a| ≤ s) : StepsAtMost [a, b] s := by
  intro j x y hx hy
  rcases j with _ | j
  · simp only [List.getElem?_cons_zero, List.getElem?_cons_succ, Option.some.injEq, zero_add] at hx hy
    subst hx hy
    exact h
  · simp at hy

/-- And of a list of three. -/
theorem steps_three {a b c s : ℚ} (h : |b - a| ≤ s) (h' : |c - b| ≤ s) :
    StepsAtMost [a, b, c] s := by
  intro j x y hx hy
  rcases j with _ | _ | j
  · simp only [List.getElem?_cons_zero, List.getElem?_cons_succ, Option.some.injEq, zero_add] at hx hy
    subst hx hy
    exact h
  · simp only [List.getElem?_cons_zero, List.getElem?_cons_succ, Option.some.injEq, zero_add] at hx hy
    subst hx hy
    exact h'
  · simp at hy

private theorem at_last_level {p : UPt ℚ} (hp : p ∈ [(⟨0, (1, 1), 10⟩ : UPt ℚ)]) :
    InItsTriangle oneTriangle p ∧ ∃ first last, ([0, 10] : List ℚ).head? = some first ∧
      ([0, 10] : List ℚ).getLast? = some last ∧ min first last ≤ p.z ∧ p.z ≤ max first last := by
  simp only [List.mem_singleton] at hp
  subst hp
  exact ⟨oneTriangle_in 10, 0, 10, rfl, rfl, by decide +kernel, by decide +kernel⟩

private theorem last_level_raises (out : List (Cell ℚ)) :
    eval (xyU oneTriangle .node) [0, 10] (levelSys UPt.z [0, 10] .extrapolate .extrapolate)
      (.timeDepth (([0, 10] : List Int).map fun _ => ([0, 10] : List ℚ).map fun _ =>
        oneTriangle.nodes.map fun _ => some 1)) [⟨0, (1, 1), 10⟩] 5 false ≠ .ok out := by
  have h : eval (xyU oneTriangle .node) [0, 10] (levelSys UPt.z [0, 10] .extrapolate .extrapolate)
      (.timeDepth (([0, 10] : List Int).map fun _ => ([0, 10] : List ℚ).map fun _ =>
        oneTriangle.nodes.map fun _ => some 1)) [⟨0, (1, 1), 10⟩] 5 false = .error .unboundLocal := by
    decide +kernel
  rw [h]
  exact fun h => by cases h

/-- C170 fails at the depth of the bottom level, listed last: even for data that are the same everywhere
the query raises. -/
theorem C170_refuted : ¬ C170_statement := by
  intro h
  obtain ⟨out, ho, _⟩ := h oneTriangle (fun _ _ _ => 1) 0 0 0 6 10 10 [0, 10] [0, 10] .extrapolate
    .extrapolate 5 false [⟨0, (1, 1), 10⟩] (by norm_num) (by norm_num) (by norm_num)
    (fun p z t => ⟨0, 0, 0, 0, fun p' z' t' => by simp⟩) oneTriangle_size
    (by unfold StrictIncr; decide) (by norm_num) (steps_two (by decide +kernel))
    (Or.inl (by unfold StrictIncr; decide +kernel)) (by decide) (steps_two (by decide +kernel))
    ⟨0, 10, rfl, rfl, by decide, by decide⟩ (fun p hp => at_last_level hp)
  exact last_level_raises out ho

/-- C171 fails in the same way. -/
theorem C171_refuted : ¬ C171_statement := by
  intro h
  obtain ⟨out, ho, _⟩ := h oneTriangle (fun _ _ _ => 1) 0 0 0 6 10 10 [0, 10] [0, 10] .extrapolate
    .extrapolate 5 false [⟨0, (1, 1), 10⟩] (by norm_num) (by norm_num) (by norm_num)
    (fun p z t p' z' t' => by simp) (by norm_num) oneTriangle_size
    (by unfold StrictIncr; decide) (by norm_num) (steps_two (by decide +kernel))
    (Or.inl (by unfold StrictIncr; decide +kernel)) (by decide) (steps_two (by decide +kernel))
    ⟨0, 10, rfl, rfl, by decide, by decide⟩ (fun p hp => at_last_level hp)
  exact last_level_raises out ho

/-- A field that bends in every direction. -/
def bent : SpaceTime ℚ := fun p z t => p.1 ^ 2 - p.2 ^ 2 + p.1 * z + t ^ 2

theorem bent_bends : BendsAtMost bent (3 / 2) (1 / 2) 1 := by
  intro p z t
  refine ⟨2 * p.1 + z, -2 * p.2, p.1, 2 * t, fun p' z' t' => ?_⟩
  have e : bent p' z' t' - (bent p z t + (2 * p.1 + z) * (p'.1 - p.1) + -2 * p.2 * (p'.2 - p.2) +
      p.1 * (z' - z) + 2 * t * (t' - t)) =
      (p'.1 - p.1) ^ 2 - (p'.2 - p.2) ^ 2 + (p'.1 - p.1) * (z' - z) + (t' - t) ^ 2 := by
    unfold bent
    ring
  rw [e, abs_le]
  unfold sqDist
  constructor
  · nlinarith [sq_nonneg (p'.1 - p.1 + (z' - z)), sq_nonneg (t' - t), sq_nonneg (p'.1 - p.1),
      sq_nonneg (p'.2 - p.2)]
  · nlinarith [sq_nonneg (p'.1 - p.1 - (z' - z)), sq_nonneg (t' - t), sq_nonneg (p'.1 - p.1),
      sq_nonneg (p'.2 - p.2)]

/-- The hypotheses hold for a field that bends, levels listed from the bottom, a depth between two of
them and a time between two; the result there is 67 and the field is 61. -/
example : (∃ out, eval (xyU oneTriangle .node) [0, 5, 10] (levelSys UPt.z [20, 15, 10] .extrapolate .mask)
      (.timeDepth (([0, 5, 10] : List Int).map fun ti : Int => ([20, 15, 10] : List ℚ).map fun zk =>
        oneTriangle.nodes.map fun n => some (bent n zk (ti : ℚ)))) [⟨0, (1, 1), 12⟩] 7 false = .ok out ∧
      CloseResults UPt.pos UPt.z bent ((7 : Int) : ℚ) (3 / 2 * 6 ^ 2 + 1 / 2 * 5 ^ 2 + 1 * 5 ^ 2)
        [⟨0, (1, 1), 12⟩] out) ∧
    eval (xyU oneTriangle .node) [0, 5, 10] (levelSys UPt.z [20, 15, 10] .extrapolate .mask)
      (.timeDepth (([0, 5, 10] : List Int).map fun ti : Int => ([20, 15, 10] : List ℚ).map fun zk =>
        oneTriangle.nodes.map fun n => some (bent n zk (ti : ℚ)))) [⟨0, (1, 1), 12⟩] 7 false =
      .ok [⟨some 67, false⟩] ∧ bent (1, 1) 12 7 = 61 := by
  refine ⟨C170_triangles_partial oneTriangle bent (3 / 2) (1 / 2) 1 6 5 5 (by norm_num) (by norm_num)
    (by norm_num) bent_bends oneTriangle_size [0, 5, 10] (by unfold StrictIncr; decide) (by norm_num)
    (steps_three (by decide +kernel) (by decide +kernel)) [20, 15, 10]
    (Or.inr (by unfold StrictDecr; decide +kernel)) (by decide)
    (steps_three (by decide +kernel) (by decide +kernel)) .extrapolate .mask 7 false
    ⟨0, 10, rfl, rfl, by decide, by decide⟩ _ ?_, by decide +kernel, by decide +kernel⟩
  intro p hp
  simp only [List.mem_singleton] at hp
  subst hp
  exact ⟨oneTriangle_in 12, 20, 10, rfl, rfl, Or.inr (by decide +kernel)⟩

/-- A field with kinks. -/
def kinked : SpaceTime ℚ := fun p z t => |p.1 - p.2| + |z - 12| + 2 * |t - 7|

theorem kinked_changes : ChangesAtMost kinked 1 1 2 := by
  intro p z t p' z' t'
  have h1 := abs_abs_sub_abs_le_abs_sub (p'.1 - p'.2) (p.1 - p.2)
  have h2 := abs_abs_sub_abs_le_abs_sub (z' - 12) (z - 12)
  have h3 := abs_abs_sub_abs_le_abs_sub (t' - 7) (t - 7)
  have h4 : |p'.1 - p'.2 - (p.1 - p.2)| ≤ |p'.1 - p.1| + |p'.2 - p.2| := by
    rw [show p'.1 - p'.2 - (p.1 - p.2) = (p'.1 - p.1) - (p'.2 - p.2) by ring]
    exact abs_sub _ _
  rw [show z' - 12 - (z - 12) = z' - z by ring] at h2
  rw [show t' - 7 - (t - 7) = t' - t by ring] at h3
  unfold kinked
  rw [abs_le] at h1 h2 h3 ⊢
  constructor <;> linarith [h1.1, h1.2, h2.1, h2.2, h3.1, h3.2]

/-- The hypotheses hold for a field with a kink right at the point asked for. -/
example : (∃ out, eval (xyU oneTriangle .node) [0, 5, 10] (levelSys UPt.z [20, 15, 10] .extrapolate .mask)
      (.time (([0, 5, 10] : List Int).map fun ti : Int =>
        oneTriangle.nodes.map fun n => some (kinked n 0 (ti : ℚ)))) [⟨0, (1, 1), 12⟩] 7 false = .ok out ∧
      CloseResults UPt.pos (fun _ => 0) kinked ((7 : Int) : ℚ) (1 * (2 * 6) + 2 * 5) [⟨0, (1, 1), 12⟩] out) ∧
    eval (xyU oneTriangle .node) [0, 5, 10] (levelSys UPt.z [20, 15, 10] .extrapolate .mask)
      (.time (([0, 5, 10] : List Int).map fun ti : Int =>
        oneTriangle.nodes.map fun n => some (kinked n 0 (ti : ℚ)))) [⟨0, (1, 1), 12⟩] 7 false =
      .ok [⟨some (94 / 5), false⟩] ∧ kinked (1, 1) 0 7 = 12 := by
  refine ⟨C171_surface_triangles oneTriangle kinked 1 1 2 6 5 (by norm_num) (by norm_num)
    (by norm_num) kinked_changes (by norm_num) oneTriangle_size [0, 5, 10] (by unfold StrictIncr; decide)
    (by norm_num) (steps_three (by decide +kernel) (by decide +kernel)) _ 7 false
    ⟨0, 10, rfl, rfl, by decide, by decide⟩ _ ?_, by decide +kernel, by decide +kernel⟩
  intro p hp
  simp only [List.mem_singleton] at hp
  subst hp
  exact oneTriangle_in 12

/-- The same field gives results with levels too. -/
example : ∃ out, eval (xyU oneTriangle .node) [0, 5, 10] (levelSys UPt.z [20, 15, 10] .extrapolate .mask)
      (.timeDepth (([0, 5, 10] : List Int).map fun ti : Int => ([20, 15, 10] : List ℚ).map fun zk =>
        oneTriangle.nodes.map fun n => some (kinked n zk (ti : ℚ)))) [⟨0, (1, 1), 12⟩] 7 false = .ok out ∧
      CloseResults UPt.pos UPt.z kinked ((7 : Int) : ℚ) (1 * (2 * 6) + 1 * 5 + 2 * 5) [⟨0, (1, 1), 12⟩] out := by
  refine C171_triangles_partial oneTriangle kinked 1 1 2 6 5 5 (by norm_num) (by norm_num)
    (by norm_num) kinked_changes (by norm_num) oneTriangle_size [0, 5, 10] (by unfold StrictIncr; decide)
    (by norm_num) (steps_three (by decide +kernel) (by decide +kernel)) [20, 15, 10]
    (Or.inr (by unfold StrictDecr; decide +kernel)) (by decide)
    (steps_three (by decide +kernel) (by decide +kernel)) .extrapolate .mask 7 false
    ⟨0, 10, rfl, rfl, by decide, by decide⟩ _ ?_
  intro p hp
  simp only [List.mem_singleton] at hp
  subst hp
  exact ⟨oneTriangle_in 12, 20, 10, rfl, rfl, Or.inr (by decide +kernel)⟩

private theorem oneSquare_size : CellsAtMost oneSquare 3 := by
  intro i j px py hx hy
  obtain ⟨x0, x1, x2, x3⟩ := hx
  obtain ⟨y0, y1, y2, y3⟩ := hy
  obtain ⟨a, b, c, d⟩ := px
  obtain ⟨a', b', c', d'⟩ := py
  rcases i with _ | i
  · rcases j with _ | j
    · simp [entry, oneSquare] at x0 x1 x2 x3 y0 y1 y2 y3
      subst x0 x1 x2 x3 y0 y1 y2 y3
      intro X hX Y hY
      simp only [quadCorners, List.mem_cons, List.not_mem_nil, or_false] at hX hY
      rcases hX with rfl | rfl | rfl | rfl <;> rcases hY with rfl | rfl | rfl | rfl <;>
        (unfold sqDist; norm_num)
    · simp [entry, oneSquare] at x3
  · simp [entry, oneSquare] at x1

private theorem oneSquare_cell : InItsCell Real.sqrt oneSquare ⟨some (0, 0), (1, 1 / 2), 7⟩ := by
  refine ⟨0, 0, 1 / 2, 1 / 4, (0, 0, 2, 2), (0, 2, 2, 0), rfl, ?_, ?_, by unfold InUnit; norm_num, ?_⟩
  · simp [IsCorners, entry, oneSquare]
  · simp [IsCorners, entry, oneSquare]
  · have h1 : SIndex.byIndex oneSquare.lon (((0 : Nat) : Int), ((0 : Nat) : Int)) =
        .ok (0, 0, 2, 2) := rfl
    have h2 : SIndex.byIndex oneSquare.lat (((0 : Nat) : Int), ((0 : Nat) : Int)) =
        .ok (0, 2, 2, 0) := rfl
    simp only [SInterp.offset, h1, h2, SInterp.xToL, SInterp.coeffs, SInterp.quot]
    norm_num

private theorem oneSquare_samples (F : SpaceTime ℝ) (z t : ℝ) : HoldsSamples oneSquare (fun n => F n z t)
    [[F (0, 0) z t, F (2, 0) z t], [F (0, 2) z t, F (2, 2) z t]] := by
  refine ⟨⟨2, by unfold Rectangular; simp⟩, ?_⟩
  intro i j x y hx hy
  simp only [oneSquare, lowPads] at hx hy ⊢
  rcases i with _ | _ | i <;> rcases j with _ | _ | j <;>
    simp [entry] at hx hy ⊢ <;> subst hx <;> subst hy <;> rfl

/-- The hypotheses for structured grids hold for one cell, the real square root and a field that bends,
over times and levels. -/
example : ∃ out, eval (xyS Real.sqrt oneSquare (some .node)) [0, 10]
    (levelSys SPt.z [0, 20] .extrapolate .extrapolate)
    (.timeDepth (([0, 10] : List Int).map fun ti : Int => ([0, 20] : List ℝ).map fun _ => plain
      [[0 + (ti : ℝ) ^ 2, 4 + (ti : ℝ) ^ 2], [4 + (ti : ℝ) ^ 2, 8 + (ti : ℝ) ^ 2]]))
    [⟨some (0, 0), (1, 1 / 2), 7⟩] 4 true = .ok out ∧
    CloseResults SPt.pos SPt.z (fun p _ t => p.1 ^ 2 + p.2 ^ 2 + t ^ 2) ((4 : Int) : ℝ)
      (1 * 3 ^ 2 + 0 * 20 ^ 2 + 1 * 10 ^ 2) [⟨some (0, 0), (1, 1 / 2), 7⟩] out := by
  have := C170_quads_partial Real.sqrt (fun k hk => Real.mul_self_sqrt hk) oneSquare 2
    (by unfold Rectangular oneSquare; simp) (by unfold Rectangular oneSquare; simp) (by decide)
    (by decide) (fun p _ t => p.1 ^ 2 + p.2 ^ 2 + t ^ 2) 1 0 1 3 20 10 (by norm_num) (by norm_num)
    (by norm_num) (by
      intro p z t
      refine ⟨2 * p.1, 2 * p.2, 0, 2 * t, fun p' z' t' => ?_⟩
      have e : p'.1 ^ 2 + p'.2 ^ 2 + t' ^ 2 - (p.1 ^ 2 + p.2 ^ 2 + t ^ 2 + 2 * p.1 * (p'.1 - p.1) +
          2 * p.2 * (p'.2 - p.2) + 0 * (z' - z) + 2 * t * (t' - t)) =
          1 * sqDist p' p + 0 * (z' - z) ^ 2 + 1 * (t' - t) ^ 2 := by
        unfold sqDist
        ring
      have p0 : 0 ≤ 1 * sqDist p' p + 0 * (z' - z) ^ 2 + 1 * (t' - t) ^ 2 := by
        unfold sqDist
        positivity
      simp only
      rw [e, abs_of_nonneg p0]) oneSquare_size
    (fun z t => [[0 + t ^ 2, 4 + t ^ 2], [4 + t ^ 2, 8 + t ^ 2]])
    (fun z t => by
      have := oneSquare_samples (fun p _ t => p.1 ^ 2 + p.2 ^ 2 + t ^ 2) z t
      norm_num at this ⊢
      exact this)
    [0, 10] (by unfold StrictIncr; decide) (by norm_num) (by
      intro j a b ha hb
      rcases j with _ | j
      · simp at ha hb
        subst ha hb
        norm_num
      · simp at hb)
    [0, 20] (Or.inl (by unfold StrictIncr; norm_num)) (by simp) (by
      intro j a b ha hb
      rcases j with _ | j
      · simp at ha hb
        subst ha hb
        norm_num
      · simp at hb) .extrapolate .extrapolate 4 true ⟨0, 10, rfl, rfl, by decide, by decide⟩
    [⟨some (0, 0), (1, 1 / 2), 7⟩] (by
      intro p hp
      simp only [List.mem_singleton] at hp
      subst hp
      exact ⟨oneSquare_cell, 0, 20, rfl, rfl, Or.inl (by norm_num)⟩)
  exact this

end Verif
