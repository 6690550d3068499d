import Verif.Lemmas.Smooth

/-!
# How fast results vary: C166, C167
-/

set_option autoImplicit false

namespace Verif
open Spec Verif.DepthM Verif.TimeM Verif.At

section
variable {K : Type} [Field K] [LinearOrder K] [IsStrictOrderedRing K]

/-! ## C166 -/

/-- Two slices of the same shape whose values, where both are numbers, are at most `B` apart. -/
def CloseU (B : K) : List (Option K) → List (Option K) → Prop :=
  Alike fun u v => ∀ x y, u = some x → v = some y → |y - x| ≤ B

/-- The same for slices of structured grids, which also have the same mask. -/
def CloseS (B : K) : List (List (SInterp.MV K)) → List (List (SInterp.MV K)) → Prop :=
  Alike (Alike fun u v => u.masked = v.masked ∧ |v.val - u.val| ≤ B)

/-- The slices of a variable vary with time no faster than `M`. -/
def SlowInTime {σ : Type} (times : List Int) (M : K) (close : K → σ → σ → Prop) (d : List σ) : Prop :=
  d.length = times.length ∧ ∀ (i j : Nat) (a b : Int) (s s' : σ), times[i]? = some a →
    times[j]? = some b → d[i]? = some s → d[j]? = some s' → close (M * |(b : K) - (a : K)|) s s'

omit [Field K] [LinearOrder K] [IsStrictOrderedRing K] in
theorem alike_zip {α β : Type} {R : α → β → Prop} {l : List α} {l' : List β} (h : Alike R l l') :
    (l.zip l').map (fun v => v.1) = l ∧ (l.zip l').map (fun v => v.2) = l' ∧
      ∀ v ∈ l.zip l', R v.1 v.2 := by
  refine ⟨?_, ?_, ?_⟩
  · exact List.map_fst_zip (le_of_eq h.1)
  · exact List.map_snd_zip (le_of_eq h.1.symm)
  · intro v hv
    obtain ⟨n, hn⟩ := List.getElem?_of_mem hv
    rw [List.getElem?_zip_eq_some] at hn
    exact h.2 n v.1 v.2 hn.1 hn.2

omit [Field K] [LinearOrder K] [IsStrictOrderedRing K] in
theorem pyGet_last_nat {σ : Type} {d : List σ} {n : Nat} (h : d.length = n + 1) :
    Np.pyGet d (-1) = Np.pyGet d (n : Int) := by
  obtain ⟨x, hn⟩ : ∃ x, d[n]? = some x := ⟨_, List.getElem?_eq_getElem (by omega)⟩
  rw [Np.pyGet_nonneg hn]
  apply Np.pyGet_neg_one
  rw [List.getLast?_eq_getElem?, h]
  exact hn

/-- Data over time, whatever the horizontal stage: it is enough that close slices give close values. -/
theorem slow_time {P σ : Type} (xy : σ → List P → Except Err (List (Cell K))) {times : List Int}
    (hs : StrictIncr times) (ds : DepthSys K P) {M : K} (hM : 0 ≤ M) (close : K → σ → σ → Prop)
    (d : List σ) (hd : SlowInTime times M close d) (pts : List P)
    (hc : ∀ B s s', 0 ≤ B → close B s s' → Paired (fun x y => |y - x| ≤ B) (xy s pts) (xy s' pts)) (t t' : Int) (e e' : Bool)
    (ht : Served times t e) (ht' : Served times t' e') :
    Paired (fun x y => |y - x| ≤ M * |(t' : K) - (t : K)|) (eval xy times ds (.time d) pts t e)
      (eval xy times ds (.time d) pts t' e') := by
  unfold eval
  refine timeStage_lip_paired hs ?_ hM ?_ t t' e e' ht ht'
  · intro n hn
    rw [pyGet_last_nat (by rw [hd.1, hn])]
  · intro i j a b ha hb
    have hi : i < d.length := by rw [hd.1]; exact (List.getElem?_eq_some_iff.mp ha).1
    have hj : j < d.length := by rw [hd.1]; exact (List.getElem?_eq_some_iff.mp hb).1
    rw [Np.pyGet_nonneg (List.getElem?_eq_getElem hi), Np.pyGet_nonneg (List.getElem?_eq_getElem hj)]
    exact hc _ _ _ (mul_nonneg hM (abs_nonneg _))
      (hd.2 i j a b _ _ ha hb (List.getElem?_eq_getElem hi) (List.getElem?_eq_getElem hj))

/-- Data over times and levels. -/
theorem slow_timeDepth {P σ : Type} (xy : σ → List P → Except Err (List (Cell K))) {times : List Int}
    (hs : StrictIncr times) (ds : DepthSys K P) {M : K} (hM : 0 ≤ M) (close : K → List σ → List σ → Prop)
    (m : Nat) (d : List (List σ)) (hm : ∀ r ∈ d, r.length = m) (hd : SlowInTime times M close d)
    (pts : List P)
    (hc : ∀ B r r', 0 ≤ B → close B r r' → ∀ t e, Paired (fun x y => |y - x| ≤ B) (eval xy times ds (.depth r) pts t e)
      (eval xy times ds (.depth r') pts t e)) (t t' : Int) (e e' : Bool)
    (ht : Served times t e) (ht' : Served times t' e') :
    Paired (fun x y => |y - x| ≤ M * |(t' : K) - (t : K)|) (eval xy times ds (.timeDepth d) pts t e)
      (eval xy times ds (.timeDepth d) pts t' e') := by
  have hread : ∀ i : Nat, ∀ hi : i < d.length,
      depthStage ds (d.headD []).length (fun k ps => withSlice xy (slice2 d (i : Int) k) ps) pts =
        eval xy times ds (.depth d[i]) pts 0 false := by
    intro i hi
    have hl : (d.headD []).length = d[i].length := by
      rw [hm d[i] (List.getElem_mem hi)]
      cases d with
      | nil => cases hi
      | cons r d => exact hm r List.mem_cons_self
    rw [hl]
    unfold eval slice2
    rw [Np.pyGet_nonneg (List.getElem?_eq_getElem hi)]
  have h1 : ∀ tt ee, eval xy times ds (.timeDepth d) pts tt ee = timeStage times (fun i =>
      depthStage ds (d.headD []).length (fun k ps => withSlice xy (slice2 d i k) ps) pts) tt ee :=
    fun _ _ => rfl
  rw [h1, h1]
  refine timeStage_lip_paired hs ?_ hM ?_ t t' e e' ht ht'
  · intro n hn
    have : ∀ k, slice2 d (-1) k = slice2 d (n : Int) k := fun k => by
      unfold slice2
      rw [pyGet_last_nat (by rw [hd.1, hn])]
    simp only [this]
  · intro i j a b ha hb
    have hi : i < d.length := by rw [hd.1]; exact (List.getElem?_eq_some_iff.mp ha).1
    have hj : j < d.length := by rw [hd.1]; exact (List.getElem?_eq_some_iff.mp hb).1
    rw [hread i hi, hread j hj]
    exact hc _ _ _ (mul_nonneg hM (abs_nonneg _))
      (hd.2 i j a b _ _ ha hb (List.getElem?_eq_getElem hi) (List.getElem?_eq_getElem hj)) 0 false

theorem map_congr_data {σ τ : Type} {S : σ → Prop} {f g : σ → τ} (hf : ∀ s, S s → f s = g s) :
    ∀ {d : Data σ}, d.All S → d.map f = d.map g
  | .timeDepth d, h => by
      simp only [Data.map]
      congr 1
      exact List.map_congr_left fun r hr => List.map_congr_left fun s hs => hf s (h r hr s hs)
  | .time d, h => by
      simp only [Data.map]
      congr 1
      exact List.map_congr_left fun s hs => hf s (h s hs)
  | .depth d, h => by
      simp only [Data.map]
      congr 1
      exact List.map_congr_left fun s hs => hf s (h s hs)
  | .flat s, h => by simp only [Data.map, hf s h]

theorem unstructured_within (m : UGeom.Mesh K) (loc : UGeom.Loc) {B : K} (hB : 0 ≤ B)
    (d : Data (List (Option K) × List (Option K))) (h : d.All fun s => CloseU B s.1 s.2)
    (pts : List (UPt K)) (hp : ∀ p ∈ pts, LocatedOrNot m p) (times : List Int) (ht : StrictIncr times)
    (ds : DepthSys K (UPt K)) (hw : UnitWeights ds pts) (t : Int) (e : Bool) :
    Paired (fun x y => |y - x| ≤ B) (eval (xyU m loc) times ds (d.map fun s => s.1) pts t e)
      (eval (xyU m loc) times ds (d.map fun s => s.2) pts t e) := by
  have := C163_unstructured m loc B hB times ht ds (d.map fun s => s.1.zip s.2) (by
    refine all_map_of (fun s : List (Option K) × List (Option K) => s.1.zip s.2) ?_ h
    intro s hs x y hxy
    exact (alike_zip hs).2.2 _ hxy x y rfl rfl) pts hp hw t e
  rw [map_map_data, map_map_data] at this
  have e1 : d.map (fun s => (s.1.zip s.2).map fun v => v.1) = d.map fun s => s.1 :=
    map_congr_data (fun s hs => (alike_zip hs).1) h
  have e2 : d.map (fun s => (s.1.zip s.2).map fun v => v.2) = d.map fun s => s.2 :=
    map_congr_data (fun s hs => (alike_zip hs).2.1) h
  rw [e1, e2] at this
  exact this

theorem structured_within (sqrt : K → K) (g : SInterp.Grid K) (loc : Option SIndex.Loc) {B : K}
    (hB : 0 ≤ B) (d : Data (List (List (SInterp.MV K)) × List (List (SInterp.MV K))))
    (h : d.All fun s => CloseS B s.1 s.2) (pts : List (SPt K))
    (hp : ∀ p ∈ pts, InCellOrNot sqrt g p) (times : List Int) (ht : StrictIncr times)
    (ds : DepthSys K (SPt K)) (hw : UnitWeights ds pts) (t : Int) (e : Bool) :
    Paired (fun x y => |y - x| ≤ B) (eval (xyS sqrt g loc) times ds (d.map fun s => s.1) pts t e)
      (eval (xyS sqrt g loc) times ds (d.map fun s => s.2) pts t e) := by
  let both : List (List (SInterp.MV K)) × List (List (SInterp.MV K)) → List (List (K × K × Bool)) :=
    fun s => (s.1.zip s.2).map fun r => (r.1.zip r.2).map fun v => (v.1.val, v.2.val, v.1.masked)
  have := C163_structured sqrt g B hB loc times ht ds (d.map both) (by
    refine all_map_of both ?_ h
    intro s hs r hr v hv
    obtain ⟨q, hq, rfl⟩ := List.mem_map.mp hr
    obtain ⟨w, hw, rfl⟩ := List.mem_map.mp hv
    exact ((alike_zip ((alike_zip hs).2.2 q hq)).2.2 w hw).2) pts hp hw t e
  rw [map_map_data, map_map_data] at this
  have e1 : d.map (fun s => (both s).map (List.map fun v => (⟨v.1, v.2.2⟩ : SInterp.MV K))) =
      d.map fun s => s.1 := by
    refine map_congr_data (fun s hs => ?_) h
    show ((s.1.zip s.2).map _).map _ = s.1
    conv_rhs => rw [← (alike_zip hs).1]
    rw [List.map_map]
    refine List.map_congr_left fun r hr => ?_
    simp only [Function.comp, List.map_map]
    conv_rhs => rw [← (alike_zip ((alike_zip hs).2.2 r hr)).1]
    exact List.map_congr_left fun v _ => rfl
  have e2 : d.map (fun s => (both s).map (List.map fun v => (⟨v.2.1, v.2.2⟩ : SInterp.MV K))) =
      d.map fun s => s.2 := by
    refine map_congr_data (fun s hs => ?_) h
    show ((s.1.zip s.2).map _).map _ = s.2
    conv_rhs => rw [← (alike_zip hs).2.1]
    rw [List.map_map]
    refine List.map_congr_left fun r hr => ?_
    simp only [Function.comp, List.map_map]
    conv_rhs => rw [← (alike_zip ((alike_zip hs).2.2 r hr)).2.1]
    refine List.map_congr_left fun v hv => ?_
    have := ((alike_zip ((alike_zip hs).2.2 r hr)).2.2 v hv).1
    simp only [Function.comp, this]
  rw [e1, e2] at this
  exact this

/-- C166, data over time on an unstructured grid: if no value of the data changes with time faster
than `M`, no result does, for times anywhere on the axis, beyond its ends (where extrapolation is on),
and on different sides of data times. -/
theorem C166_unstructured (m : UGeom.Mesh K) (loc : UGeom.Loc) (times : List Int)
    (hs : StrictIncr times) (ds : DepthSys K (UPt K)) (M : K) (hM : 0 ≤ M)
    (d : List (List (Option K))) (hd : SlowInTime times M CloseU d) (pts : List (UPt K))
    (hp : ∀ p ∈ pts, LocatedOrNot m p) (hw : UnitWeights ds pts) (t t' : Int) (e e' : Bool)
    (ht : Served times t e) (ht' : Served times t' e') :
    Paired (fun x y => |y - x| ≤ M * |(t' : K) - (t : K)|) (eval (xyU m loc) times ds (.time d) pts t e)
      (eval (xyU m loc) times ds (.time d) pts t' e') :=
  slow_time (xyU m loc) hs ds hM CloseU d hd pts (fun B s s' hB h =>
    unstructured_within m loc hB (.flat (s, s')) h pts hp times hs ds hw 0 false) t t' e e' ht ht'

/-- C166, data over times and levels, for every depth object whose weights are between 0 and 1. -/
theorem C166_unstructured_depths (m : UGeom.Mesh K) (loc : UGeom.Loc) (times : List Int)
    (hs : StrictIncr times) (ds : DepthSys K (UPt K)) (M : K) (hM : 0 ≤ M) (n : Nat)
    (d : List (List (List (Option K)))) (hn : ∀ r ∈ d, r.length = n)
    (hd : SlowInTime times M (fun B => Alike (CloseU B)) d) (pts : List (UPt K))
    (hp : ∀ p ∈ pts, LocatedOrNot m p) (hw : UnitWeights ds pts) (t t' : Int) (e e' : Bool)
    (ht : Served times t e) (ht' : Served times t' e') :
    Paired (fun x y => |y - x| ≤ M * |(t' : K) - (t : K)|) (eval (xyU m loc) times ds (.timeDepth d) pts t e)
      (eval (xyU m loc) times ds (.timeDepth d) pts t' e') :=
  slow_timeDepth (xyU m loc) hs ds hM (fun B => Alike (CloseU B)) n d hn hd pts
    (fun B r r' hB h t e => by
      obtain ⟨h1, h2, h3⟩ := alike_zip h
      have := unstructured_within m loc hB (.depth (r.zip r')) h3 pts hp times hs ds hw t e
      simp only [Data.map] at this
      rwa [h1, h2] at this) t t' e e' ht ht'

/-- C166, data over time on a structured grid; the mask is the same at all times. -/
theorem C166_structured (sqrt : K → K) (g : SInterp.Grid K) (loc : Option SIndex.Loc)
    (times : List Int) (hs : StrictIncr times) (ds : DepthSys K (SPt K)) (M : K) (hM : 0 ≤ M)
    (d : List (List (List (SInterp.MV K)))) (hd : SlowInTime times M CloseS d) (pts : List (SPt K))
    (hp : ∀ p ∈ pts, InCellOrNot sqrt g p) (hw : UnitWeights ds pts) (t t' : Int) (e e' : Bool)
    (ht : Served times t e) (ht' : Served times t' e') :
    Paired (fun x y => |y - x| ≤ M * |(t' : K) - (t : K)|) (eval (xyS sqrt g loc) times ds (.time d) pts t e)
      (eval (xyS sqrt g loc) times ds (.time d) pts t' e') :=
  slow_time (xyS sqrt g loc) hs ds hM CloseS d hd pts (fun B s s' hB h =>
    structured_within sqrt g loc hB (.flat (s, s')) h pts hp times hs ds hw 0 false) t t' e e' ht ht'

/-- C166, data over times and levels on a structured grid. -/
theorem C166_structured_depths (sqrt : K → K) (g : SInterp.Grid K) (loc : Option SIndex.Loc)
    (times : List Int) (hs : StrictIncr times) (ds : DepthSys K (SPt K)) (M : K) (hM : 0 ≤ M) (n : Nat)
    (d : List (List (List (List (SInterp.MV K))))) (hn : ∀ r ∈ d, r.length = n)
    (hd : SlowInTime times M (fun B => Alike (CloseS B)) d) (pts : List (SPt K))
    (hp : ∀ p ∈ pts, InCellOrNot sqrt g p) (hw : UnitWeights ds pts) (t t' : Int) (e e' : Bool)
    (ht : Served times t e) (ht' : Served times t' e') :
    Paired (fun x y => |y - x| ≤ M * |(t' : K) - (t : K)|) (eval (xyS sqrt g loc) times ds (.timeDepth d) pts t e)
      (eval (xyS sqrt g loc) times ds (.timeDepth d) pts t' e') :=
  slow_timeDepth (xyS sqrt g loc) hs ds hM (fun B => Alike (CloseS B)) n d hn hd pts
    (fun B r r' hB h t e => by
      obtain ⟨h1, h2, h3⟩ := alike_zip h
      have := structured_within sqrt g loc hB (.depth (r.zip r')) h3 pts hp times hs ds hw t e
      simp only [Data.map] at this
      rwa [h1, h2] at this) t t' e e' ht ht'

/-! ## C167 -/

/-- A slice of node data without NaN. -/
def NoNaN (m : UGeom.Mesh K) (s : List (Option K)) : Prop :=
  s.length = m.nodes.length ∧ ∀ v ∈ s, ∃ x, v = some x

/-- The slices of one time vary with depth no faster than `M`. -/
def SlowInDepth (levels : List K) (M : K) (r : List (List (Option K))) : Prop :=
  ∀ (k l : Nat) (x y : K) (s s' : List (Option K)), levels[k]? = some x → levels[l]? = some y →
    r[k]? = some s → r[l]? = some s' → CloseU (M * |y - x|) s s'

/-- A depth at or between the first and the last level. -/
def AmongLevels (levels : List K) (z : K) : Prop :=
  ∃ first last, levels.head? = some first ∧ levels.getLast? = some last ∧
    ((first ≤ z ∧ z ≤ last) ∨ (last ≤ z ∧ z ≤ first))

/-- Two points of the same triangle, one above the other. -/
def OneAbove (m : UGeom.Mesh K) (q : UPt K × UPt K) : Prop :=
  InItsTriangle m q.1 ∧ q.1.face = q.2.face ∧ q.1.pos = q.2.pos

/-- C167 for data at the nodes of triangles: moved in depth, results change no faster than the data. -/
def C167_statement : Prop :=
  ∀ (m : UGeom.Mesh ℚ) (times : List Int) (levels : List ℚ) (sbc bbc : BC)
    (data : List (List (List (Option ℚ)))) (M : ℚ) (t : Int) (e : Bool)
    (pts : List (UPt ℚ × UPt ℚ)) (out out' : List (Cell ℚ)),
    StrictIncr times → times ≠ [] → StrictIncr levels → 2 ≤ levels.length →
    data.length = times.length → (∀ r ∈ data, r.length = levels.length) →
    (∀ r ∈ data, ∀ s ∈ r, NoNaN m s) → (∀ r ∈ data, SlowInDepth levels M r) → 0 ≤ M →
    Served times t e →
    (∀ q ∈ pts, OneAbove m q ∧ AmongLevels levels q.1.z ∧ AmongLevels levels q.2.z) →
    eval (xyU m .node) times (levelSys UPt.z levels sbc bbc) (.timeDepth data)
      (pts.map fun q => q.1) t e = .ok out →
    eval (xyU m .node) times (levelSys UPt.z levels sbc bbc) (.timeDepth data)
      (pts.map fun q => q.2) t e = .ok out' →
    ∀ (n : Nat) (q : UPt ℚ × UPt ℚ) (x y : ℚ), pts[n]? = some q → out[n]? = some ⟨some x, false⟩ →
      out'[n]? = some ⟨some y, false⟩ → |y - x| ≤ M * |q.2.z - q.1.z|

/-- C167 fails: moving the second point down to the bottom level changes the result of the first one,
which stays where it is. -/
theorem C167_refuted : ¬ C167_statement := by
  intro h
  have := h oneTriangle [0] [0, 10] .extrapolate .extrapolate
    [[[some 1, some 1, some 1], [some 11, some 11, some 11]]] 1 0 false
    [(⟨0, (1, 1), 5⟩, ⟨0, (1, 1), 5⟩), (⟨0, (1, 1), 5⟩, ⟨0, (1, 1), 10⟩)]
    [⟨some 6, false⟩, ⟨some 6, false⟩] [⟨some 11, false⟩, ⟨none, false⟩]
    (by unfold StrictIncr; decide) (by simp) (by unfold StrictIncr; decide +kernel) (by decide) rfl
    (by simp)
    (by
      intro r hr s hs
      simp only [List.mem_singleton] at hr
      subst hr
      simp only [List.mem_cons, List.not_mem_nil, or_false] at hs
      rcases hs with rfl | rfl
      · exact ⟨rfl, by simp⟩
      · exact ⟨rfl, by simp⟩)
    (by
      intro r hr k l x y s s' hx hy hs hs'
      simp only [List.mem_singleton] at hr
      subst hr
      have close : ∀ a b B : ℚ, |b - a| ≤ B →
          CloseU B [some a, some a, some a] [some b, some b, some b] := by
        intro a b B hab
        refine ⟨rfl, ?_⟩
        intro i u v hu hv x y hx hy
        rcases i with _ | _ | _ | i <;> cases hu <;> cases hv <;> cases hx <;> cases hy <;> exact hab
      rcases k with _ | _ | k
      · cases hx; cases hs
        rcases l with _ | _ | l
        · cases hy; cases hs'; exact close _ _ _ (by norm_num)
        · cases hy; cases hs'; exact close _ _ _ (by norm_num)
        · cases hy
      · cases hx; cases hs
        rcases l with _ | _ | l
        · cases hy; cases hs'; exact close _ _ _ (by norm_num)
        · cases hy; cases hs'; exact close _ _ _ (by norm_num)
        · cases hy
      · cases hx)
    (by norm_num) (Or.inr (Or.inl rfl))
    (by
      intro q hq
      simp only [List.mem_cons, List.not_mem_nil, or_false] at hq
      rcases hq with rfl | rfl
      · exact ⟨⟨oneTriangle_in _, rfl, rfl⟩, ⟨0, 10, rfl, rfl, Or.inl (by norm_num)⟩,
          ⟨0, 10, rfl, rfl, Or.inl (by norm_num)⟩⟩
      · exact ⟨⟨oneTriangle_in _, rfl, rfl⟩, ⟨0, 10, rfl, rfl, Or.inl (by norm_num)⟩,
          ⟨0, 10, rfl, rfl, Or.inl (by norm_num)⟩⟩)
    (by decide +kernel) (by decide +kernel) 0 _ 6 11 rfl rfl rfl
  norm_num at this

theorem noNaN_within {m : UGeom.Mesh K} {s : List (Option K)} (h : NoNaN m s) :
    ∃ lo hi, SliceWithin m lo hi s := by
  obtain ⟨hl, hv⟩ := h
  have : ∃ lo hi : K, ∀ v ∈ s, ∃ x, v = some x ∧ lo ≤ x ∧ x ≤ hi := by
    clear hl
    induction s with
    | nil => exact ⟨0, 0, by simp⟩
    | cons v s ih =>
      obtain ⟨lo, hi, h⟩ := ih fun w hw => hv w (List.mem_cons_of_mem _ hw)
      obtain ⟨x, rfl⟩ := hv v List.mem_cons_self
      refine ⟨min x lo, max x hi, ?_⟩
      intro w hw
      rcases List.mem_cons.mp hw with rfl | hw
      · exact ⟨x, rfl, min_le_left _ _, le_max_left _ _⟩
      · obtain ⟨y, rfl, h1, h2⟩ := h w hw
        exact ⟨y, rfl, le_trans (min_le_right _ _) h1, le_trans h2 (le_max_right _ _)⟩
  obtain ⟨lo, hi, h⟩ := this
  exact ⟨lo, hi, hl, h⟩

omit [IsStrictOrderedRing K] in
theorem inItsTriangle_located {m : UGeom.Mesh K} {p : UPt K} (h : InItsTriangle m p) :
    LocatedOrNot m p := by
  obtain ⟨_, a, b, c, A, B, C, h1, h2, h3, h4, _, h6⟩ := h
  refine Or.inr ?_
  rintro P Q R ⟨a', b', c', g1, g2, g3, g4⟩
  rw [h1] at g1; cases g1
  rw [h2] at g2; cases g2
  rw [h3] at g3; cases g3
  rw [h4] at g4; cases g4
  exact h6

theorem uValue_close {m : UGeom.Mesh K} {s s' : List (Option K)} (hs : NoNaN m s) (hs' : NoNaN m s')
    {B : K} (hB : 0 ≤ B) (hc : CloseU B s s') {p : UPt K} (hp : InItsTriangle m p) :
    |uValue m s' p - uValue m s p| ≤ B := by
  obtain ⟨lo, hi, h⟩ := noNaN_within hs
  obtain ⟨lo', hi', h'⟩ := noNaN_within hs'
  have h1 := xyU_value m lo hi s h [p] (by simpa using hp)
  have h2 := xyU_value m lo' hi' s' h' [p] (by simpa using hp)
  have := unstructured_within m .node hB (.flat (s, s')) hc [p]
    (by simpa using inItsTriangle_located hp) [] List.Pairwise.nil (levelSys UPt.z [] .mask .mask)
    (levelSys_unitWeights _ (Or.inl List.Pairwise.nil) _ _ _) 0 false
  rcases this with ⟨x, hx, _⟩ | ⟨rs, e1, e2, e3⟩
  · have : xyU m .node s [p] = .error x := hx
    rw [h1] at this; cases this
  · have e1' : xyU m .node s [p] = .ok (rs.map fun r => r.1) := e1
    have e2' : xyU m .node s' [p] = .ok (rs.map fun r => r.2) := e2
    rw [h1] at e1'
    rw [h2] at e2'
    have e1' := Except.ok.inj e1'
    have e2' := Except.ok.inj e2'
    obtain ⟨r, rs', rfl⟩ : ∃ r rs', rs = r :: rs' := by
      cases rs with
      | nil => cases e1'
      | cons r rs' => exact ⟨r, rs', rfl⟩
    simp only [List.map_cons, List.cons.injEq] at e1' e2'
    exact (e3 r List.mem_cons_self).2 _ _ (by rw [← e1'.1]) (by rw [← e2'.1])

/-- C167, triangles, depths within the levels: both queries answer, and every result changes with
depth no faster than `M`, wherever the depths fall among the levels, listed either way. Missing:
points at the level listed last, where the statement fails. -/
theorem C167_partial (m : UGeom.Mesh K) (times : List Int) (hs : StrictIncr times) (hne : times ≠ [])
    (levels : List K) (hlv : StrictIncr levels ∨ StrictDecr levels) (hn : 2 ≤ levels.length)
    (sbc bbc : BC) (data : List (List (List (Option K)))) (hdl : data.length = times.length)
    (hdr : ∀ r ∈ data, r.length = levels.length) (hd : ∀ r ∈ data, ∀ s ∈ r, NoNaN m s) (M : K)
    (hM : 0 ≤ M) (hslow : ∀ r ∈ data, SlowInDepth levels M r) (t : Int) (e : Bool)
    (ht : Served times t e) (pts : List (UPt K × UPt K))
    (hpts : ∀ q ∈ pts, OneAbove m q ∧ WithinLevels levels q.1.z ∧ WithinLevels levels q.2.z) :
    ∃ out out', eval (xyU m .node) times (levelSys UPt.z levels sbc bbc) (.timeDepth data)
        (pts.map fun q => q.1) t e = .ok out ∧
      eval (xyU m .node) times (levelSys UPt.z levels sbc bbc) (.timeDepth data)
        (pts.map fun q => q.2) t e = .ok out' ∧
      out.length = pts.length ∧ out'.length = pts.length ∧
      ∀ (n : Nat) (q : UPt K × UPt K), pts[n]? = some q → ∃ x y, out[n]? = some ⟨some x, false⟩ ∧
        out'[n]? = some ⟨some y, false⟩ ∧ |y - x| ≤ M * |q.2.z - q.1.z| := by
  refine slow_levels (xyU m .node) times hs hne UPt.z levels hlv hn sbc bbc data (InItsTriangle m)
    (fun i k p => uValue m (((data[i]?).getD [])[k]?.getD []) p) ⟨hdl, hdr, ?_⟩ t e ht pts ?_ ?_
  · intro i k r s hr hk ps hps
    obtain ⟨lo, hi, h⟩ := noNaN_within (hd r (List.mem_of_getElem? hr) s (List.mem_of_getElem? hk))
    rw [xyU_value m lo hi s h ps hps]
    simp only [hr, hk, Option.getD_some]
  · intro q hq
    obtain ⟨⟨h1, h2, h3⟩, w1, w2⟩ := hpts q hq
    refine ⟨h1, ?_, w1, w2, ?_⟩
    · unfold InItsTriangle at h1 ⊢
      rwa [← h2, ← h3]
    · intro i k
      unfold uValue
      rw [h2, h3]
  · intro q hq i hi k l x y hx hy
    obtain ⟨r, hr⟩ : ∃ r, data[i]? = some r := ⟨_, List.getElem?_eq_getElem (by omega)⟩
    have hrm := List.mem_of_getElem? hr
    have hrl := hdr r hrm
    have hk := (List.getElem?_eq_some_iff.mp hx).1
    have hl := (List.getElem?_eq_some_iff.mp hy).1
    obtain ⟨s, hsl⟩ : ∃ s, r[k]? = some s := ⟨_, List.getElem?_eq_getElem (by omega)⟩
    obtain ⟨s', hsl'⟩ : ∃ s, r[l]? = some s := ⟨_, List.getElem?_eq_getElem (by omega)⟩
    simp only [hr, hsl, hsl', Option.getD_some]
    exact uValue_close (hd r hrm s (List.mem_of_getElem? hsl)) (hd r hrm s' (List.mem_of_getElem? hsl'))
      (mul_nonneg hM (abs_nonneg _)) (hslow r hrm k l x y s s' hx hy hsl hsl') (hpts q hq).1.1

end

/-! ## A case -/

private def slowNodes : List (List (Option ℚ)) :=
  [[some 1, some 2, some 3], [some 6, some 2, some 8], [some 21, some 17, some 8]]

private theorem close3 (B a b c a' b' c' : ℚ) (h1 : |a' - a| ≤ B) (h2 : |b' - b| ≤ B)
    (h3 : |c' - c| ≤ B) : CloseU B [some a, some b, some c] [some a', some b', some c'] := by
  refine ⟨rfl, ?_⟩
  intro i u v hu hv x y hx hy
  rcases i with _ | _ | _ | i <;> cases hu <;> cases hv <;> cases hx <;> cases hy <;> assumption

/-- Times on different sides of a data time. -/
example : Paired (fun x y => |y - x| ≤ 1 / 2 * |((30 : Int) : ℚ) - ((5 : Int) : ℚ)|)
    (eval (xyU oneTriangle .node) [0, 10, 40] (levelSys UPt.z [0, 10] .extrapolate .mask)
      (.time slowNodes) [⟨0, (1, 1), 3⟩] 5 false)
    (eval (xyU oneTriangle .node) [0, 10, 40] (levelSys UPt.z [0, 10] .extrapolate .mask)
      (.time slowNodes) [⟨0, (1, 1), 3⟩] 30 false) := by
  refine C166_unstructured oneTriangle .node [0, 10, 40] (by unfold StrictIncr; decide) _ (1 / 2)
    (by norm_num) slowNodes ⟨rfl, ?_⟩ [⟨0, (1, 1), 3⟩]
    (by simpa using inItsTriangle_located (oneTriangle_in 3))
    (levelSys_unitWeights _ (Or.inl (by unfold StrictIncr; decide +kernel)) _ _ _) 5 30 false false ?_ ?_
  · intro i j a b s s' ha hb hs hs'
    rcases i with _ | _ | _ | i
    · cases ha; cases hs
      rcases j with _ | _ | _ | j
      · cases hb; cases hs'; exact close3 _ _ _ _ _ _ _ (by norm_num) (by norm_num) (by norm_num)
      · cases hb; cases hs'; exact close3 _ _ _ _ _ _ _ (by norm_num) (by norm_num) (by norm_num)
      · cases hb; cases hs'; exact close3 _ _ _ _ _ _ _ (by norm_num) (by norm_num) (by norm_num)
      · cases hb
    · cases ha; cases hs
      rcases j with _ | _ | _ | j
      · cases hb; cases hs'; exact close3 _ _ _ _ _ _ _ (by norm_num) (by norm_num) (by norm_num)
      · cases hb; cases hs'; exact close3 _ _ _ _ _ _ _ (by norm_num) (by norm_num) (by norm_num)
      · cases hb; cases hs'; exact close3 _ _ _ _ _ _ _ (by norm_num) (by norm_num) (by norm_num)
      · cases hb
    · cases ha; cases hs
      rcases j with _ | _ | _ | j
      · cases hb; cases hs'; exact close3 _ _ _ _ _ _ _ (by norm_num) (by norm_num) (by norm_num)
      · cases hb; cases hs'; exact close3 _ _ _ _ _ _ _ (by norm_num) (by norm_num) (by norm_num)
      · cases hb; cases hs'; exact close3 _ _ _ _ _ _ _ (by norm_num) (by norm_num) (by norm_num)
      · cases hb
    · cases ha
  · exact Or.inr (Or.inr ⟨0, 40, rfl, rfl, by decide, by decide⟩)
  · exact Or.inr (Or.inr ⟨0, 40, rfl, rfl, by decide, by decide⟩)

private theorem square_in (p : SPt ℚ) (hp : p ∈ [(⟨some (0, 0), (1, 1 / 2), 0⟩ : SPt ℚ), ⟨none, (9, 9), 0⟩]) :
    InCellOrNot (fun _ => 0) squareQ p := by
  intro ij hc lm ho
  simp only [List.mem_cons, List.not_mem_nil, or_false] at hp
  rcases hp with rfl | rfl
  · simp only [Option.some.injEq] at hc
    subst hc
    have : SInterp.offset (fun _ => 0) squareQ (1, 1 / 2) (0, 0) = .ok (some (1 / 2, 1 / 4)) := by
      decide +kernel
    rw [this] at ho
    cases ho
    exact ⟨by norm_num, by norm_num, by norm_num, by norm_num⟩
  · cases hc

/-- On a structured grid, one edge masked, beyond the last time. -/
example : Paired (fun x y => |y - x| ≤ 1 / 2 * |((70 : Int) : ℚ) - ((5 : Int) : ℚ)|)
    (eval (xyS (fun _ => 0) squareQ (some .edge1)) [0, 10] (levelSys SPt.z [] .mask .mask)
      (.time [[[⟨0, true⟩, ⟨1, false⟩]], [[⟨3, true⟩, ⟨6, false⟩]]])
      [⟨some (0, 0), (1, 1 / 2), 0⟩, ⟨none, (9, 9), 0⟩] 5 false)
    (eval (xyS (fun _ => 0) squareQ (some .edge1)) [0, 10] (levelSys SPt.z [] .mask .mask)
      (.time [[[⟨0, true⟩, ⟨1, false⟩]], [[⟨3, true⟩, ⟨6, false⟩]]])
      [⟨some (0, 0), (1, 1 / 2), 0⟩, ⟨none, (9, 9), 0⟩] 70 true) := by
  have close : ∀ a b a' b' B : ℚ, |a' - a| ≤ B → |b' - b| ≤ B →
      CloseS B [[⟨a, true⟩, ⟨b, false⟩]] [[⟨a', true⟩, ⟨b', false⟩]] := by
    intro a b a' b' B h1 h2
    refine ⟨rfl, ?_⟩
    intro i r r' hr hr'
    rcases i with _ | i
    · cases hr; cases hr'
      refine ⟨rfl, ?_⟩
      intro k u v hu hv
      rcases k with _ | _ | k
      · cases hu; cases hv; exact ⟨rfl, h1⟩
      · cases hu; cases hv; exact ⟨rfl, h2⟩
      · cases hu
    · cases hr
  refine C166_structured (fun _ => 0) squareQ (some .edge1) [0, 10] (by unfold StrictIncr; decide) _
    (1 / 2) (by norm_num) _ ⟨rfl, ?_⟩ [⟨some (0, 0), (1, 1 / 2), 0⟩, ⟨none, (9, 9), 0⟩] square_in
    (levelSys_unitWeights _ (Or.inl (by unfold StrictIncr; decide)) _ _ _) 5 70 false true
    (Or.inr (Or.inr ⟨0, 10, rfl, rfl, by decide, by decide⟩)) (Or.inl rfl)
  intro i j a b s s' ha hb hs hs'
  rcases i with _ | _ | i
  · cases ha; cases hs
    rcases j with _ | _ | j
    · cases hb; cases hs'; exact close _ _ _ _ _ (by norm_num) (by norm_num)
    · cases hb; cases hs'; exact close _ _ _ _ _ (by norm_num) (by norm_num)
    · cases hb
  · cases ha; cases hs
    rcases j with _ | _ | j
    · cases hb; cases hs'; exact close _ _ _ _ _ (by norm_num) (by norm_num)
    · cases hb; cases hs'; exact close _ _ _ _ _ (by norm_num) (by norm_num)
    · cases hb
  · cases ha

/-- Depths in different layers; three levels listed from the bottom. -/
example : ∃ out out',
    eval (xyU oneTriangle .node) [0] (levelSys UPt.z [40, 10, 0] .extrapolate .mask)
      (.timeDepth [slowNodes.reverse]) [⟨0, (1, 1), 3⟩] 0 false = .ok out ∧
    eval (xyU oneTriangle .node) [0] (levelSys UPt.z [40, 10, 0] .extrapolate .mask)
      (.timeDepth [slowNodes.reverse]) [⟨0, (1, 1), 35⟩] 0 false = .ok out' ∧
    out.length = 1 ∧ out'.length = 1 ∧
    ∀ (n : Nat) (q : UPt ℚ × UPt ℚ), [((⟨0, (1, 1), 3⟩, ⟨0, (1, 1), 35⟩) : UPt ℚ × UPt ℚ)][n]? = some q →
      ∃ x y, out[n]? = some ⟨some x, false⟩ ∧
        out'[n]? = some ⟨some y, false⟩ ∧ |y - x| ≤ 1 / 2 * |q.2.z - q.1.z| := by
  refine C167_partial oneTriangle [0] (by unfold StrictIncr; decide) (by simp) [40, 10, 0]
    (Or.inr (by unfold StrictDecr; decide +kernel)) (by decide) _ _ [slowNodes.reverse] rfl
    (by simp [slowNodes]) ?_ (1 / 2) (by norm_num) ?_ 0 false (Or.inr (Or.inl rfl))
    [(⟨0, (1, 1), 3⟩, ⟨0, (1, 1), 35⟩)] ?_
  · intro r hr s hs
    simp only [List.mem_singleton] at hr
    subst hr
    simp only [slowNodes, List.reverse_cons, List.reverse_nil, List.nil_append, List.cons_append,
      List.mem_cons, List.not_mem_nil, or_false] at hs
    rcases hs with rfl | rfl | rfl
    · exact ⟨rfl, by simp⟩
    · exact ⟨rfl, by simp⟩
    · exact ⟨rfl, by simp⟩
  · intro r hr i j a b s s' ha hb hs hs'
    simp only [List.mem_singleton] at hr
    subst hr
    rcases i with _ | _ | _ | i
    · cases ha; cases hs
      rcases j with _ | _ | _ | j
      · cases hb; cases hs'; exact close3 _ _ _ _ _ _ _ (by norm_num) (by norm_num) (by norm_num)
      · cases hb; cases hs'; exact close3 _ _ _ _ _ _ _ (by norm_num) (by norm_num) (by norm_num)
      · cases hb; cases hs'; exact close3 _ _ _ _ _ _ _ (by norm_num) (by norm_num) (by norm_num)
      · cases hb
    · cases ha; cases hs
      rcases j with _ | _ | _ | j
      · cases hb; cases hs'; exact close3 _ _ _ _ _ _ _ (by norm_num) (by norm_num) (by norm_num)
      · cases hb; cases hs'; exact close3 _ _ _ _ _ _ _ (by norm_num) (by norm_num) (by norm_num)
      · cases hb; cases hs'; exact close3 _ _ _ _ _ _ _ (by norm_num) (by norm_num) (by norm_num)
      · cases hb
    · cases ha; cases hs
      rcases j with _ | _ | _ | j
      · cases hb; cases hs'; exact close3 _ _ _ _ _ _ _ (by norm_num) (by norm_num) (by norm_num)
      · cases hb; cases hs'; exact close3 _ _ _ _ _ _ _ (by norm_num) (by norm_num) (by norm_num)
      · cases hb; cases hs'; exact close3 _ _ _ _ _ _ _ (by norm_num) (by norm_num) (by norm_num)
      · cases hb
    · cases ha
  · intro q hq
    simp only [List.mem_singleton] at hq
    subst hq
    exact ⟨⟨oneTriangle_in _, rfl, rfl⟩, ⟨40, 0, rfl, rfl, Or.inr (by norm_num)⟩,
      ⟨40, 0, rfl, rfl, Or.inr (by norm_num)⟩⟩

end Verif
