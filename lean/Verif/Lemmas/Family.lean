import Verif.Model.At
import Verif.Lemmas.At

/-!
# Several evaluations run side by side

A family of runs, indexed by `ι`, of the stages of `Model/At.lean`. If the runs use the same times
and are told the same depth indices, a relation between their horizontal values that survives mixing
holds between their results, and they raise together.
-/

set_option autoImplicit false

namespace Verif.At
open Verif.TimeM Verif.DepthM

section
variable {ι : Type} {K : Type}

/-- All runs raise the same exception, or all return, with results related by `R`. -/
def Together {β : ι → Type} (R : ((i : ι) → β i) → Prop) (r : (i : ι) → Except Err (β i)) : Prop :=
  (∃ e, ∀ i, r i = .error e) ∨ ∃ b, R b ∧ ∀ i, r i = .ok (b i)

/-- Lists of one length whose members at each place are related by `R`. -/
def Each {β : ι → Type} (R : ((i : ι) → β i) → Prop) (l : (i : ι) → List (β i)) : Prop :=
  ∃ L : List ((i : ι) → β i), (∀ c ∈ L, R c) ∧ ∀ i, l i = L.map (· i)

theorem Together.mono {β : ι → Type} {R R' : ((i : ι) → β i) → Prop}
    {r : (i : ι) → Except Err (β i)} (h : Together R r) (hr : ∀ b, R b → R' b) : Together R' r := by
  rcases h with h | ⟨b, hb, h⟩
  · exact Or.inl h
  · exact Or.inr ⟨b, hr b hb, h⟩

theorem zipWith_each {β γ δ : ι → Type} (f : (i : ι) → β i → γ i → δ i) (L : List ((i : ι) → β i))
    (M : List ((i : ι) → γ i)) (i : ι) :
    List.zipWith (f i) (L.map (· i)) (M.map (· i)) =
      (List.zipWith (fun c d i => f i (c i) (d i)) L M).map (· i) := by
  induction L generalizing M with
  | nil => rfl
  | cons c L ih => cases M with
    | nil => rfl
    | cons d M => simp only [List.map_cons, List.zipWith_cons_cons, ih]

theorem mem_zipWith {α β γ : Type} {f : α → β → γ} {l : List α} {m : List β} {c : γ}
    (h : c ∈ List.zipWith f l m) : ∃ a ∈ l, ∃ b ∈ m, c = f a b := by
  induction l generalizing m with
  | nil => simp at h
  | cons a l ih => cases m with
    | nil => simp at h
    | cons b m =>
      simp only [List.zipWith_cons_cons, List.mem_cons] at h
      rcases h with rfl | h
      · exact ⟨a, List.mem_cons_self, b, List.mem_cons_self, rfl⟩
      · obtain ⟨a', ha, b', hb, e⟩ := ih h
        exact ⟨a', List.mem_cons_of_mem _ ha, b', List.mem_cons_of_mem _ hb, e⟩

theorem mapE_each {β γ : ι → Type} {R : ((i : ι) → γ i) → Prop}
    (f : (i : ι) → β i → Except Err (γ i)) (L : List ((i : ι) → β i))
    (h : ∀ b ∈ L, Together R (fun i => f i (b i))) :
    Together (Each R) (fun i => mapE (f i) (L.map (· i))) := by
  induction L with
  | nil => exact Or.inr ⟨fun _ => [], ⟨[], by simp, fun _ => rfl⟩, fun _ => rfl⟩
  | cons b L ih =>
    rcases h b List.mem_cons_self with ⟨e, he⟩ | ⟨c, hc, he⟩
    · exact Or.inl ⟨e, fun i => by simp only [List.map_cons, mapE, he i]⟩
    · rcases ih (fun b hb => h b (List.mem_cons_of_mem _ hb)) with ⟨e, he'⟩ | ⟨l, ⟨M, hM, hl⟩, he'⟩
      · exact Or.inl ⟨e, fun i => by simp only [List.map_cons, mapE, he i, he' i]⟩
      · refine Or.inr ⟨fun i => c i :: l i, ⟨c :: M, ?_, fun i => by simp [hl i]⟩, fun i => by
          simp only [List.map_cons, mapE, he i, he' i]⟩
        intro x hx
        rcases List.mem_cons.mp hx with rfl | hx
        · exact hc
        · exact hM x hx

theorem pyGet_each {β : ι → Type} {R : ((i : ι) → β i) → Prop} (L : List ((i : ι) → β i))
    (h : ∀ b ∈ L, R b) (k : Int) : Together R (fun i => Np.pyGet (L.map (· i)) k) := by
  unfold Np.pyGet
  simp only [List.length_map, List.getElem?_map]
  split
  · rcases hx : L[k.toNat]? with _ | b
    · exact Or.inl ⟨.indexError, fun i => by simp only [Option.map_none]⟩
    · exact Or.inr ⟨b, h b (List.mem_of_getElem? hx), fun i => by simp only [Option.map_some]⟩
  · split
    · rcases hx : L[L.length - (-k).toNat]? with _ | b
      · exact Or.inl ⟨.indexError, fun i => by simp only [Option.map_none]⟩
      · exact Or.inr ⟨b, h b (List.mem_of_getElem? hx), fun i => by simp only [Option.map_some]⟩
    · exact Or.inl ⟨.indexError, fun _ => rfl⟩

theorem mapE_comp {α β γ : Type} (f : β → Except Err γ) (g : α → β) (l : List α) :
    mapE f (l.map g) = mapE (fun x => f (g x)) l := by
  induction l with
  | nil => rfl
  | cons x l ih => simp only [List.map_cons, mapE, ih]

variable [Field K]

/-- A relation between results that mixing respects, and that holds where nothing is written. -/
structure Mixes (R : (ι → Cell K) → Prop) : Prop where
  blank : ∀ b, R (fun _ => { value := none, masked := b })
  mix : ∀ c d, R c → R d → ∀ a, R (fun i => mixCell (c i) (d i) a)

theorem timeStage_together [DecidableEq K] {R : (ι → Cell K) → Prop} (hR : Mixes R)
    (times : List Int) (val : ι → Int → Except Err (List (Cell K)))
    (h : ∀ k, Together (Each R) (fun i => val i k)) (t : Int) (e : Bool) :
    Together (Each R) (fun i => timeStage times (val i) t e) := by
  unfold timeStage
  split
  · exact Or.inl ⟨_, fun _ => rfl⟩
  split
  · exact h 0
  split
  · exact Or.inl ⟨_, fun _ => rfl⟩
  split
  · exact h (-1)
  split
  · exact Or.inl ⟨_, fun _ => rfl⟩
  rename_i ind _
  rcases h ((ind : Int) - 1) with ⟨x, hx⟩ | ⟨l, ⟨L, hL, hl⟩, hx⟩
  · exact Or.inl ⟨x, fun i => by simp only [hx i]⟩
  rcases h (ind : Int) with ⟨y, hy⟩ | ⟨m, ⟨M, hM, hm⟩, hy⟩
  · exact Or.inl ⟨y, fun i => by simp only [hx i, hy i]⟩
  rcases interpAlpha (fun x => x) times t e with z | a
  · exact Or.inl ⟨z, fun i => by simp only [hx i, hy i]⟩
  · refine Or.inr ⟨fun i => List.zipWith (fun x y => mixCell x y (some a)) (l i) (m i),
      ⟨List.zipWith (fun c d i => mixCell (c i) (d i) (some a)) L M, ?_, ?_⟩,
      fun i => by simp only [hx i, hy i]⟩
    · intro c hc
      obtain ⟨a', ha, b', hb, rfl⟩ := mem_zipWith hc
      exact hR.mix _ _ (hL _ ha) (hM _ hb) _
    · intro i
      simp only [hl i, hm i]
      exact zipWith_each (β := fun _ => Cell K) (γ := fun _ => Cell K) (δ := fun _ => Cell K)
        (fun _ x y => mixCell x y (some a)) L M i

theorem pick_each {P : ι → Type} (pts : List ((i : ι) → P i)) (l : List Nat) (i : ι) :
    pick (pts.map (· i)) l = (pick pts l).map (· i) := by
  unfold pick
  rw [List.map_filterMap]
  congr 1
  funext n
  rw [List.getElem?_map]

theorem putCells_each {R : (ι → Cell K) → Prop} (l : List Nat) (M L : List (ι → Cell K))
    (hM : ∀ c ∈ M, R c) (hL : ∀ c ∈ L, R c) :
    Each R (fun i => putCells (L.map (· i)) (l.zip (M.map (· i)))) := by
  induction l generalizing M L with
  | nil => exact ⟨L, hL, fun _ => rfl⟩
  | cons n l ih => cases M with
    | nil => exact ⟨L, hL, fun _ => rfl⟩
    | cons c M =>
      have := ih M (L.set n c) (fun c hc => hM c (List.mem_cons_of_mem _ hc)) (by
        intro d hd
        rcases List.mem_or_eq_of_mem_set hd with hd | rfl
        · exact hL d hd
        · exact hM d List.mem_cons_self)
      simpa only [List.map_cons, List.zip_cons_cons, putCells, List.map_set] using this

/-- What the next stage gives, for all runs. -/
def NextStage {P : ι → Type} (R : (ι → Cell K) → Prop) (Q : ((i : ι) → P i) → Prop)
    (val : (i : ι) → Int → List (P i) → Except Err (List (Cell K))) : Prop :=
  ∀ k (ps : List ((i : ι) → P i)), (∀ p ∈ ps, Q p) →
    Together (Each R) (fun i => val i k (ps.map (· i)))

theorem mem_pick' {P : Type} {pts : List P} {l : List Nat} {p : P} (h : p ∈ pick pts l) :
    p ∈ pts := by
  unfold pick at h
  obtain ⟨n, _, hn⟩ := List.mem_filterMap.mp h
  exact List.mem_of_getElem? hn

theorem layerCells_together {P : ι → Type} {R : (ι → Cell K) → Prop}
    {Q : ((i : ι) → P i) → Prop} (ents : List (Entry K))
    (val : (i : ι) → Int → List (P i) → Except Err (List (Cell K))) (hv : NextStage R Q val)
    (pts : List ((i : ι) → P i)) (hp : ∀ p ∈ pts, Q p) (ks : List Int) (L : List (ι → Cell K))
    (hL : ∀ c ∈ L, R c) :
    Together (Each R) (fun i => layerCells ents (val i) (pts.map (· i)) ks (L.map (· i))) := by
  induction ks generalizing L with
  | nil => exact Or.inr ⟨_, ⟨L, hL, fun _ => rfl⟩, fun _ => rfl⟩
  | cons k ks ih =>
    have hk := hv (if k = -1 then 0 else k) (pick pts (groupOf ents (if k = -1 then 0 else k)))
      (fun p hp' => hp p (mem_pick' hp'))
    simp only [← pick_each] at hk
    rcases hk with ⟨e, he⟩ | ⟨l, ⟨M, hM, hl⟩, he⟩
    · exact Or.inl ⟨e, fun i => by simp only [layerCells, he i]⟩
    · obtain ⟨L', hL', e⟩ := putCells_each (groupOf ents (if k = -1 then 0 else k)) M L hM hL
      have := ih L' hL'
      simp only [← e] at this
      simpa only [layerCells, he, hl] using this

theorem mixed_each (ents : List (Entry K)) (M0 M1 : List (ι → Cell K)) (g : List Nat) (i : ι) :
    List.zipWith (fun (vv : Cell K × Cell K) n => mixCell vv.1 vv.2 (alphaAt ents n))
        ((M0.map (· i)).zip (M1.map (· i))) g =
      (List.zipWith (fun (vv : (ι → Cell K) × (ι → Cell K)) n => fun i =>
        mixCell (vv.1 i) (vv.2 i) (alphaAt ents n)) (M0.zip M1) g).map (· i) := by
  induction g generalizing M0 M1 with
  | nil => simp
  | cons n g ih => cases M0 with
    | nil => rfl
    | cons c M0 => cases M1 with
      | nil => rfl
      | cons d M1 =>
        simp only [List.map_cons, List.zip_cons_cons, List.zipWith_cons_cons, ih]

theorem levelCells_together {P : ι → Type} {R : (ι → Cell K) → Prop} (hR : Mixes R)
    {Q : ((i : ι) → P i) → Prop} (m : Nat) (ents : List (Entry K))
    (val : (i : ι) → Int → List (P i) → Except Err (List (Cell K))) (hv : NextStage R Q val)
    (pts : List ((i : ι) → P i)) (hp : ∀ p ∈ pts, Q p) (ks : List Int) (lay : Option (List Nat))
    (L : List (ι → Cell K)) (hL : ∀ c ∈ L, R c) :
    Together (β := fun _ => Option (List Nat) × List (Cell K)) (fun s => Each R (fun i => (s i).2))
      (fun i => levelCells m ents (val i) (pts.map (· i)) ks (lay, L.map (· i))) := by
  induction ks generalizing lay L with
  | nil => exact Or.inr ⟨fun i => (lay, L.map (· i)), ⟨L, hL, fun _ => rfl⟩, fun _ => rfl⟩
  | cons k ks ih =>
    simp only [levelCells]
    split
    · rcases lay with _ | l
      · exact Or.inl ⟨_, fun _ => rfl⟩
      · have hk := hv k (pick pts l) (fun p hp' => hp p (mem_pick' hp'))
        simp only [← pick_each] at hk
        rcases hk with ⟨e, he⟩ | ⟨w, ⟨M, hM, hl⟩, he⟩
        · exact Or.inl ⟨e, fun i => by simp only [he i]⟩
        · obtain ⟨L', hL', e⟩ := putCells_each l M L hM hL
          have := ih (some l) L' hL'
          simp only [← e] at this
          simpa only [he, hl] using this
    · have hq : ∀ p ∈ pick pts (groupOf ents k), Q p := fun p hp' => hp p (mem_pick' hp')
      have h1 := hv (k + 1) _ hq
      have h0 := hv k _ hq
      simp only [← pick_each] at h1 h0
      rcases h1 with ⟨e, h1⟩ | ⟨w1, ⟨M1, hM1, hl1⟩, h1⟩
      · exact Or.inl ⟨e, fun i => by simp only [h1 i]⟩
      rcases h0 with ⟨e, h0⟩ | ⟨w0, ⟨M0, hM0, hl0⟩, h0⟩
      · exact Or.inl ⟨e, fun i => by simp only [h1 i, h0 i]⟩
      have := putCells_each (groupOf ents k) (List.zipWith (fun (vv : (ι → Cell K) × (ι → Cell K)) n =>
        fun i => mixCell (vv.1 i) (vv.2 i) (alphaAt ents n)) (M0.zip M1) (groupOf ents k)) L (by
          intro c hc
          obtain ⟨vv, hvv, n, _, rfl⟩ := mem_zipWith hc
          have := List.of_mem_zip hvv
          exact hR.mix _ _ (hM0 _ this.1) (hM1 _ this.2) _) hL
      obtain ⟨L', hL', e⟩ := this
      have := ih (some (groupOf ents k)) L' hL'
      simp only [← e] at this
      simpa only [h1, h0, hl1, hl0, mixed_each] using this

theorem depthStage_together {P : ι → Type} {R : (ι → Cell K) → Prop} (hR : Mixes R)
    {Q : ((i : ι) → P i) → Prop} (ds : (i : ι) → DepthSys K (P i)) (nl : Nat)
    (hnl : ∀ i, (ds i).numLayers = nl) (m : Nat)
    (val : (i : ι) → Int → List (P i) → Except Err (List (Cell K))) (hv : NextStage R Q val)
    (pts : List ((i : ι) → P i)) (hp : ∀ p ∈ pts, Q p) (A : Except Err (List (Entry K)))
    (hA : ∀ i, (ds i).alphas (pts.map (· i)) = A) :
    Together (Each R) (fun i => depthStage (ds i) m (val i) (pts.map (· i))) := by
  simp only [depthStage, hA, hnl]
  rcases A with e | ents
  · exact Or.inl ⟨e, fun _ => rfl⟩
  simp only
  have hinit : ∀ i : ι, (ents.map fun e => ({ value := none, masked := e.masked } : Cell K)) =
      (ents.map fun e => (fun _ : ι => ({ value := none, masked := e.masked } : Cell K))).map (· i) := by
    intro i; simp
  have hb : ∀ c ∈ ents.map fun e => (fun _ : ι => ({ value := none, masked := e.masked } : Cell K)),
      R c := by
    intro c hc
    obtain ⟨e, _, rfl⟩ := List.mem_map.mp hc
    exact hR.blank _
  split
  · exact Or.inr ⟨_, ⟨_, hb, hinit⟩, fun _ => rfl⟩
  split
  · have := layerCells_together ents val hv pts hp (uniqIdx ents) _ hb
    simpa only [← hinit] using this
  · have := levelCells_together hR m ents val hv pts hp (uniqIdx ents) none _ hb
    simp only [← hinit] at this
    rcases this with ⟨e, he⟩ | ⟨b, hb, he⟩
    · exact Or.inl ⟨e, fun i => by simp only [he i]⟩
    · exact Or.inr ⟨_, hb, fun i => by simp only [he i]⟩

/-- The data of one of the runs. -/
def Data.map {σ τ : Type} (f : σ → τ) : Data σ → Data τ
  | .timeDepth d => .timeDepth (d.map (List.map f))
  | .time d => .time (d.map f)
  | .depth d => .depth (d.map f)
  | .flat s => .flat (f s)

/-- Every slice satisfies `S`. -/
def Data.All {σ : Type} (S : σ → Prop) : Data σ → Prop
  | .timeDepth d => ∀ r ∈ d, ∀ s ∈ r, S s
  | .time d => ∀ s ∈ d, S s
  | .depth d => ∀ s ∈ d, S s
  | .flat s => S s

theorem eval_together [DecidableEq K] {P σ : ι → Type} {R : (ι → Cell K) → Prop} (hR : Mixes R)
    {Q : ((i : ι) → P i) → Prop} {S : ((i : ι) → σ i) → Prop}
    (xy : (i : ι) → σ i → List (P i) → Except Err (List (Cell K)))
    (hxy : ∀ s, S s → ∀ ps : List ((i : ι) → P i), (∀ p ∈ ps, Q p) →
      Together (Each R) (fun i => xy i (s i) (ps.map (· i))))
    (times : List Int) (ds : (i : ι) → DepthSys K (P i)) (nl : Nat)
    (hnl : ∀ i, (ds i).numLayers = nl) (d : Data ((i : ι) → σ i)) (hd : d.All S)
    (pts : List ((i : ι) → P i)) (hp : ∀ p ∈ pts, Q p) (A : Except Err (List (Entry K)))
    (hA : ∀ i, (ds i).alphas (pts.map (· i)) = A) (t : Int) (e : Bool) :
    Together (Each R) (fun i => eval (xy i) times (ds i) (d.map (· i)) (pts.map (· i)) t e) := by
  have hws : ∀ (s : (i : ι) → Except Err (σ i)), Together S s → ∀ ps : List ((i : ι) → P i),
      (∀ p ∈ ps, Q p) → Together (Each R) (fun i => withSlice (xy i) (s i) (ps.map (· i))) := by
    intro s hs ps hps
    rcases hs with ⟨e, he⟩ | ⟨b, hb, he⟩
    · exact Or.inl ⟨e, fun i => by simp only [withSlice, he i]⟩
    · have := hxy b hb ps hps
      simpa only [withSlice, he] using this
  cases d with
  | flat s => exact hxy s hd pts hp
  | depth d =>
    simp only [eval, Data.map, List.length_map]
    exact depthStage_together hR ds nl hnl d.length
      (fun i k ps => withSlice (xy i) (Np.pyGet (d.map (· i)) k) ps)
      (fun k ps hps => hws _ (pyGet_each d hd k) ps hps) pts hp A hA
  | time d =>
    simp only [eval, Data.map]
    exact timeStage_together hR times (fun i k => withSlice (xy i) (Np.pyGet (d.map (· i)) k) _)
      (fun k => hws _ (pyGet_each d hd k) pts hp) t e
  | timeDepth d =>
    simp only [eval, Data.map]
    have hlen : ∀ i : ι, ((d.map (List.map (· i))).headD []).length = (d.headD []).length := by
      intro i; cases d <;> simp
    simp only [hlen]
    refine timeStage_together hR times (fun i j => depthStage (ds i) (d.headD []).length
      (fun k ps => withSlice (xy i) (slice2 (d.map (List.map (· i))) j k) ps) (pts.map (· i)))
      (fun j => ?_) t e
    refine depthStage_together hR ds nl hnl _
      (fun i k ps => withSlice (xy i) (slice2 (d.map (List.map (· i))) j k) ps)
      (fun k ps hps => hws _ ?_ ps hps) pts hp A hA
    have hrow := pyGet_each (ι := ι) (β := fun i => List (σ i)) (R := Each S)
      (d.map fun r i => r.map (· i)) (by
        intro b hb
        obtain ⟨r, hr, rfl⟩ := List.mem_map.mp hb
        exact ⟨r, hd r hr, fun _ => rfl⟩) j
    have hm : ∀ i, (d.map fun r i => r.map (· i)).map (· i) = d.map (List.map (· i)) := by
      intro i; rw [List.map_map]; rfl
    simp only [hm] at hrow
    rcases hrow with ⟨e, he⟩ | ⟨b, ⟨r, hr, hb⟩, he⟩
    · exact Or.inl ⟨e, fun i => by simp only [slice2, he i]⟩
    · have := pyGet_each r hr k
      simpa only [slice2, he, hb] using this

/-- Data on the nodes of several unstructured grids. -/
theorem xyU_node_each [LinearOrder K] {R : (ι → Option K) → Prop} (m : ι → UGeom.Mesh K)
    (s : ι → List (Option K)) (ps : List (ι → UPt K))
    (h : ∀ p ∈ ps, Together R (fun i => UGeom.interpNode (m i) (s i) (p i).face (p i).pos)) :
    Together (Each (fun c : ι → Cell K => R (fun i => (c i).value) ∧ ∀ i, (c i).masked = false))
      (fun i => xyU (m i) .node (s i) (ps.map (· i))) := by
  have key := mapE_each (β := fun _ => UPt K) (γ := fun _ => Option K) (R := R)
    (fun i p => UGeom.interpNode (m i) (s i) p.face p.pos) ps h
  simp only [mapE_comp] at key
  simp only [xyU, UGeom.interpolate, mapE_comp]
  rcases key with ⟨x, hx⟩ | ⟨l, ⟨L, hL, hl⟩, hx⟩
  · exact Or.inl ⟨x, fun i => by simp only [hx i]⟩
  · refine Or.inr ⟨fun i => (l i).map fun v => ({ value := v, masked := false } : Cell K),
      ⟨L.map fun v i => ({ value := v i, masked := false } : Cell K), ?_, ?_⟩,
      fun i => by simp only [hx i]⟩
    · intro c hc
      obtain ⟨v, hv, rfl⟩ := List.mem_map.mp hc
      exact ⟨hL v hv, fun _ => rfl⟩
    · intro i
      simp only [hl i, List.map_map]
      rfl

/-- Data on the faces of several unstructured grids. -/
theorem xyU_face_each [LinearOrder K] {R : (ι → Option K) → Prop} (m : ι → UGeom.Mesh K)
    (s : ι → List (Option K)) (ps : List (ι → UPt K))
    (h : ∀ p ∈ ps, Together R (fun i => UGeom.interpFace (s i) (p i).face)) :
    Together (Each (fun c : ι → Cell K => R (fun i => (c i).value) ∧ ∀ i, (c i).masked = false))
      (fun i => xyU (m i) .face (s i) (ps.map (· i))) := by
  have key := mapE_each (β := fun _ => UPt K) (γ := fun _ => Option K) (R := R)
    (fun i p => UGeom.interpFace (s i) p.face) ps h
  simp only [mapE_comp] at key
  simp only [xyU, UGeom.interpolate, mapE_comp]
  rcases key with ⟨x, hx⟩ | ⟨l, ⟨L, hL, hl⟩, hx⟩
  · exact Or.inl ⟨x, fun i => by simp only [hx i]⟩
  · refine Or.inr ⟨fun i => (l i).map fun v => ({ value := v, masked := false } : Cell K),
      ⟨L.map fun v i => ({ value := v i, masked := false } : Cell K), ?_, ?_⟩,
      fun i => by simp only [hx i]⟩
    · intro c hc
      obtain ⟨v, hv, rfl⟩ := List.mem_map.mp hc
      exact ⟨hL v hv, fun _ => rfl⟩
    · intro i
      simp only [hl i, List.map_map]
      rfl

/-- Two runs side by side give the same. -/
theorem mixes_eq : Mixes (K := K) (fun c : Bool → Cell K => c true = c false) where
  blank := fun _ => rfl
  mix := by
    intro c d hc hd a
    simp only [hc, hd]

/-- From two runs that are equal outcome by outcome. -/
theorem together_eq {γ : Type} {r : Bool → Except Err γ} (h : r true = r false) :
    Together (β := fun _ : Bool => γ) (fun v => v true = v false) r := by
  rcases hv : r false with x | v
  · exact Or.inl ⟨x, fun i => by cases i <;> simp only [h, hv]⟩
  · exact Or.inr ⟨fun _ => v, rfl, fun i => by cases i <;> simp only [h, hv]⟩

theorem eq_of_together {γ : Type} {r : Bool → Except Err (List γ)}
    (h : Together (Each (fun v : Bool → γ => v true = v false)) r) : r true = r false := by
  rcases h with ⟨x, hx⟩ | ⟨l, ⟨L, hL, hl⟩, hx⟩
  · rw [hx, hx]
  · rw [hx, hx, hl, hl]
    congr 1
    exact List.map_congr_left hL

/-- Two evaluations with the same times: if the horizontal stages agree on the slices and points and
the depth objects answer alike, the evaluations agree. -/
theorem eval_eq [DecidableEq K] {P P' σ σ' : Type}
    (xy : σ → List P → Except Err (List (Cell K))) (xy' : σ' → List P' → Except Err (List (Cell K)))
    (S : σ → σ' → Prop) (Q : P → P' → Prop)
    (hxy : ∀ s s', S s s' → ∀ ps : List (P × P'), (∀ p ∈ ps, Q p.1 p.2) →
      xy' s' (ps.map fun p => p.2) = xy s (ps.map fun p => p.1))
    (times : List Int) (ds : DepthSys K P) (ds' : DepthSys K P') (hnl : ds'.numLayers = ds.numLayers)
    (d : Data (σ × σ')) (hd : d.All fun s => S s.1 s.2) (pts : List (P × P'))
    (hp : ∀ p ∈ pts, Q p.1 p.2)
    (hA : ds'.alphas (pts.map fun p => p.2) = ds.alphas (pts.map fun p => p.1)) (t : Int) (e : Bool) :
    eval xy' times ds' (d.map fun s => s.2) (pts.map fun p => p.2) t e =
      eval xy times ds (d.map fun s => s.1) (pts.map fun p => p.1) t e := by
  let PP : Bool → Type := fun i => match i with | true => P' | false => P
  let SS : Bool → Type := fun i => match i with | true => σ' | false => σ
  let XY : (i : Bool) → SS i → List (PP i) → Except Err (List (Cell K)) := fun i =>
    match i with | true => xy' | false => xy
  let DS : (i : Bool) → DepthSys K (PP i) := fun i => match i with | true => ds' | false => ds
  let fp : P × P' → (i : Bool) → PP i := fun p i => match i with | true => p.2 | false => p.1
  let fs : σ × σ' → (i : Bool) → SS i := fun p i => match i with | true => p.2 | false => p.1
  have hback : ∀ ps : List ((i : Bool) → PP i), ∃ qs : List (P × P'), ps = qs.map fp := by
    intro ps
    refine ⟨ps.map fun p => (p false, p true), ?_⟩
    rw [List.map_map]
    conv_lhs => rw [← List.map_id ps]
    refine List.map_congr_left fun p _ => ?_
    funext i
    cases i <;> rfl
  have := eval_together (ι := Bool) (P := PP) (σ := SS) (R := fun c => c true = c false) mixes_eq
    (Q := fun p => Q (p false) (p true)) (S := fun s => S (s false) (s true)) XY (by
      intro s hs ps hps
      have := hxy (s false) (s true) hs (ps.map fun p => (p false, p true)) (by
        intro q hq
        obtain ⟨p, hp', rfl⟩ := List.mem_map.mp hq
        exact hps p hp')
      simp only [List.map_map] at this
      have he : XY true (s true) (ps.map (· true)) = XY false (s false) (ps.map (· false)) := this
      rcases hv : XY false (s false) (ps.map (· false)) with x | v
      · exact Or.inl ⟨x, fun i => by cases i <;> simp only [he, hv]⟩
      · refine Or.inr ⟨fun _ => v, ⟨v.map fun c _ => c, ?_, fun i => ?_⟩, fun i => by
          cases i <;> simp only [he, hv]⟩
        · intro c hc
          obtain ⟨x, _, rfl⟩ := List.mem_map.mp hc
          rfl
        · rw [List.map_map]; exact (List.map_id v).symm)
    times DS ds.numLayers (fun i => by cases i <;> first | rfl | exact hnl) (d.map fs) (by
      cases d with
      | timeDepth d =>
        intro r hr s hs
        obtain ⟨r', hr', rfl⟩ := List.mem_map.mp hr
        obtain ⟨x, hx, rfl⟩ := List.mem_map.mp hs
        exact hd r' hr' x hx
      | time d => intro s hs; obtain ⟨x, hx, rfl⟩ := List.mem_map.mp hs; exact hd x hx
      | depth d => intro s hs; obtain ⟨x, hx, rfl⟩ := List.mem_map.mp hs; exact hd x hx
      | flat s => exact hd)
    (pts.map fp) (by
      intro p hp'
      obtain ⟨q, hq, rfl⟩ := List.mem_map.mp hp'
      exact hp q hq)
    (ds.alphas (pts.map fun p => p.1)) (by
      intro i
      rw [List.map_map]
      cases i
      · rfl
      · exact hA) t e
  have := eq_of_together this
  simp only [List.map_map] at this
  have hdm : ∀ i : Bool, (d.map fs).map (· i) = d.map (fun s => fs s i) := by
    intro i
    cases d <;> simp [Data.map, Function.comp_def]
  simp only [hdm] at this
  exact this

end

end Verif.At
