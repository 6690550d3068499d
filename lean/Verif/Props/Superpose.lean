import Verif.Lemmas.Superpose
import Verif.Props.At

/-!
# C147: weighted sums of fields
-/

set_option autoImplicit false

namespace Verif
open Verif.At Verif.DepthM Verif.Spec Verif.TimeM

section C147
variable {K : Type} [Field K]

/-- Three evaluations, of a field, of another and of their sum with weights `a`, `b`: all raise the
same exception, or all return, mask the same points, and the third result is at every point the sum
of the other two with the same weights. -/
def Superposes (a b : K) (first second sum : Except Err (List (Cell K))) : Prop :=
  (∃ x, first = .error x ∧ second = .error x ∧ sum = .error x) ∨
  ∃ rs : List (Cell K × Cell K × Cell K),
    first = .ok (rs.map fun r => r.1) ∧ second = .ok (rs.map fun r => r.2.1) ∧
    sum = .ok (rs.map fun r => r.2.2) ∧
    ∀ r ∈ rs, r.1.masked = r.2.1.masked ∧ r.2.2.masked = r.1.masked ∧
      r.2.2.value = wsum a b r.1.value r.2.1.value

private theorem superposes_of {a b : K} {r : Which → Except Err (List (Cell K))}
    (h : Together (Each (SumC a b)) r) : Superposes a b (r .f) (r .g) (r .sum) := by
  rcases h with ⟨e, he⟩ | ⟨l, ⟨L, hL, hl⟩, he⟩
  · exact Or.inl ⟨e, he _, he _, he _⟩
  · refine Or.inr ⟨L.map fun c => (c .f, c .g, c .sum), ?_, ?_, ?_, ?_⟩
    · rw [he, hl, List.map_map]; rfl
    · rw [he, hl, List.map_map]; rfl
    · rw [he, hl, List.map_map]; rfl
    · intro r hr
      obtain ⟨c, hc, rfl⟩ := List.mem_map.mp hr
      obtain ⟨h1, h2, h3⟩ := hL c hc
      exact ⟨h2.symm, h3, h1⟩

theorem map_map_data {σ τ υ : Type} (f : σ → τ) (g : τ → υ) (d : Data σ) :
    (d.map f).map g = d.map (fun x => g (f x)) := by
  cases d <;> simp [Data.map, Function.comp_def]

private theorem all_map_data {σ τ : Type} (f : σ → τ) (S : τ → Prop) (h : ∀ x, S (f x)) (d : Data σ) :
    (d.map f).All S := by
  cases d with
  | timeDepth d =>
    intro r hr s hs
    obtain ⟨r', _, rfl⟩ := List.mem_map.mp hr
    obtain ⟨x, _, rfl⟩ := List.mem_map.mp hs
    exact h x
  | time d => intro s hs; obtain ⟨x, _, rfl⟩ := List.mem_map.mp hs; exact h x
  | depth d => intro s hs; obtain ⟨x, _, rfl⟩ := List.mem_map.mp hs; exact h x
  | flat s => exact h s

private theorem const_map {P : Type} (pts : List P) (i : Which) :
    (pts.map fun p (_ : Which) => p).map (· i) = pts := by
  rw [List.map_map]; exact List.map_id _

variable [LinearOrder K]

/-- C147, unstructured grids: for data on nodes or faces, any arrangement of time and depth, any
depth object, any points (located or not) and any time. `d` holds the values of both fields; `none`
is NaN. -/
theorem C147_unstructured (a b : K) (m : UGeom.Mesh K) (loc : UGeom.Loc) (times : List Int)
    (ds : DepthSys K (UPt K)) (d : Data (List (Option K × Option K))) (pts : List (UPt K)) (t : Int)
    (e : Bool) :
    Superposes a b
      (eval (xyU m loc) times ds (d.map (List.map fun v => v.1)) pts t e)
      (eval (xyU m loc) times ds (d.map (List.map fun v => v.2)) pts t e)
      (eval (xyU m loc) times ds (d.map (List.map fun v => wsum a b v.1 v.2)) pts t e) := by
  let pick : Which → Option K × Option K → Option K := fun i v => match i with
    | .f => v.1
    | .g => v.2
    | .sum => wsum a b v.1 v.2
  have := eval_together (ι := Which) (P := fun _ => UPt K) (σ := fun _ => List (Option K))
    (R := SumC a b) sumC_mixes (Q := fun p => ∃ q, p = fun _ => q) (S := Each (SumO a b))
    (fun _ => xyU m loc) (by
      intro s hs ps hps
      obtain ⟨qs, rfl⟩ : ∃ qs : List (UPt K), ps = qs.map fun q _ => q := by
        refine ⟨ps.map (· .f), ?_⟩
        rw [List.map_map]
        conv_lhs => rw [← List.map_id ps]
        refine List.map_congr_left fun p hp => ?_
        obtain ⟨q, rfl⟩ := hps p hp
        rfl
      simp only [const_map]
      exact xyU_sum m loc hs qs)
    times (fun _ => ds) ds.numLayers (fun _ => rfl)
    (d.map fun s i => s.map (pick i)) (all_map_data _ _ (by
      intro s
      refine ⟨s.map fun v i => pick i v, ?_, fun i => by rw [List.map_map]; rfl⟩
      intro c hc
      obtain ⟨v, _, rfl⟩ := List.mem_map.mp hc
      rfl) d)
    (pts.map fun p _ => p) (by
      intro p hp
      obtain ⟨q, _, rfl⟩ := List.mem_map.mp hp
      exact ⟨q, rfl⟩)
    (ds.alphas pts) (fun i => by rw [const_map]) t e
  simp only [const_map, map_map_data] at this
  exact superposes_of this

/-- C147, structured grids: for data on nodes, centers or edges; the two fields share a mask. `d`
holds the values of both and the mask. -/
theorem C147_structured (a b : K) (sqrt : K → K) (g : SInterp.Grid K) (loc : Option SIndex.Loc)
    (times : List Int) (ds : DepthSys K (SPt K)) (d : Data (List (List (K × K × Bool))))
    (pts : List (SPt K)) (t : Int) (e : Bool) :
    Superposes a b
      (eval (xyS sqrt g loc) times ds (d.map (List.map (List.map fun v => ⟨v.1, v.2.2⟩))) pts t e)
      (eval (xyS sqrt g loc) times ds (d.map (List.map (List.map fun v => ⟨v.2.1, v.2.2⟩))) pts t e)
      (eval (xyS sqrt g loc) times ds
        (d.map (List.map (List.map fun v => ⟨a * v.1 + b * v.2.1, v.2.2⟩))) pts t e) := by
  let pick : Which → K × K × Bool → SInterp.MV K := fun i v => match i with
    | .f => ⟨v.1, v.2.2⟩
    | .g => ⟨v.2.1, v.2.2⟩
    | .sum => ⟨a * v.1 + b * v.2.1, v.2.2⟩
  have := eval_together (ι := Which) (P := fun _ => SPt K)
    (σ := fun _ => List (List (SInterp.MV K)))
    (R := SumC a b) sumC_mixes (Q := fun p => ∃ q, p = fun _ => q) (S := SumA a b)
    (fun _ => xyS sqrt g loc) (by
      intro s hs ps hps
      obtain ⟨qs, rfl⟩ : ∃ qs : List (SPt K), ps = qs.map fun q _ => q := by
        refine ⟨ps.map (· .f), ?_⟩
        rw [List.map_map]
        conv_lhs => rw [← List.map_id ps]
        refine List.map_congr_left fun p hp => ?_
        obtain ⟨q, rfl⟩ := hps p hp
        rfl
      simp only [const_map]
      exact xyS_sum sqrt g loc hs qs)
    times (fun _ => ds) ds.numLayers (fun _ => rfl)
    (d.map fun s i => s.map (List.map (pick i))) (all_map_data _ _ (by
      intro s
      refine ⟨s.map fun r i => r.map (pick i), ?_, fun i => by rw [List.map_map]; rfl⟩
      intro r hr
      obtain ⟨v, _, rfl⟩ := List.mem_map.mp hr
      refine ⟨v.map fun x i => pick i x, ?_, fun i => by rw [List.map_map]; rfl⟩
      intro c hc
      obtain ⟨x, _, rfl⟩ := List.mem_map.mp hc
      exact ⟨rfl, rfl, rfl⟩) d)
    (pts.map fun p _ => p) (by
      intro p hp
      obtain ⟨q, _, rfl⟩ := List.mem_map.mp hp
      exact ⟨q, rfl⟩)
    (ds.alphas pts) (fun i => by rw [const_map]) t e
  simp only [const_map, map_map_data] at this
  exact superposes_of this

/-- The two fields 1, 2, 3 and 5, 7, 11 on a triangle at two times; their sum with weights 2 and 3,
halfway in time. -/
example :
    let d : Data (List (Option ℚ × Option ℚ)) :=
      .time [[(some 1, some 5), (some 2, some 7), (some 3, some 11)],
        [(some 3, some 5), (some 2, some 7), (some 3, some 13)]]
    let run := fun f : Option ℚ × Option ℚ → Option ℚ =>
      eval (xyU oneTriangle .node) [0, 10] (levelSys UPt.z [] .mask .mask) (d.map (List.map f))
        [⟨0, (1, 1), 0⟩] 5 false
    run (fun v => v.1) = .ok [⟨some (9 / 4), false⟩] ∧
      run (fun v => v.2) = .ok [⟨some (29 / 4), false⟩] ∧
      run (fun v => wsum 2 3 v.1 v.2) = .ok [⟨some (105 / 4), false⟩] := by
  decide +kernel

end C147

end Verif
