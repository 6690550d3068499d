import Verif.Model.Plot
import Verif.Lemmas.Np
import Mathlib.Tactic.Linarith
import Mathlib.Tactic.Ring
import Mathlib.Tactic.NormNum
import Mathlib.Tactic.IntervalCases
import Mathlib.Tactic.FieldSimp
import Mathlib.Algebra.Order.Ring.Rat
import Mathlib.Algebra.Field.Rat
import Mathlib.Data.List.Nodup

/-!
# C139-C146: plots
-/

set_option autoImplicit false

namespace Verif
open Verif.Plot
open Verif.DepthM (mapE argmin argminFrom)

/-! ## C139 -/

/-- The connectivity array of an FVCOM file: three rows, nodes counted from one. -/
def nvByRows (ts : List (List Nat)) : List (List Int) :=
  (List.range 3).map fun k => ts.map fun t => ((t.getD k 0 : Nat) : Int) + 1

/-- The same with a row for each triangle. -/
def nvByFaces (ts : List (List Nat)) : List (List Int) :=
  ts.map fun t => t.map fun (n : Nat) => (n : Int) + 1

/-- Triangles as rows of nodes counted from zero. -/
def asFaces (ts : List (List Nat)) : List (List Int) := ts.map fun t => t.map fun (n : Nat) => (n : Int)

/-- C139 in full: a grid that has its triangles as FVCOM files have them yields these triangles. -/
def C139_statement : Prop :=
  ∀ (g : PGrid ℚ) (ts : List (List Nat)), ts ≠ [] → (∀ t ∈ ts, t.length = 3) → g.faces = none →
    (g.nv = some (nvByRows ts) ∨ g.nv = some (nvByFaces ts)) → triangleFaces g = .ok (asFaces ts)

/-- C139 fails for exactly three triangles: rows are taken for triangles. -/
theorem C139_refuted : ¬ C139_statement := by
  intro h
  have := h ⟨[], [], none, some (nvByRows [[0, 1, 2], [1, 3, 2], [2, 3, 4]]), none⟩
    [[0, 1, 2], [1, 3, 2], [2, 3, 4]] (by simp) (by simp) rfl (Or.inl rfl)
  revert this
  have : triangleFaces (⟨[], [], none, some (nvByRows [[0, 1, 2], [1, 3, 2], [2, 3, 4]]), none⟩ : PGrid ℚ)
    = .ok [[0, 1, 2], [1, 3, 3], [2, 2, 4]] := rfl
  rw [this]
  simp [asFaces]

/-- C139 fails for triangles without the first node: all nodes are off by one. -/
theorem C139_refuted_first : ∃ (g : PGrid ℚ) (ts : List (List Nat)), g.faces = none ∧
    g.nv = some (nvByRows ts) ∧ ts = [[1, 2, 3], [2, 3, 4]] ∧
    triangleFaces g = .ok [[2, 3, 4], [3, 4, 5]] :=
  ⟨⟨[], [], none, some (nvByRows [[1, 2, 3], [2, 3, 4]]), none⟩, _, rfl, rfl, rfl, rfl⟩

theorem foldl_least {α : Type} [LinearOrder α] (l : List α) : ∀ x : α,
    l.foldl min x ∈ x :: l ∧ ∀ y ∈ x :: l, l.foldl min x ≤ y := by
  induction l with
  | nil => simp
  | cons a l ih =>
    intro x
    obtain ⟨h1, h2⟩ := ih (min x a)
    simp only [List.foldl_cons]
    constructor
    · rcases List.mem_cons.mp h1 with h | h
      · rw [h]
        rcases min_choice x a with h' | h' <;> rw [h'] <;> simp
      · simp [h]
    · intro y hy
      have hm := h2 (min x a) (List.mem_cons_self ..)
      rcases List.mem_cons.mp hy with rfl | hy
      · exact le_trans hm (min_le_left ..)
      · rcases List.mem_cons.mp hy with rfl | hy
        · exact le_trans hm (min_le_right ..)
        · exact h2 y (List.mem_cons_of_mem _ hy)

theorem least_spec {α : Type} [LinearOrder α] (l : List α) (hl : l ≠ []) :
    ∃ m, least l = .ok m ∧ m ∈ l ∧ ∀ y ∈ l, m ≤ y := by
  cases l with
  | nil => exact absurd rfl hl
  | cons x l => exact ⟨_, rfl, foldl_least l x⟩

theorem foldl_greatest {α : Type} [LinearOrder α] (l : List α) (x : α) :
    l.foldl max x ∈ x :: l ∧ ∀ y ∈ x :: l, y ≤ l.foldl max x :=
  foldl_least (α := αᵒᵈ) l x

theorem greatest_spec {α : Type} [LinearOrder α] (l : List α) (hl : l ≠ []) :
    ∃ m, greatest l = .ok m ∧ m ∈ l ∧ ∀ y ∈ l, y ≤ m := by
  cases l with
  | nil => exact absurd rfl hl
  | cons x l => exact ⟨_, rfl, foldl_greatest l x⟩

private theorem list3 (t : List Nat) (h : t.length = 3) : ∃ a b c, t = [a, b, c] := by
  match t, h with
  | [a, b, c], _ => exact ⟨a, b, c, rfl⟩

theorem transpose_nv (ts : List (List Nat)) (h3 : ∀ t ∈ ts, t.length = 3) :
    transpose (nvByRows ts) = nvByFaces ts := by
  apply List.ext_getElem
  · simp [transpose, nvByRows, nvByFaces, width, List.range_succ]
  · intro i h1 h2
    have hi : i < ts.length := by simpa [nvByFaces] using h2
    obtain ⟨a, b, c, ht⟩ := list3 ts[i] (h3 _ (List.getElem_mem hi))
    simp [transpose, nvByRows, nvByFaces, List.range_succ, hi, ht, List.getD_eq_getElem?_getD]

/-- C139 for triangles that include the first node, unless three triangles are given by rows. Missing:
the cases of `C139_refuted` and `C139_refuted_first`. -/
theorem C139_partial {K : Type} (g : PGrid K) (ts : List (List Nat)) (h3 : ∀ t ∈ ts, t.length = 3)
    (h0 : ∃ t ∈ ts, 0 ∈ t) (hf : g.faces = none)
    (hnv : (g.nv = some (nvByRows ts) ∧ ts.length ≠ 3) ∨ g.nv = some (nvByFaces ts)) :
    triangleFaces g = .ok (asFaces ts) := by
  obtain ⟨t0, ht0, hz⟩ := h0
  have hsel : ∀ nv, g.nv = some nv →
      (if nv.length = 3 ∧ width nv ≠ 3 then transpose nv else nv) = nvByFaces ts := by
    intro nv hv
    rcases hnv with ⟨h, hl⟩ | h
    · rw [h] at hv
      cases hv
      rw [if_pos]
      · exact transpose_nv ts h3
      · refine ⟨by simp [nvByRows], ?_⟩
        simpa [nvByRows, width, List.range_succ] using hl
    · rw [h] at hv
      cases hv
      rw [if_neg]
      rintro ⟨_, hw⟩
      apply hw
      cases ts with
      | nil => cases ht0
      | cons t ts => simp [nvByFaces, width, h3 t (List.mem_cons_self ..)]
  obtain ⟨nv, hv⟩ : ∃ nv, g.nv = some nv := by
    rcases hnv with ⟨h, _⟩ | h <;> exact ⟨_, h⟩
  have hone : (1 : Int) ∈ (nvByFaces ts).flatten := by
    rw [List.mem_flatten]
    exact ⟨_, List.mem_map.mpr ⟨t0, ht0, rfl⟩, List.mem_map.mpr ⟨0, hz, by simp⟩⟩
  obtain ⟨m, hm, hmem, hle⟩ := least_spec (nvByFaces ts).flatten (List.ne_nil_of_mem hone)
  have hm1 : m = 1 := by
    have h1 := hle 1 hone
    rw [List.mem_flatten] at hmem
    obtain ⟨r, hr, hmr⟩ := hmem
    obtain ⟨t, _, rfl⟩ := List.mem_map.mp hr
    obtain ⟨n, _, rfl⟩ := List.mem_map.mp hmr
    omega
  unfold triangleFaces
  simp only [hf, hv, hsel nv hv, hm, hm1, if_true]
  simp [nvByFaces, asFaces, Function.comp_def]

/-- C139: a grid that has faces yields them; one without any triangles raises `AttributeError`. -/
theorem C139_faces {K : Type} (g : PGrid K) :
    (∀ f, g.faces = some f → triangleFaces g = .ok f) ∧
    (g.faces = none → g.nv = none → triangleFaces g = .error .attributeError) := by
  constructor
  · intro f hf
    simp [triangleFaces, hf]
  · intro hf hn
    simp [triangleFaces, hf, hn]

example : triangleFaces (⟨[], [], none, some (nvByRows [[0, 1, 2], [1, 3, 2]]), none⟩ : PGrid ℚ) =
    .ok [[0, 1, 2], [1, 3, 2]] :=
  C139_partial _ [[0, 1, 2], [1, 3, 2]] (by simp) ⟨[0, 1, 2], by simp, by simp⟩ rfl
    (Or.inl ⟨rfl, by simp⟩)

/-! ## C140 -/

section
variable {K : Type} [Field K] [LinearOrder K]

/-- A grid of triangles: coordinates for every node, and triangles of nodes there are. -/
structure Triangular (g : PGrid K) (ts : List (List Nat)) : Prop where
  lats : g.lats.length = g.lons.length
  faces : g.faces = some (asFaces ts)
  three : ∀ t ∈ ts, t.length = 3
  nodes : ∀ t ∈ ts, ∀ n ∈ t, n < g.lons.length

/-- Two nodes are the ends of a side of a triangle. -/
def SideOf (t : List Nat) (a b : Nat) : Prop :=
  ∃ i j : Nat, i ≠ j ∧ t[i]? = some a ∧ t[j]? = some b

/-- The longitude as drawn is the same place. -/
def DrawnAt (x y : K) : Prop := (x ≤ 180 ∧ y = x) ∨ (180 < x ∧ y = x - 360)

theorem shown_drawn (x : K) : DrawnAt x (shown x) := by
  unfold shown DrawnAt
  split_ifs with h
  · exact Or.inr ⟨h, rfl⟩
  · exact Or.inl ⟨not_lt.mp h, rfl⟩

/-- A node is drawn at a point. -/
def NodeDrawn (g : PGrid K) (n : Nat) (p : K × K) : Prop :=
  ∃ x y, g.lons[n]? = some x ∧ g.lats[n]? = some y ∧ DrawnAt x p.1 ∧ p.2 = y

theorem pairLt_trans {a b c : Int × Int} (h1 : pairLt a b = true) (h2 : pairLt b c = true) :
    pairLt a c = true := by
  simp only [pairLt, Bool.or_eq_true, decide_eq_true_eq, Bool.and_eq_true, beq_iff_eq] at *
  omega

theorem pairLt_or {a b : Int × Int} (h : a ≠ b) (h1 : ¬ pairLt a b = true) : pairLt b a = true := by
  have : ¬ (a.1 = b.1 ∧ a.2 = b.2) := fun ⟨x, y⟩ => h (Prod.ext x y)
  simp only [pairLt, Bool.or_eq_true, decide_eq_true_eq, Bool.and_eq_true, beq_iff_eq] at *
  omega

theorem mem_insertPair (x y : Int × Int) (l : List (Int × Int)) :
    y ∈ insertPair x l ↔ y = x ∨ y ∈ l := by
  induction l with
  | nil => simp [insertPair]
  | cons z l ih =>
    unfold insertPair
    split_ifs with h1 h2
    · subst h1; simp
    · simp
    · simp only [List.mem_cons, ih]
      tauto

theorem insertPair_sorted (x : Int × Int) (l : List (Int × Int))
    (h : l.Pairwise fun a b => pairLt a b = true) :
    (insertPair x l).Pairwise fun a b => pairLt a b = true := by
  induction l with
  | nil => simp [insertPair]
  | cons z l ih =>
    have hz := List.pairwise_cons.mp h
    unfold insertPair
    split_ifs with h1 h2
    · exact h
    · refine List.pairwise_cons.mpr ⟨fun y hy => ?_, h⟩
      rcases List.mem_cons.mp hy with rfl | hy
      · exact h2
      · exact pairLt_trans h2 (hz.1 y hy)
    · refine List.pairwise_cons.mpr ⟨fun y hy => ?_, ih hz.2⟩
      rcases (mem_insertPair x y l).mp hy with rfl | hy
      · exact pairLt_or h1 h2
      · exact hz.1 y hy

theorem unique_sorted (l : List (Int × Int)) :
    (uniquePairs l).Pairwise fun a b => pairLt a b = true := by
  induction l with
  | nil => exact List.Pairwise.nil
  | cons x l ih => exact insertPair_sorted x _ ih

theorem unique_spec (l : List (Int × Int)) :
    (uniquePairs l).Nodup ∧ ∀ e, e ∈ uniquePairs l ↔ e ∈ l := by
  refine ⟨(unique_sorted l).imp ?_, ?_⟩
  · intro a b hab he
    subst he
    simp [pairLt] at hab
  · intro e
    induction l with
    | nil => simp [uniquePairs]
    | cons x l ih =>
      show e ∈ insertPair x (uniquePairs l) ↔ _
      rw [mem_insertPair, ih, List.mem_cons]

theorem columns_ok (ts : List (List Nat)) (h3 : ∀ t ∈ ts, t.length = 3) (i j : Nat) (hi : i < 3)
    (hj : j < 3) :
    columns (asFaces ts) i j = .ok (ts.map fun t => ((t.getD i 0 : Nat), (t.getD j 0 : Nat))) := by
  induction ts with
  | nil => rfl
  | cons t ts ih =>
    obtain ⟨a, b, c, rfl⟩ := list3 t (h3 t (List.mem_cons_self ..))
    have := ih fun u hu => h3 u (List.mem_cons_of_mem _ hu)
    unfold columns asFaces at this ⊢
    simp only [List.map_cons, mapE, this]
    interval_cases i <;> interval_cases j <;> rfl

/-- The edges of the mesh, each once. -/
theorem edges_spec (g : PGrid K) (ts : List (List Nat)) (h : Triangular g ts) :
    ∃ es, gridEdges g = .ok es ∧ es.Nodup ∧
      ∀ e : Int × Int, e ∈ es ↔ ∃ a b : Nat, e = ((a : Int), (b : Int)) ∧ a ≤ b ∧ ∃ t ∈ ts, SideOf t a b := by
  have hf : triangleFaces g = .ok (asFaces ts) := by simp [triangleFaces, h.faces]
  have he : gridEdges g = .ok (uniquePairs (((ts.map fun t => (((t.getD 0 0 : Nat) : Int), ((t.getD 1 0 : Nat) : Int))) ++
      (ts.map fun t => (((t.getD 1 0 : Nat) : Int), ((t.getD 2 0 : Nat) : Int))) ++
      ts.map fun t => (((t.getD 2 0 : Nat) : Int), ((t.getD 0 0 : Nat) : Int))).map sortPair)) := by
    unfold gridEdges
    rw [hf]
    simp only [columns_ok ts h.three 0 1 (by omega) (by omega),
      columns_ok ts h.three 1 2 (by omega) (by omega), columns_ok ts h.three 2 0 (by omega) (by omega)]
  refine ⟨_, he, (unique_spec _).1, ?_⟩
  intro e
  rw [(unique_spec _).2]
  simp only [List.mem_map, List.mem_append]
  constructor
  · rintro ⟨q, (⟨t, ht, rfl⟩ | ⟨t, ht, rfl⟩) | ⟨t, ht, rfl⟩, rfl⟩ <;>
    · obtain ⟨a, b, c, rfl⟩ := list3 t (h.three t ht)
      simp only [sortPair]
      split_ifs with hle
      · refine ⟨_, _, rfl, by simpa using hle, _, ht, ?_⟩
        first
          | exact ⟨0, 1, by decide, rfl, rfl⟩
          | exact ⟨1, 2, by decide, rfl, rfl⟩
          | exact ⟨2, 0, by decide, rfl, rfl⟩
      · refine ⟨_, _, rfl, by simp at hle; simpa using le_of_lt hle, _, ht, ?_⟩
        first
          | exact ⟨1, 0, by decide, rfl, rfl⟩
          | exact ⟨2, 1, by decide, rfl, rfl⟩
          | exact ⟨0, 2, by decide, rfl, rfl⟩
  · rintro ⟨a, b, rfl, hab, t, ht, i, j, hij, hi, hj⟩
    obtain ⟨x, y, z, rfl⟩ := list3 t (h.three t ht)
    have hi3 : i < 3 := by
      by_contra hc
      rw [List.getElem?_eq_none (by simp; omega)] at hi
      cases hi
    have hj3 : j < 3 := by
      by_contra hc
      rw [List.getElem?_eq_none (by simp; omega)] at hj
      cases hj
    have hs : ∀ p q : Nat, p ≤ q → sortPair ((p : Int), (q : Int)) = ((p : Int), (q : Int)) := by
      intro p q hpq
      unfold sortPair
      rw [if_pos (by simpa using hpq)]
    have hs' : ∀ p q : Nat, p ≤ q → sortPair ((q : Int), (p : Int)) = ((p : Int), (q : Int)) := by
      intro p q hpq
      unfold sortPair
      split_ifs with hle
      · have : p = q := by simp at hle; omega
        rw [this]
      · rfl
    interval_cases i <;> interval_cases j <;> simp at hij hi hj <;> subst hi <;> subst hj
    · exact ⟨_, Or.inl (Or.inl ⟨_, ht, rfl⟩), hs _ _ hab⟩
    · exact ⟨_, Or.inr ⟨_, ht, rfl⟩, hs' _ _ hab⟩
    · exact ⟨_, Or.inl (Or.inl ⟨_, ht, rfl⟩), hs' _ _ hab⟩
    · exact ⟨_, Or.inl (Or.inr ⟨_, ht, rfl⟩), hs _ _ hab⟩
    · exact ⟨_, Or.inr ⟨_, ht, rfl⟩, hs _ _ hab⟩
    · exact ⟨_, Or.inl (Or.inr ⟨_, ht, rfl⟩), hs' _ _ hab⟩

theorem nodeAt_ok (g : PGrid K) (n : Nat) (hl : g.lats.length = g.lons.length) (hn : n < g.lons.length) :
    ∃ p, nodeAt g (n : Int) = .ok p ∧ NodeDrawn g n p := by
  refine ⟨(shown g.lons[n], g.lats[n]'(hl ▸ hn)), ?_, g.lons[n], g.lats[n]'(hl ▸ hn), by simp, by simp,
    shown_drawn _, rfl⟩
  unfold nodeAt
  rw [Np.pyGet_nonneg (show g.lons[n]? = some g.lons[n] by simp),
    Np.pyGet_nonneg (show g.lats[n]? = some (g.lats[n]'(hl ▸ hn)) by simp)]

/-- `mapE` that succeeds on each element. -/
theorem mapE_forall {α β : Type} (f : α → Except Err β) (R : α → β → Prop) : ∀ l : List α,
    (∀ a ∈ l, ∃ b, f a = .ok b ∧ R a b) → ∃ bs, mapE f l = .ok bs ∧ List.Forall₂ R l bs
  | [], _ => ⟨[], rfl, .nil⟩
  | a :: l, h => by
    obtain ⟨b, hb, hr⟩ := h a (List.mem_cons_self ..)
    obtain ⟨bs, hbs, hrs⟩ := mapE_forall f R l fun x hx => h x (List.mem_cons_of_mem _ hx)
    exact ⟨b :: bs, by simp [mapE, hb, hbs], .cons hr hrs⟩

/-- C140. The wireframe has exactly one line for each edge of the mesh and no other lines; each joins
the two nodes of its edge, at their places in the range of the map. -/
theorem C140_edges_once (g : PGrid K) (ts : List (List Nat)) (h : Triangular g ts) :
    ∃ (es : List (Nat × Nat)) (lines : List ((K × K) × (K × K))), gridLines g = .ok lines ∧ es.Nodup ∧
      (∀ a b, (a, b) ∈ es ↔ a ≤ b ∧ ∃ t ∈ ts, SideOf t a b) ∧
      List.Forall₂ (fun e l => NodeDrawn g e.1 l.1 ∧ NodeDrawn g e.2 l.2) es lines := by
  obtain ⟨es, he, hn, hm⟩ := edges_spec g ts h
  let es' : List (Nat × Nat) := es.map fun e => (e.1.toNat, e.2.toNat)
  have hes : es = es'.map fun e => ((e.1 : Int), (e.2 : Int)) := by
    simp only [es', List.map_map]
    conv_lhs => rw [← List.map_id es]
    apply List.map_congr_left
    intro e hem
    obtain ⟨a, b, rfl, _⟩ := (hm e).mp hem
    simp
  have hmem : ∀ a b, (a, b) ∈ es' ↔ a ≤ b ∧ ∃ t ∈ ts, SideOf t a b := by
    intro a b
    constructor
    · intro hab
      have : (((a : Nat) : Int), ((b : Nat) : Int)) ∈ es := by
        rw [hes]
        exact List.mem_map.mpr ⟨(a, b), hab, rfl⟩
      obtain ⟨a', b', heq, hle, ht⟩ := (hm _).mp this
      simp only [Prod.mk.injEq, Nat.cast_inj] at heq
      rw [heq.1, heq.2]
      exact ⟨hle, ht⟩
    · rintro ⟨hle, ht⟩
      have := (hm ((a : Int), (b : Int))).mpr ⟨a, b, rfl, hle, ht⟩
      exact List.mem_map.mpr ⟨_, this, by simp⟩
  have hval : ∀ e ∈ es', e.1 < g.lons.length ∧ e.2 < g.lons.length := by
    rintro ⟨a, b⟩ hab
    obtain ⟨_, t, ht, i, j, _, hi, hj⟩ := (hmem a b).mp hab
    exact ⟨h.nodes t ht a (List.mem_of_getElem? hi), h.nodes t ht b (List.mem_of_getElem? hj)⟩
  obtain ⟨lines, hl1, hl2⟩ := mapE_forall (fun e : Int × Int => match nodeAt g e.1 with
    | .error e => .error e
    | .ok p => match nodeAt g e.2 with
      | .error e => .error e
      | .ok q => .ok (p, q))
    (fun e l => NodeDrawn g e.1.toNat l.1 ∧ NodeDrawn g e.2.toNat l.2) es (by
      intro e hem
      rw [hes] at hem
      obtain ⟨⟨a, b⟩, hab, rfl⟩ := List.mem_map.mp hem
      obtain ⟨ha, hb⟩ := hval _ hab
      obtain ⟨p, hp, hp'⟩ := nodeAt_ok g a h.lats ha
      obtain ⟨q, hq, hq'⟩ := nodeAt_ok g b h.lats hb
      exact ⟨(p, q), by simp [hp, hq], by simpa using hp', by simpa using hq'⟩)
  refine ⟨es', lines, ?_, ?_, hmem, ?_⟩
  · unfold gridLines
    rw [he]
    exact hl1
  · rw [hes] at hn
    exact List.Nodup.of_map _ hn
  · rw [List.forall₂_map_left_iff]
    exact hl2

variable [IsStrictOrderedRing K]

/-- C140: longitudes up to a turn and a half are drawn between -180 and 180. -/
theorem C140_range (x y : K) (h : DrawnAt x y) (h1 : -180 < x) (h2 : x ≤ 540) :
    -180 < y ∧ y ≤ 180 := by
  rcases h with ⟨h, rfl⟩ | ⟨h, rfl⟩
  · exact ⟨h1, h⟩
  · constructor <;> linarith

example : Triangular (⟨[179, 181, 180, 182], [0, 0, 1, 1], some [[0, 1, 2], [1, 3, 2]], none, none⟩ :
    PGrid ℚ) [[0, 1, 2], [1, 3, 2]] :=
  ⟨rfl, rfl, by simp, by simp⟩

example : gridLines (⟨[179, 181, 180, 182], [0, 0, 1, 1], some [[0, 1, 2], [1, 3, 2]], none, none⟩ :
    PGrid ℚ) = .ok [((179, 0), (-179, 0)), ((179, 0), (180, 1)), ((-179, 0), (180, 1)),
      ((-179, 0), (-178, 1)), ((180, 1), (-178, 1))] := by decide +kernel

/-! ## C141 -/

/-- C141. The extent of a grid with nodes is that of its nodes as drawn, widened on each side by the
margin times its width or height; with a margin that is not negative all nodes are inside. -/
theorem C141_extent (g : PGrid K) (m : K) (hl : g.lats.length = g.lons.length) (hn : g.lons ≠ []) :
    ∃ e w w' s n, maxExtent g m = .ok e ∧
      (∃ i p, NodeDrawn g i p ∧ p.1 = w) ∧ (∃ i p, NodeDrawn g i p ∧ p.1 = w') ∧
      (∃ i p, NodeDrawn g i p ∧ p.2 = s) ∧ (∃ i p, NodeDrawn g i p ∧ p.2 = n) ∧
      (∀ i p, NodeDrawn g i p → w ≤ p.1 ∧ p.1 ≤ w' ∧ s ≤ p.2 ∧ p.2 ≤ n) ∧
      e.west = w - (w' - w) * m ∧ e.east = w' + (w' - w) * m ∧
      e.south = s - (n - s) * m ∧ e.north = n + (n - s) * m := by
  have hla : g.lats ≠ [] := by
    intro h
    rw [h] at hl
    exact hn (List.eq_nil_of_length_eq_zero hl.symm)
  obtain ⟨w, h1, w1, w2⟩ := least_spec (g.lons.map shown) (by simpa using hn)
  obtain ⟨w', h2, e1, e2⟩ := greatest_spec (g.lons.map shown) (by simpa using hn)
  obtain ⟨s, h3, s1, s2⟩ := least_spec g.lats hla
  obtain ⟨n, h4, n1, n2⟩ := greatest_spec g.lats hla
  have hx : ∀ x ∈ g.lons.map shown, ∃ i p, NodeDrawn g i p ∧ p.1 = x := by
    intro x hx
    obtain ⟨y, hy, rfl⟩ := List.mem_map.mp hx
    obtain ⟨i, hi, rfl⟩ := List.mem_iff_getElem.mp hy
    exact ⟨i, (shown g.lons[i], g.lats[i]'(hl ▸ hi)), ⟨_, _, by simp, by simp, shown_drawn _, rfl⟩, rfl⟩
  have hy : ∀ y ∈ g.lats, ∃ i p, NodeDrawn g i p ∧ p.2 = y := by
    intro y hy
    obtain ⟨i, hi, rfl⟩ := List.mem_iff_getElem.mp hy
    exact ⟨i, (shown (g.lons[i]'(hl ▸ hi)), g.lats[i]), ⟨_, _, by simp, by simp, shown_drawn _, rfl⟩, rfl⟩
  refine ⟨⟨w - (w' - w) * m, w' + (w' - w) * m, s - (n - s) * m, n + (n - s) * m⟩, w, w', s, n,
    by simp only [maxExtent, h1, h2, h3, h4], hx _ w1, hx _ e1, hy _ s1, hy _ n1, ?_,
    rfl, rfl, rfl, rfl⟩
  rintro i ⟨p, q⟩ ⟨x, y, hx', hy', hd, rfl⟩
  have hp : p ∈ g.lons.map shown := by
    refine List.mem_map.mpr ⟨x, List.mem_of_getElem? hx', ?_⟩
    rcases hd with ⟨h, hp⟩ | ⟨h, hp⟩
    · simp only at hp
      rw [hp, shown, if_neg (not_lt.mpr h)]
    · simp only at hp
      rw [hp, shown, if_pos h]
  have hq := List.mem_of_getElem? hy'
  exact ⟨w2 p hp, e2 p hp, s2 _ hq, n2 _ hq⟩

/-- C141: with a margin that is not negative, every node is drawn inside of the extent. -/
theorem C141_inside (g : PGrid K) (m : K) (hm : 0 ≤ m) (hl : g.lats.length = g.lons.length)
    (hn : g.lons ≠ []) : ∃ e, maxExtent g m = .ok e ∧ ∀ i p, NodeDrawn g i p →
      e.west ≤ p.1 ∧ p.1 ≤ e.east ∧ e.south ≤ p.2 ∧ p.2 ≤ e.north := by
  obtain ⟨e, w, w', s, n, he, _, _, _, _, hall, h1, h2, h3, h4⟩ := C141_extent g m hl hn
  refine ⟨e, he, fun i p hp => ?_⟩
  obtain ⟨a, b, c, d⟩ := hall i p hp
  have h5 : 0 ≤ (w' - w) * m := mul_nonneg (by linarith) hm
  have h6 : 0 ≤ (n - s) * m := mul_nonneg (by linarith) hm
  rw [h1, h2, h3, h4]
  refine ⟨?_, ?_, ?_, ?_⟩ <;> linarith

/-- C141: a grid without nodes has no extent. -/
theorem C141_empty (g : PGrid K) (m : K) (hn : g.lons = []) : maxExtent g m = .error .valueError := by
  simp [maxExtent, hn, least]

example : let g : PGrid ℚ := ⟨[179, 181, 180, 182], [0, 0, 1, 1], none, none, none⟩
    (maxExtent g 0).map (fun e => (e.west, e.east, e.south, e.north)) = .ok (-179, 180, 0, 1) := by
  decide +kernel

/-! ## C142 -/

/-- A point is in a triangle, its sides included. -/
def InTriangleOf (a b c p : K × K) : Prop :=
  ∃ u v w : K, 0 ≤ u ∧ 0 ≤ v ∧ 0 ≤ w ∧ u + v + w = 1 ∧
    p.1 = u * a.1 + v * b.1 + w * c.1 ∧ p.2 = u * a.2 + v * b.2 + w * c.2

/-- The triangle with number `k` contains a point, in the coordinates of the grid. -/
def Covers (g : PGrid K) (ts : List (List Nat)) (k : Nat) (p : K × K) : Prop :=
  ∃ i j l xi xj xl yi yj yl, ts[k]? = some [i, j, l] ∧
    g.lons[i]? = some xi ∧ g.lons[j]? = some xj ∧ g.lons[l]? = some xl ∧
    g.lats[i]? = some yi ∧ g.lats[j]? = some yj ∧ g.lats[l]? = some yl ∧
    InTriangleOf (xi, yi) (xj, yj) (xl, yl) p

/-- The search for points is exact: it gives a triangle with the point, or -1 if there is none. -/
def ExactSearch (g : PGrid K) (ts : List (List Nat)) (locate : K × K → Int) : Prop :=
  ∀ p, (locate p = -1 ∧ ∀ k, ¬ Covers g ts k p) ∨ ∃ k : Nat, locate p = k ∧ Covers g ts k p

/-- A selection describes a triangle: number, nodes, and where they are drawn. -/
def DescribesFace (g : PGrid K) (ts : List (List Nat)) (k : Nat) (s : Sel K) : Prop :=
  s.nele = k ∧ ∃ t, ts[k]? = some t ∧ s.nodes = t.map (fun (n : Nat) => (n : Int)) ∧
    List.Forall₂ (fun n x => ∃ y, g.lons[n]? = some y ∧ DrawnAt y x) t s.lons ∧
    List.Forall₂ (fun n y => g.lats[n]? = some y) t s.lats

/-- C142 in full: a click where a point of the mesh is drawn selects a triangle that contains it. -/
def C142_statement : Prop :=
  ∀ (g : PGrid ℚ) (ts : List (List Nat)) (locate : ℚ × ℚ → Int), Triangular g ts →
    ExactSearch g ts locate → ∀ (p : ℚ × ℚ) (x : ℚ), (∃ k, Covers g ts k p) → DrawnAt p.1 x →
    ∃ s k, query locate g (x, p.2) = .ok (some s) ∧ Covers g ts k p ∧ DescribesFace g ts k s

private noncomputable def classicalSearch (g : PGrid K) (ts : List (List Nat)) (p : K × K) : Int :=
  open Classical in if h : ∃ k, Covers g ts k p then ((Classical.choose h : Nat) : Int) else -1

private theorem classicalSearch_exact (g : PGrid K) (ts : List (List Nat)) :
    ExactSearch g ts (classicalSearch g ts) := by
  intro p
  by_cases h : ∃ k, Covers g ts k p
  · exact Or.inr ⟨_, by simp only [classicalSearch, dif_pos h], Classical.choose_spec h⟩
  · exact Or.inl ⟨by simp only [classicalSearch, dif_neg h], fun k hk => h ⟨k, hk⟩⟩

private def wide : PGrid ℚ := ⟨[-100, 200, 0], [0, 0, 10], some [[0, 1, 2]], none, none⟩

private theorem wide_covers (p : ℚ × ℚ) (k : Nat) (h : Covers wide [[0, 1, 2]] k p) : -100 ≤ p.1 := by
  obtain ⟨i, j, l, xi, xj, xl, yi, yj, yl, ht, h1, h2, h3, _, _, _, u, v, w, hu, hv, hw, hs, hx, _⟩ := h
  have hk : k = 0 := by
    by_contra hc
    rw [List.getElem?_eq_none (by simp; omega)] at ht
    cases ht
  subst hk
  simp only [List.getElem?_cons_zero, Option.some.injEq, List.cons.injEq, and_true] at ht
  obtain ⟨rfl, rfl, rfl⟩ := ht
  simp [wide] at h1 h2 h3
  subst h1 h2 h3
  simp only at hx
  linarith

/-- C142 fails for a grid that goes from west of 0 to east of 180: the map draws its eastern part in
the west, but the search goes on in the coordinates of the map. -/
theorem C142_refuted : ¬ C142_statement := by
  intro h
  obtain ⟨s, k, hq, _⟩ := h wide [[0, 1, 2]] (classicalSearch wide [[0, 1, 2]]) ⟨rfl, rfl, by simp, by simp [wide]⟩
    (classicalSearch_exact _ _) (200, 0) (-160)
    ⟨0, 0, 1, 2, -100, 200, 0, 0, 0, 10, rfl, rfl, rfl, rfl, rfl, rfl, rfl, 0, 1, 0, by norm_num, by norm_num,
      by norm_num, by norm_num, by norm_num, by norm_num⟩ (Or.inr ⟨by norm_num, by norm_num⟩)
  have hl : classicalSearch wide [[0, 1, 2]] (-160, 0) = -1 := by
    rcases classicalSearch_exact wide [[0, 1, 2]] (-160, 0) with ⟨h, _⟩ | ⟨k, _, hk⟩
    · exact h
    · have := wide_covers _ _ hk
      norm_num at this
  have hlow : least wide.lons = .ok (-100) := by decide +kernel
  have hs : searchLon (-100 : ℚ) (-160) = -160 := by norm_num [searchLon]
  unfold query at hq
  simp only [hlow, hs, hl, if_true] at hq
  simp [wide] at hq

theorem covers_range (g : PGrid K) (ts : List (List Nat)) (k : Nat) (p : K × K) (h : Covers g ts k p)
    (lo hi : K) (hlo : ∀ x ∈ g.lons, lo ≤ x) (hhi : ∀ x ∈ g.lons, x ≤ hi) : lo ≤ p.1 ∧ p.1 ≤ hi := by
  obtain ⟨i, j, l, xi, xj, xl, yi, yj, yl, _, h1, h2, h3, _, _, _, u, v, w, hu, hv, hw, hs, hx, _⟩ := h
  simp only at hx
  have a1 := List.mem_of_getElem? h1
  have a2 := List.mem_of_getElem? h2
  have a3 := List.mem_of_getElem? h3
  constructor
  · have b1 := mul_le_mul_of_nonneg_left (hlo _ a1) hu
    have b2 := mul_le_mul_of_nonneg_left (hlo _ a2) hv
    have b3 := mul_le_mul_of_nonneg_left (hlo _ a3) hw
    have : lo = u * lo + v * lo + w * lo := by rw [← add_mul, ← add_mul, hs, one_mul]
    linarith
  · have b1 := mul_le_mul_of_nonneg_left (hhi _ a1) hu
    have b2 := mul_le_mul_of_nonneg_left (hhi _ a2) hv
    have b3 := mul_le_mul_of_nonneg_left (hhi _ a3) hw
    have : hi = u * hi + v * hi + w * hi := by rw [← add_mul, ← add_mul, hs, one_mul]
    linarith

theorem query_face (locate : K × K → Int) (g : PGrid K) (ts : List (List Nat)) (ht : Triangular g ts)
    (low : K) (hlow : least g.lons = .ok low) (click : K × K) (k : Nat) (t : List Nat)
    (hk : locate (searchLon low click.1, click.2) = k) (htk : ts[k]? = some t) :
    ∃ s, query locate g click = .ok (some s) ∧ DescribesFace g ts k s ∧ s.click = click := by
  have hf : triangleFaces g = .ok (asFaces ts) := by simp [triangleFaces, ht.faces]
  have hmem := List.mem_of_getElem? htk
  obtain ⟨xs, hx1, hx2⟩ := mapE_forall (Np.pyGet g.lons) (fun n x => g.lons[n.toNat]? = some x)
    (t.map fun (n : Nat) => (n : Int)) (by
      intro a ha
      obtain ⟨n, hn, rfl⟩ := List.mem_map.mp ha
      have := ht.nodes t hmem n hn
      exact ⟨g.lons[n], Np.pyGet_nonneg (by simp), by simp⟩)
  obtain ⟨ys, hy1, hy2⟩ := mapE_forall (Np.pyGet g.lats) (fun n x => g.lats[n.toNat]? = some x)
    (t.map fun (n : Nat) => (n : Int)) (by
      intro a ha
      obtain ⟨n, hn, rfl⟩ := List.mem_map.mp ha
      have := ht.nodes t hmem n hn
      rw [← ht.lats] at this
      exact ⟨g.lats[n], Np.pyGet_nonneg (by simp), by simp⟩)
  have hface : Np.pyGet (asFaces ts) (k : Int) = .ok (t.map fun (n : Nat) => (n : Int)) :=
    Np.pyGet_nonneg (by simp [asFaces, htk])
  refine ⟨⟨k, t.map (fun (n : Nat) => (n : Int)), xs.map shown, ys, click⟩, ?_, ⟨rfl, t, htk, rfl, ?_, ?_⟩, rfl⟩
  · unfold query
    simp only [hlow, hk]
    rw [if_neg (by omega)]
    simp only [hf, hface, hx1, hy1]
  · rw [List.forall₂_map_right_iff]
    rw [List.forall₂_map_left_iff] at hx2
    exact hx2.imp fun n x h => ⟨x, by simpa using h, shown_drawn x⟩
  · rw [List.forall₂_map_left_iff] at hy2
    exact hy2.imp fun n x h => by simpa using h

/-- C142 for grids in the range of 0 to 360, and for grids that do not go beyond 180. Missing: grids
on both sides, and the meridian of 360 itself (`C142_refuted`). -/
theorem C142_partial (g : PGrid K) (ts : List (List Nat)) (locate : K × K → Int) (ht : Triangular g ts)
    (hs : ExactSearch g ts locate)
    (hr : (∀ x ∈ g.lons, 0 ≤ x ∧ x < 360) ∨ ∀ x ∈ g.lons, x ≤ 180)
    (p : K × K) (x : K) (hp : ∃ k, Covers g ts k p) (hx : DrawnAt p.1 x) :
    ∃ s k, query locate g (x, p.2) = .ok (some s) ∧ Covers g ts k p ∧ DescribesFace g ts k s := by
  obtain ⟨k0, hk0⟩ := hp
  have hne : g.lons ≠ [] := by
    obtain ⟨i, j, l, xi, xj, xl, yi, yj, yl, _, h1, _⟩ := hk0
    exact List.ne_nil_of_mem (List.mem_of_getElem? h1)
  obtain ⟨low, hlow, hlm, hle⟩ := least_spec g.lons hne
  obtain ⟨high, _, hhm, hhe⟩ := greatest_spec g.lons hne
  obtain ⟨r1, r2⟩ := covers_range g ts k0 p hk0 low high hle hhe
  have hsl : searchLon low x = p.1 := by
    unfold searchLon
    rcases hr with hr | hr
    · have hl0 := (hr low hlm).1
      have hh0 := (hr high hhm).2
      rcases hx with ⟨h, rfl⟩ | ⟨h, rfl⟩
      · rw [if_neg]
        rintro ⟨_, h'⟩
        linarith
      · rw [if_pos ⟨hl0, by linarith⟩]
        ring
    · have := hr high hhm
      rcases hx with ⟨h, rfl⟩ | ⟨h, rfl⟩
      · rw [if_neg]
        rintro ⟨h1, h'⟩
        linarith
      · exact absurd h (not_lt.mpr (le_trans r2 this))
  rcases hs p with ⟨_, hno⟩ | ⟨k, hk, hc⟩
  · exact absurd hk0 (hno k0)
  · obtain ⟨i, j, l, _, _, _, _, _, _, htk, _⟩ := id hc
    obtain ⟨s, h1, h2, _⟩ := query_face locate g ts ht low hlow (x, p.2) k [i, j, l]
      (by simpa only [hsl] using hk) htk
    exact ⟨s, k, h1, hc, h2⟩

/-- C142: a selection is always a triangle that contains the click or the place 360 degrees east of
it; clicks outside select nothing. For grids without centres, as unstructured grids are. -/
theorem C142_sound (g : PGrid K) (ts : List (List Nat)) (locate : K × K → Int) (ht : Triangular g ts)
    (hs : ExactSearch g ts locate) (hn : g.lons ≠ []) (hc : g.centers = none) (click : K × K) :
    ∃ r, query locate g click = .ok r ∧ ∀ s, r = some s → ∃ k, DescribesFace g ts k s ∧ s.click = click ∧
      (Covers g ts k click ∨ Covers g ts k (click.1 + 360, click.2)) := by
  obtain ⟨low, hlow, _, _⟩ := least_spec g.lons hn
  rcases hs (searchLon low click.1, click.2) with ⟨h, _⟩ | ⟨k, hk, hcv⟩
  · refine ⟨none, ?_, by simp⟩
    unfold query
    simp only [hlow, h, if_true, hc]
  · obtain ⟨i, j, l, _, _, _, _, _, _, htk, _⟩ := id hcv
    obtain ⟨s, h1, h2, h3⟩ := query_face locate g ts ht low hlow click k [i, j, l] hk htk
    refine ⟨some s, h1, fun s' he => ?_⟩
    cases he
    refine ⟨k, h2, h3, ?_⟩
    unfold searchLon at hcv
    split_ifs at hcv
    · exact Or.inr hcv
    · exact Or.inl hcv

theorem argminFrom_spec (l : List K) : ∀ (pre : List K) (best : K) (bi : Nat), pre[bi]? = some best →
    (∀ x ∈ pre, best ≤ x) → ∃ b, (pre ++ l)[argminFrom best bi pre.length l]? = some b ∧
      ∀ x ∈ pre ++ l, b ≤ x := by
  induction l with
  | nil =>
    intro pre best bi hb hle
    exact ⟨best, by simpa [argminFrom] using hb, by simpa using hle⟩
  | cons a l ih =>
    intro pre best bi hb hle
    unfold argminFrom
    split_ifs with h
    · obtain ⟨b, h1, h2⟩ := ih (pre ++ [a]) a pre.length (by simp) (by
        intro x hx
        rcases List.mem_append.mp hx with hx | hx
        · exact le_trans (le_of_lt h) (hle x hx)
        · rw [List.mem_singleton.mp hx])
      exact ⟨b, by simpa using h1, by simpa using h2⟩
    · have hbi : bi < pre.length := (List.getElem?_eq_some_iff.mp hb).1
      obtain ⟨b, h1, h2⟩ := ih (pre ++ [a]) best bi (by rw [List.getElem?_append_left hbi]; exact hb) (by
        intro x hx
        rcases List.mem_append.mp hx with hx | hx
        · exact hle x hx
        · rw [List.mem_singleton.mp hx]; exact not_lt.mp h)
      exact ⟨b, by simpa using h1, by simpa using h2⟩

/-- C142: where a grid has centres, a click outside selects a triangle with the nearest centre, as far as
distances on the map go. -/
theorem C142_nearest (cx cy : List K) (hl : cy.length = cx.length) (hn : cx ≠ []) (click : K × K) :
    ∃ (k : Nat) (x y : K), nearest (cx, cy) click = .ok k ∧ cx[k]? = some x ∧ cy[k]? = some y ∧
      ∀ (i : Nat) (x' y' : K), cx[i]? = some x' → cy[i]? = some y' →
        (shown x - click.1) ^ 2 + (y - click.2) ^ 2 ≤ (shown x' - click.1) ^ 2 + (y' - click.2) ^ 2 := by
  have hd : ∀ d : List K, d ≠ [] → ∃ k b, argmin d = .ok k ∧ d[k]? = some b ∧ ∀ x ∈ d, b ≤ x := by
    intro d hd
    cases d with
    | nil => exact absurd rfl hd
    | cons a d =>
      obtain ⟨b, h1, h2⟩ := argminFrom_spec d [a] a 0 rfl (by simp)
      exact ⟨_, b, rfl, by simpa using h1, by simpa using h2⟩
  obtain ⟨k, b, h1, h2, h3⟩ := hd (List.zipWith (fun x y => (shown x - click.1) ^ 2 + (y - click.2) ^ 2) cx cy) (by
    cases cx with
    | nil => exact absurd rfl hn
    | cons a cx => cases cy with
      | nil => simp at hl
      | cons b cy => simp)
  rw [List.getElem?_zipWith] at h2
  rcases hx : cx[k]? with _ | x
  · rw [hx] at h2; simp at h2
  rcases hy : cy[k]? with _ | y
  · rw [hx, hy] at h2; simp at h2
  rw [hx, hy] at h2
  simp only [Option.some.injEq] at h2
  refine ⟨k, x, y, h1, hx, hy, fun i x' y' hx' hy' => ?_⟩
  rw [h2]
  apply h3
  apply List.mem_of_getElem? (i := i)
  rw [List.getElem?_zipWith, hx', hy']

/-- The hypotheses hold for a grid across the meridian of 180, stored from 0 to 360. -/
example : ∃ locate : ℚ × ℚ → Int, let g : PGrid ℚ := ⟨[179, 181, 180, 182], [0, 0, 1, 1], some [[0, 1, 2], [1, 3, 2]], none, none⟩
    Triangular g [[0, 1, 2], [1, 3, 2]] ∧ ExactSearch g [[0, 1, 2], [1, 3, 2]] locate ∧
      (∀ x ∈ g.lons, 0 ≤ x ∧ x < 360) ∧ ∃ k, Covers g [[0, 1, 2], [1, 3, 2]] k (181, 0) :=
  ⟨classicalSearch _ _, ⟨rfl, rfl, by simp, by simp⟩, classicalSearch_exact _ _, by norm_num,
    0, 0, 1, 2, 179, 181, 180, 0, 0, 1, rfl, rfl, rfl, rfl, rfl, rfl, rfl, 0, 1, 0, by norm_num, by norm_num,
      by norm_num, by norm_num, by norm_num, by norm_num⟩

/-! ## C143 -/

/-- What a click selects: only clicks with the first button on the axes do. -/
def selected (locate : K × K → Int) (g : PGrid K) (c : Click K) : Option (Sel K) :=
  if c.button = 1 then match c.place with
    | none => none
    | some p => match query locate g p with
      | .ok r => r
      | .error _ => none
  else none

/-- A row of the log describes a triangle: its number, each node with its place, and the centroid. -/
def RowOf (g : PGrid K) (ts : List (List Nat)) (s : Sel K) (r : Row K) : Prop :=
  ∃ (k i j l : Nat) (p q w : K × K), s.nele = k ∧ r.nele = k ∧ ts[k]? = some [i, j, l] ∧
    NodeDrawn g i p ∧ NodeDrawn g j q ∧ NodeDrawn g l w ∧
    r.nodes = [((i : Int), p), ((j : Int), q), ((l : Int), w)] ∧
    3 * r.center.1 = p.1 + q.1 + w.1 ∧ 3 * r.center.2 = p.2 + q.2 + w.2

omit [IsStrictOrderedRing K] in
theorem onClick_eq (locate : K × K → Int) (g : PGrid K) (v : View K) (c : Click K) :
    onClick locate g v c = match selected locate g c with
      | none => v
      | some s => (draw v s).1 := by
  obtain ⟨b, p⟩ := c
  unfold onClick selected
  by_cases hb : b = 1
  · subst hb
    rcases p with _ | p
    · rfl
    · simp only [if_true]
      rcases query locate g p with e | _ | s <;> rfl
  · simp only [hb, if_false]
    split
    · exact absurd rfl hb
    · rfl

/-- A selection of a triangle is drawn and logged. -/
theorem draw_ok (g : PGrid K) (ts : List (List Nat)) (ht : Triangular g ts) (k : Nat) (s : Sel K)
    (hs : DescribesFace g ts k s) (v : View K) :
    ∃ (i j l : Nat) (p q w m : K × K) (r : Row K), RowOf g ts s r ∧ NodeDrawn g i p ∧ NodeDrawn g j q ∧
      NodeDrawn g l w ∧ ts[k]? = some [i, j, l] ∧ 3 * m.1 = p.1 + q.1 + w.1 ∧ 3 * m.2 = p.2 + q.2 + w.2 ∧
      draw v s = ({ csv := v.csv ++ [r]
                    triangle := some (.triangle [p, q, w])
                    scatter := some (.nodes [p, q, w])
                    annotations := [.badge i p, .badge j q, .badge l w, .callout k s.click]
                    others := v.others ++ [.center m] }, .ok ()) := by
  obtain ⟨hn, t, htk, hnodes, hx, hy⟩ := hs
  obtain ⟨i, j, l, rfl⟩ := list3 t (ht.three t (List.mem_of_getElem? htk))
  obtain ⟨nele, nodes, lons, lats, click⟩ := s
  simp only at hn hnodes hx hy
  rcases hx with _ | ⟨⟨a, a1, a2⟩, hx⟩
  rcases hx with _ | ⟨⟨b, b1, b2⟩, hx⟩
  rcases hx with _ | ⟨⟨c, c1, c2⟩, hx⟩
  rcases hx
  rcases hy with _ | ⟨a3, hy⟩
  rcases hy with _ | ⟨b3, hy⟩
  rcases hy with _ | ⟨c3, hy⟩
  rcases hy
  rename_i x1 x2 x3 y1 y2 y3
  subst hn hnodes
  have h3 : ∀ a b c : K, 3 * mean [a, b, c] = a + b + c := by
    intro a b c
    simp only [mean, List.sum_cons, List.sum_nil, List.length_cons, List.length_nil]
    push_cast
    field_simp
    ring
  have n1 : NodeDrawn g i (x1, y1) := ⟨a, y1, a1, a3, a2, rfl⟩
  have n2 : NodeDrawn g j (x2, y2) := ⟨b, y2, b1, b3, b2, rfl⟩
  have n3 : NodeDrawn g l (x3, y3) := ⟨c, y3, c1, c3, c2, rfl⟩
  refine ⟨i, j, l, (x1, y1), (x2, y2), (x3, y3), (mean [x1, x2, x3], mean [y1, y2, y3]),
    ⟨k, (mean [x1, x2, x3], mean [y1, y2, y3]), [(i, (x1, y1)), (j, (x2, y2)), (l, (x3, y3))]⟩,
    ⟨k, i, j, l, _, _, _, rfl, rfl, htk, n1, n2, n3, rfl, h3 _ _ _, h3 _ _ _⟩, n1, n2, n3, htk,
    h3 _ _ _, h3 _ _ _, ?_⟩
  simp [draw]

theorem selected_describes (g : PGrid K) (ts : List (List Nat)) (locate : K × K → Int)
    (ht : Triangular g ts) (hs : ExactSearch g ts locate) (hn : g.lons ≠ []) (hc : g.centers = none)
    (c : Click K) (s : Sel K) (hsel : selected locate g c = some s) : ∃ k, DescribesFace g ts k s := by
  unfold selected at hsel
  split_ifs at hsel
  rcases hp : c.place with _ | p
  · rw [hp] at hsel; cases hsel
  · rw [hp] at hsel
    simp only at hsel
    obtain ⟨r, hr, hr'⟩ := C142_sound g ts locate ht hs hn hc p
    rw [hr] at hsel
    obtain ⟨k, hk, _⟩ := hr' s hsel
    exact ⟨k, hk⟩

/-- C143. After any clicks, the log has one row for each click that selected a triangle, in the order of
the clicks: the number of the triangle, its three nodes with their places, and their centroid. -/
theorem C143_log (g : PGrid K) (ts : List (List Nat)) (locate : K × K → Int) (ht : Triangular g ts)
    (hs : ExactSearch g ts locate) (hn : g.lons ≠ []) (hc : g.centers = none) (cs : List (Click K)) :
    List.Forall₂ (RowOf g ts) (cs.filterMap (selected locate g)) (session locate g cs).csv := by
  have key : ∀ (cs : List (Click K)) (v : View K), ∃ rows,
      (cs.foldl (onClick locate g) v).csv = v.csv ++ rows ∧
        List.Forall₂ (RowOf g ts) (cs.filterMap (selected locate g)) rows := by
    intro cs
    induction cs with
    | nil => exact fun v => ⟨[], by simp, .nil⟩
    | cons c cs ih =>
      intro v
      rw [List.foldl_cons, onClick_eq]
      rcases hsel : selected locate g c with _ | s
      · simp only
        rw [List.filterMap_cons_none hsel]
        exact ih v
      · simp only
        rw [List.filterMap_cons_some hsel]
        obtain ⟨k, hk⟩ := selected_describes g ts locate ht hs hn hc c s hsel
        obtain ⟨_, _, _, _, _, _, _, r, hrow, _, _, _, _, _, _, hdraw⟩ := draw_ok g ts ht k s hk v
        obtain ⟨rows, h1, h2⟩ := ih (draw v s).1
        refine ⟨r :: rows, ?_, .cons hrow h2⟩
        rw [h1, hdraw]
        simp
  obtain ⟨rows, h1, h2⟩ := key cs {}
  unfold session
  rw [h1]
  simpa using h2

/-! ## C144 -/

/-- Everything drawn besides the mesh. -/
def drawn (v : View K) : List (Artist K) :=
  v.triangle.toList ++ v.scatter.toList ++ v.annotations ++ v.others

/-- An artist shows a selection: its triangle, its nodes, its number, or its centroid. -/
def Shows (g : PGrid K) (ts : List (List Nat)) (s : Sel K) (a : Artist K) : Prop :=
  ∃ (k i j l : Nat) (p q w : K × K), s.nele = k ∧ ts[k]? = some [i, j, l] ∧
    NodeDrawn g i p ∧ NodeDrawn g j q ∧ NodeDrawn g l w ∧
    match a with
    | .triangle c => c = [p, q, w]
    | .nodes c => c = [p, q, w]
    | .badge n x => (n, x) = ((i : Int), p) ∨ (n, x) = ((j : Int), q) ∨ (n, x) = ((l : Int), w)
    | .callout n x => n = k ∧ x = s.click
    | .center x => 3 * x.1 = p.1 + q.1 + w.1 ∧ 3 * x.2 = p.2 + q.2 + w.2

/-- C144 in full: after any clicks, what is highlighted is the last selection and nothing else. -/
def C144_statement : Prop :=
  ∀ (g : PGrid ℚ) (ts : List (List Nat)) (locate : ℚ × ℚ → Int), Triangular g ts →
    ExactSearch g ts locate → g.lons ≠ [] → g.centers = none → ∀ (cs : List (Click ℚ)) (s : Sel ℚ),
    (cs.filterMap (selected locate g)).getLast? = some s →
    ∀ a ∈ drawn (session locate g cs), Shows g ts s a

/-- C144 for all artists but the centre markers: the triangle, its nodes, their numbers and the number
of the triangle are those of the last selection, and there are none before the first. Missing: the
centre markers (`C144_refuted`), which stay for all selections. -/
theorem C144_partial (g : PGrid K) (ts : List (List Nat)) (locate : K × K → Int) (ht : Triangular g ts)
    (hs : ExactSearch g ts locate) (hn : g.lons ≠ []) (hc : g.centers = none) (cs : List (Click K)) :
    (∀ s, (cs.filterMap (selected locate g)).getLast? = some s →
      (∀ a ∈ drawn (session locate g cs), a ∉ (session locate g cs).others → Shows g ts s a) ∧
      (session locate g cs).triangle.isSome ∧ (session locate g cs).scatter.isSome ∧
      (session locate g cs).annotations.length = 4) ∧
    ((cs.filterMap (selected locate g)).getLast? = none → drawn (session locate g cs) = []) ∧
    List.Forall₂ (fun s a => Shows g ts s a ∧ ∃ x, a = .center x) (cs.filterMap (selected locate g))
      (session locate g cs).others := by
  have key : ∀ (rev : List (Click K)),
      (∀ s, (rev.reverse.filterMap (selected locate g)).getLast? = some s →
        (∀ a ∈ drawn (session locate g rev.reverse), a ∉ (session locate g rev.reverse).others →
          Shows g ts s a) ∧
        (session locate g rev.reverse).triangle.isSome ∧ (session locate g rev.reverse).scatter.isSome ∧
        (session locate g rev.reverse).annotations.length = 4) ∧
      ((rev.reverse.filterMap (selected locate g)).getLast? = none →
        drawn (session locate g rev.reverse) = []) ∧
      List.Forall₂ (fun s a => Shows g ts s a ∧ ∃ x, a = .center x)
        (rev.reverse.filterMap (selected locate g)) (session locate g rev.reverse).others := by
    intro rev
    induction rev with
    | nil => exact ⟨by simp, fun _ => rfl, .nil⟩
    | cons c rev ih =>
      have hsess : session locate g (c :: rev).reverse =
          onClick locate g (session locate g rev.reverse) c := by
        simp [session]
      have hfil : (c :: rev).reverse.filterMap (selected locate g) =
          rev.reverse.filterMap (selected locate g) ++ (selected locate g c).toList := by
        rw [List.reverse_cons, List.filterMap_append]
        rcases h : selected locate g c <;> simp [h]
      rw [hsess, hfil, onClick_eq]
      rcases hsel : selected locate g c with _ | s
      · simpa using ih
      · obtain ⟨k, hk⟩ := selected_describes g ts locate ht hs hn hc c s hsel
        obtain ⟨i, j, l, p, q, w, m, r, _, n1, n2, n3, htk, m1, m2, hdraw⟩ :=
          draw_ok g ts ht k s hk (session locate g rev.reverse)
        simp only [hdraw]
        refine ⟨fun s' hs' => ⟨?_, by simp, by simp, by simp⟩, by simp, ?_⟩
        · have : s = s' := by simpa using hs'
          subst this
          intro a ha hno
          refine ⟨k, i, j, l, p, q, w, hk.1, htk, n1, n2, n3, ?_⟩
          simp only [drawn, Option.toList_some, List.mem_append, List.mem_cons, List.not_mem_nil,
            or_false] at ha hno
          rw [not_or] at hno
          rcases ha with ((rfl | rfl) | rfl | rfl | rfl | rfl) | ha | ha
          · rfl
          · rfl
          · exact Or.inl rfl
          · exact Or.inr (Or.inl rfl)
          · exact Or.inr (Or.inr rfl)
          · exact ⟨rfl, rfl⟩
          · exact absurd ha hno.1
          · exact absurd ha hno.2
        · refine List.rel_append ih.2.2 (.cons ⟨⟨k, i, j, l, p, q, w, hk.1, htk, n1, n2, n3, m1, m2⟩, m, rfl⟩ .nil)
  have := key cs.reverse
  rwa [List.reverse_reverse] at this

private def two : PGrid ℚ := ⟨[0, 1, 1, 5, 6, 6], [0, 0, 1, 5, 5, 6], some [[0, 1, 2], [3, 4, 5]], none, none⟩

private theorem two_tri : Triangular two [[0, 1, 2], [3, 4, 5]] := ⟨rfl, rfl, by simp, by simp [two]⟩

/-- The hypotheses of C143 and C144 hold for a grid of two triangles. -/
example : Triangular two [[0, 1, 2], [3, 4, 5]] ∧
    (∃ locate, ExactSearch two [[0, 1, 2], [3, 4, 5]] locate) ∧ two.lons ≠ [] ∧ two.centers = none :=
  ⟨two_tri, ⟨_, classicalSearch_exact _ _⟩, by simp [two], rfl⟩

private theorem two_covers (p : ℚ × ℚ) (k : Nat) (h : Covers two [[0, 1, 2], [3, 4, 5]] k p) :
    (k = 0 ∧ p.1 ≤ 1) ∨ (k = 1 ∧ 5 ≤ p.1) := by
  obtain ⟨i, j, l, xi, xj, xl, yi, yj, yl, ht, h1, h2, h3, _, _, _, u, v, w, hu, hv, hw, hs, hx, _⟩ := h
  have hk : k < 2 := by
    by_contra hc
    rw [List.getElem?_eq_none (by simp; omega)] at ht
    cases ht
  interval_cases k
  · left
    simp only [List.getElem?_cons_zero, Option.some.injEq, List.cons.injEq, and_true] at ht
    obtain ⟨rfl, rfl, rfl⟩ := ht
    simp [two] at h1 h2 h3
    subst h1 h2 h3
    simp only at hx
    exact ⟨rfl, by linarith⟩
  · right
    simp only [List.getElem?_cons_zero, List.getElem?_cons_succ, Option.some.injEq, List.cons.injEq, and_true] at ht
    obtain ⟨rfl, rfl, rfl⟩ := ht
    simp [two] at h1 h2 h3
    subst h1 h2 h3
    simp only at hx
    exact ⟨rfl, by linarith⟩

private theorem two_select (x : ℚ) (k : Nat)
    (hc : Covers two [[0, 1, 2], [3, 4, 5]] k (x, x)) :
    ∃ s, selected (classicalSearch two [[0, 1, 2], [3, 4, 5]]) two ⟨1, some (x, x)⟩ = some s ∧
      DescribesFace two [[0, 1, 2], [3, 4, 5]] k s := by
  obtain ⟨s, k', hq, hk', hd⟩ := C142_partial two [[0, 1, 2], [3, 4, 5]] _ two_tri
    (classicalSearch_exact _ _) (Or.inr (by simp [two]; norm_num)) (x, x) x ⟨k, hc⟩
    (Or.inl ⟨by rcases two_covers _ _ hc with ⟨_, h⟩ | ⟨_, h⟩
                · simp only at h; linarith
                · have := (covers_range two _ k (x, x) hc 0 6 (by simp [two]) (by simp [two]; norm_num)).2
                  simp only at this; linarith, rfl⟩)
  have hkk : k' = k := by
    have a := two_covers _ _ hc
    have b := two_covers _ _ hk'
    rcases a with ⟨rfl, h⟩ | ⟨rfl, h⟩ <;> rcases b with ⟨rfl, h'⟩ | ⟨rfl, h'⟩ <;> first | rfl | (simp only at h h'; linarith)
  subst hkk
  exact ⟨s, by simp [selected, hq], hd⟩

/-- C144 fails for the marker at the centre: it stays when another triangle is selected. -/
theorem C144_refuted : ¬ C144_statement := by
  intro h
  have c0 : Covers two [[0, 1, 2], [3, 4, 5]] 0 (0, 0) :=
    ⟨0, 1, 2, 0, 1, 1, 0, 0, 1, rfl, rfl, rfl, rfl, rfl, rfl, rfl, 1, 0, 0, by norm_num, by norm_num, by norm_num, by norm_num, by norm_num, by norm_num⟩
  have c1 : Covers two [[0, 1, 2], [3, 4, 5]] 1 (5, 5) :=
    ⟨3, 4, 5, 5, 6, 6, 5, 5, 6, rfl, rfl, rfl, rfl, rfl, rfl, rfl, 1, 0, 0, by norm_num, by norm_num, by norm_num, by norm_num, by norm_num, by norm_num⟩
  obtain ⟨s0, hs0, hd0⟩ := two_select 0 0 c0
  obtain ⟨s1, hs1, hd1⟩ := two_select 5 1 c1
  let cs : List (Click ℚ) := [⟨1, some (0, 0)⟩, ⟨1, some (5, 5)⟩]
  have hf : cs.filterMap (selected (classicalSearch two [[0, 1, 2], [3, 4, 5]]) two) = [s0, s1] := by
    simp [cs, List.filterMap_cons, hs0, hs1]
  obtain ⟨_, _, hm⟩ := C144_partial two _ _ two_tri (classicalSearch_exact _ _) (by simp [two]) rfl cs
  rw [hf] at hm
  have h' := h two _ _ two_tri (classicalSearch_exact _ _) (by simp [two]) rfl cs s1 (by rw [hf]; rfl)
  obtain ⟨a, rest, ⟨hsa, x, rfl⟩, _, ho⟩ := List.forall₂_cons_left_iff.mp hm
  have hin : Artist.center x ∈ drawn (session (classicalSearch two [[0, 1, 2], [3, 4, 5]]) two cs) := by
    unfold drawn
    rw [ho]
    simp
  obtain ⟨k, i, j, l, p, q, w, hk, htk, n1, n2, n3, m1, _⟩ := hsa
  obtain ⟨k', i', j', l', p', q', w', hk', htk', n1', n2', n3', m1', _⟩ := h' _ hin
  have e0 : k = 0 := by have := hd0.1; rw [hk] at this; exact_mod_cast this
  have e1 : k' = 1 := by have := hd1.1; rw [hk'] at this; exact_mod_cast this
  subst e0 e1
  simp only [List.getElem?_cons_zero, List.getElem?_cons_succ, Option.some.injEq, List.cons.injEq, and_true] at htk htk'
  obtain ⟨rfl, rfl, rfl⟩ := htk
  obtain ⟨rfl, rfl, rfl⟩ := htk'
  have val : ∀ (n : Nat) (z : ℚ) (r : ℚ × ℚ), two.lons[n]? = some z → z ≤ 180 → NodeDrawn two n r → r.1 = z := by
    rintro n z r hz hle ⟨y, _, hy, _, hd, _⟩
    rw [hz] at hy
    cases hy
    rcases hd with ⟨_, h⟩ | ⟨h, _⟩
    · exact h
    · linarith
  rw [val 0 0 p rfl (by norm_num) n1, val 1 1 q rfl (by norm_num) n2, val 2 1 w rfl (by norm_num) n3] at m1
  rw [val 3 5 p' rfl (by norm_num) n1', val 4 6 q' rfl (by norm_num) n2', val 5 6 w' rfl (by norm_num) n3'] at m1'
  rw [m1] at m1'
  norm_num at m1'

/-! ## C145 -/

/-- C145 in full: the triangulation drawn for a grid of triangles is that of the grid. -/
def C145_statement : Prop :=
  ∀ faces : List (List Int), faces ≠ [] → (∀ f ∈ faces, f.length = 3) → ugridTriangles faces = .ok faces

/-- C145 fails for three triangles: other triangles are drawn. -/
theorem C145_refuted : ¬ C145_statement := by
  intro h
  have := h [[0, 1, 2], [1, 3, 2], [2, 3, 4]] (by simp) (by simp)
  have h2 : ugridTriangles [[0, 1, 2], [1, 3, 2], [2, 3, 4]] = .ok [[0, 1, 2], [1, 3, 3], [2, 2, 4]] := rfl
  rw [h2] at this
  simp at this

omit [Field K] [LinearOrder K] [IsStrictOrderedRing K] in
/-- C145 for any other number of triangles. Missing: three triangles (`C145_refuted`). -/
theorem C145_partial (faces : List (List Int)) (hn : faces ≠ []) (h3 : ∀ f ∈ faces, f.length = 3)
    (hl : faces.length ≠ 3) : ugridTriangles faces = .ok faces := by
  unfold ugridTriangles
  simp only [if_neg hl]
  rw [if_pos]
  cases faces with
  | nil => exact absurd rfl hn
  | cons f fs => exact h3 f (List.mem_cons_self ..)

omit [Field K] [LinearOrder K] [IsStrictOrderedRing K] in
/-- C145: the boundaries drawn join the nodes of the boundary segments, in order. -/
theorem C145_boundaries (lons lats : List K) (bs : List (Nat × Nat)) (hl : lats.length = lons.length)
    (hb : ∀ b ∈ bs, b.1 < lons.length ∧ b.2 < lons.length) :
    ∃ lines, boundaryLines lons lats (bs.map fun b => ((b.1 : Int), (b.2 : Int))) = .ok lines ∧
      List.Forall₂ (fun b l => lons[b.1]? = some l.1.1 ∧ lats[b.1]? = some l.1.2 ∧
        lons[b.2]? = some l.2.1 ∧ lats[b.2]? = some l.2.2) bs lines := by
  obtain ⟨lines, h1, h2⟩ := mapE_forall
    (fun b : Int × Int => match Np.pyGet lons b.1, Np.pyGet lats b.1, Np.pyGet lons b.2, Np.pyGet lats b.2 with
      | .ok x, .ok y, .ok z, .ok w => Except.ok ((x, y), (z, w))
      | _, _, _, _ => .error .indexError)
    (fun b l => lons[b.1.toNat]? = some l.1.1 ∧ lats[b.1.toNat]? = some l.1.2 ∧
        lons[b.2.toNat]? = some l.2.1 ∧ lats[b.2.toNat]? = some l.2.2)
    (bs.map fun b => ((b.1 : Int), (b.2 : Int))) (by
      intro b hbm
      obtain ⟨⟨i, j⟩, hij, rfl⟩ := List.mem_map.mp hbm
      obtain ⟨hi, hj⟩ := hb _ hij
      simp only at hi hj
      have hi' : i < lats.length := hl ▸ hi
      have hj' : j < lats.length := hl ▸ hj
      refine ⟨((lons[i], lats[i]), (lons[j], lats[j])), ?_, by simp, by simp, by simp, by simp⟩
      simp only
      rw [Np.pyGet_nonneg (show lons[i]? = some lons[i] by simp),
        Np.pyGet_nonneg (show lats[i]? = some lats[i] by simp),
        Np.pyGet_nonneg (show lons[j]? = some lons[j] by simp),
        Np.pyGet_nonneg (show lats[j]? = some lats[j] by simp)])
  refine ⟨lines, h1, ?_⟩
  rw [List.forall₂_map_left_iff] at h2
  exact h2.imp fun b l h => by simpa using h

example : ugridTriangles [[0, 1, 2], [1, 3, 2]] = .ok [[0, 1, 2], [1, 3, 2]] :=
  C145_partial _ (by simp) (by simp) (by simp)

/-! ## C146 -/

/-- The segments of a line through points. -/
def segments {α : Type} (l : List α) : List (α × α) := l.zip l.tail

theorem segments_range {α : Type} (n : Nat) (f : Nat → α) :
    segments ((List.range n).map f) = (List.range (n - 1)).map fun i => (f i, f (i + 1)) := by
  apply List.ext_getElem
  · simp [segments]
  · intro i h1 h2
    simp [segments]

omit [Field K] [LinearOrder K] [IsStrictOrderedRing K] in
/-- C146. The lines drawn for a structured grid run along each edge between neighbouring nodes, once,
and along nothing else: first the edges within rows, then those within columns. -/
theorem C146_edges (rows cols : Nat) (node : Nat → Nat → K × K) :
    (sgridLines rows cols node).flatMap segments =
      ((List.range rows).flatMap fun i => (List.range (cols - 1)).map fun j => (node i j, node i (j + 1))) ++
      ((List.range cols).flatMap fun j => (List.range (rows - 1)).map fun i => (node i j, node (i + 1) j)) := by
  unfold sgridLines
  rw [List.flatMap_append, List.flatMap_map, List.flatMap_map]
  simp only [segments_range]

example : ((sgridLines 2 3 fun i j => ((j : ℚ), (i : ℚ))).flatMap segments).length = 7 := by
  decide +kernel

end

end Verif
