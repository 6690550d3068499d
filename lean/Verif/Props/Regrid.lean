import Verif.Model.Regrid
import Verif.Lemmas.At

/-!
# Interpolating a variable to another grid: C122, C123
-/

set_option autoImplicit false

namespace Verif
open Verif.Regrid Verif.DepthM Verif.At

/-! ## C122 -/

section C122
variable {K P : Type}

/-- The numbers of the second row, without its masks. -/
def NumbersOf (row src : List (Cell K)) : Prop :=
  row.length = src.length ∧ ∀ (n : Nat) (c : Cell K), src[n]? = some c →
    ∃ r, row[n]? = some r ∧ r.value = c.value ∧ r.masked = false

/-- What the source variable gives at all the points. -/
def AtTime (v : Source K P) (pts : List (P × Option K)) (t : Option Int) (src : List (Cell K)) :
    Prop := v.eval pts t = .ok src

/-- New data that agree with the source at the given points, in the sense of `R` for each row: one row
without times; else one for each time; with sigma depth one for each time and level, at the depth that
level has at the point and time. -/
def AgreesWith (R : List (Cell K) → List (Cell K) → Prop) (zero : K) (v : Source K P) (pts : List P) :
    NewData K → Prop
  | .flat d => v.times = none ∧
      ∃ src, AtTime v (pts.map fun p => (p, some zero)) none src ∧ R d src
  | .times d => ∃ ts, v.times = some ts ∧ d.length = ts.length ∧
      ∀ (i : Nat) (t : Int) (row : List (Cell K)), ts[i]? = some t → d[i]? = some row →
        ∃ src, AtTime v (pts.map fun p => (p, some zero)) (some t) src ∧ R row src
  | .timesLevels d => ∃ ts n z, v.times = some ts ∧ v.depth = .sigma n z ∧ d.length = ts.length ∧
      ∀ (i k : Nat) (t : Int) (slab : List (List (Cell K))) (row : List (Cell K)),
        ts[i]? = some t → d[i]? = some slab → slab[k]? = some row →
        slab.length = n ∧
        ∃ src, AtTime v (pts.map fun p => (p, (z k t p).value)) (some t) src ∧ R row src

/-- C122 as stated: the new data are the values of the source at the nodes, masks included, for every
time and every level. -/
def C122_statement : Prop :=
  ∀ (g : Dest Nat) (v : Source ℚ Nat) (rd : Except Err Unit) (out : NewData ℚ), g.kind = .s →
    regrid 0 g v rd "node" = .ok out →
    AgreesWith (fun row src => row = src) 0 v g.nodes out ∧
      (∀ n z, v.depth = .sigma n z → 1 < n → ∃ d, out = .timesLevels d)

/-- C122 fails: nodes outside the source grid are not masked in the new variable when there are
times. -/
theorem C122_refuted : ¬ C122_statement := by
  intro h
  obtain ⟨⟨ts, h1, h2, h3⟩, -⟩ := h ⟨.s, [0], 1, [], none, []⟩
    ⟨.s, some [0], .none, fun ps _ => .ok (ps.map fun _ => ⟨none, true⟩)⟩ (.ok ())
    (.times [[⟨none, false⟩]]) rfl rfl
  cases h1
  obtain ⟨src, h4, h5⟩ := h3 0 0 _ rfl rfl
  unfold AtTime at h4
  simp only [List.map_cons, List.map_nil] at h4
  cases h4
  revert h5
  decide

/-- C122 fails without times: only one level is kept. -/
theorem C122_refuted_levels : ¬ C122_statement := by
  intro h
  obtain ⟨d, hd⟩ := (h ⟨.s, [0], 1, [], none, []⟩
    ⟨.s, none, .sigma 2 (fun k _ _ => ⟨some (10 * k), false⟩),
      fun ps _ => .ok (ps.map fun _ => ⟨some 3, false⟩)⟩ (.ok ())
    (.flat [⟨some 3, false⟩]) rfl rfl).2 2 _ rfl (by decide)
  cases hd

theorem evalAt_len {g : Dest P} {v : Source K P} {pts : List (P × Option K)} {t : Option Int}
    {d : List (Cell K)} (h : evalAt g v pts t = .ok d) :
    v.eval pts t = .ok d ∧ d.length = g.nodeCount := by
  unfold evalAt reshaped at h
  split at h
  · cases h
  · rename_i d' e
    split_ifs at h with hl
    cases h
    exact ⟨e, hl⟩

private theorem rowAt_ok {g : Dest P} {v : Source K P} {pts : List (P × Option K)} {t : Int}
    {r : List (Cell K)} (h : rowAt g v pts t = .ok r) :
    ∃ d, evalAt g v pts (some t) = .ok d ∧ r = d.map plain := by
  unfold rowAt at h
  split at h
  · cases h
  · rename_i d e
    cases h
    exact ⟨d, e, rfl⟩

private theorem numbersOf_plain (d : List (Cell K)) : NumbersOf (d.map plain) d := by
  refine ⟨by simp, ?_⟩
  intro n c hc
  exact ⟨plain c, by simp [hc], rfl, rfl⟩

/-- C122. Every number of the new variable is the one the source gives at that node, time and level.
Missing: the masks, and the levels when there are no times; see the refutations. -/
theorem C122_values_partial (zero : K) (g : Dest P) (v : Source K P) (rd : Except Err Unit)
    (out : NewData K) (hg : g.kind = .s) (h : regrid zero g v rd "node" = .ok out) :
    AgreesWith NumbersOf zero v g.nodes out ∨
      ∃ d, out = .flat d ∧ v.times = none ∧
        AtTime v (g.nodes.map fun p => (p, some zero)) none d := by
  unfold regrid at h
  simp only [destPoints, if_true, hg] at h
  split at h
  · cases h
  · split at h
    · cases h
    · simp only [true_or, if_true] at h
      have hfill : fill zero g v g.nodes = .ok out := by
        split at h
        · cases h
        · exact h
      clear h
      unfold fill at hfill
      split at hfill
      · rename_i ht
        split at hfill
        · cases hfill
        · rename_i d e
          cases hfill
          exact Or.inr ⟨d, rfl, ht, (evalAt_len e).1⟩
      · rename_i ts ht
        left
        split at hfill
        · rename_i n z hd
          split at hfill
          · cases hfill
          · rename_i d e
            cases hfill
            obtain ⟨f, hf, rfl⟩ := mapE_inv e
            refine ⟨ts, n, z, ht, hd, by simp, ?_⟩
            intro i k t slab row hi hs hr
            rw [List.getElem?_map, hi] at hs
            cases hs
            have hft := hf t (List.mem_of_getElem? hi)
            obtain ⟨f', hf', e'⟩ := mapE_inv hft
            rw [e'] at hr ⊢
            refine ⟨by simp, ?_⟩
            rw [List.getElem?_map] at hr
            cases hk : (List.range n)[k]? with
            | none => rw [hk] at hr; cases hr
            | some k' =>
              rw [hk] at hr
              simp only [Option.map_some, Option.some.injEq] at hr
              have hk' : k' = k := by
                rw [List.getElem?_eq_some_iff] at hk
                obtain ⟨h1, h2⟩ := hk
                simpa using h2.symm
              subst hk'
              have hfk := hf' k' (List.mem_of_getElem? hk)
              obtain ⟨d, e2, e3⟩ := rowAt_ok hfk
              rw [← hr, e3]
              exact ⟨d, (evalAt_len e2).1, numbersOf_plain d⟩
        · split at hfill
          · cases hfill
          · rename_i d e
            cases hfill
            obtain ⟨f, hf, rfl⟩ := mapE_inv e
            refine ⟨ts, ht, by simp, ?_⟩
            intro i t row hi hr
            rw [List.getElem?_map, hi] at hr
            cases hr
            have hft := hf t (List.mem_of_getElem? hi)
            obtain ⟨d, e2, e3⟩ := rowAt_ok hft
            rw [e3]
            exact ⟨d, (evalAt_len e2).1, numbersOf_plain d⟩

/-- C122 without times and levels: the new data are exactly what the source gives, masks included. -/
theorem C122_flat (zero : K) (g : Dest P) (v : Source K P) (rd : Except Err Unit) (src : List (Cell K))
    (hg : g.kind = .s) (hv : v.kind = .s) (ht : v.times = none) (hd : v.depth = .none)
    (hs : AtTime v (g.nodes.map fun p => (p, some zero)) none src) (hl : src.length = g.nodeCount) :
    regrid zero g v rd "node" = .ok (.flat src) := by
  unfold AtTime at hs
  unfold regrid
  simp only [destPoints, if_true, hv, locate, hd, hg, true_or, fill, ht, evalAt, hs, reshaped, hl]

/-- C122 on the variable's own grid: a variable over times that reproduces its data at its own nodes is
returned with the same data. -/
theorem C122_own_grid (zero : K) (g : Dest P) (v : Source K P) (rd : Except Err Unit)
    (ts : List Int) (data : List (List (Cell K))) (hg : g.kind = .s) (hv : v.kind = .s)
    (ht : v.times = some ts) (hd : v.depth = .none) (hlen : data.length = ts.length)
    (hdata : ∀ (i : Nat) (t : Int) (row : List (Cell K)), ts[i]? = some t → data[i]? = some row →
      AtTime v (g.nodes.map fun p => (p, some zero)) (some t) row ∧ row.length = g.nodeCount ∧
        ∀ c ∈ row, c.masked = false) :
    regrid zero g v rd "node" = .ok (.times data) := by
  unfold regrid
  simp only [destPoints, if_true, hv, locate, hd, hg, true_or, fill, ht]
  have : mapE (fun t : Int => rowAt g v (g.nodes.map fun p => (p, some zero)) t) ts = .ok data := by
    clear ht
    induction ts generalizing data with
    | nil =>
      cases data with
      | nil => rfl
      | cons a l => simp at hlen
    | cons t ts ih =>
      cases data with
      | nil => simp at hlen
      | cons row rows =>
        obtain ⟨h1, h2, h3⟩ := hdata 0 t row rfl rfl
        unfold AtTime at h1
        have h4 : row.map plain = row := by
          conv_rhs => rw [← List.map_id row]
          refine List.map_congr_left ?_
          intro c hc
          have := h3 c hc
          cases c
          simp only [plain, id] at this ⊢
          rw [this]
        have h5 := ih rows (by simpa using hlen) (fun i t row hi hr => hdata (i + 1) t row hi hr)
        simp only [mapE, rowAt, evalAt, h1, reshaped, h2, if_true, h4] at h5 ⊢
        simp only [h5]
  simp only [this]

end C122

/-- Two nodes, two times, two sigma levels, a depth that depends on the level and the point. -/
example : regrid (0 : ℚ) ⟨.s, [3, 4], 2, [], none, []⟩
    ⟨.s, some [0, 10], .sigma 2 (fun k _ p => ⟨some (10 * k + p), false⟩),
      fun ps t => .ok (ps.map fun p => ⟨p.2.map (fun z => z + (t.getD 0 : Int)), p.1 == 4⟩)⟩
    (.ok ()) "node" =
    .ok (.timesLevels [[[⟨some 3, false⟩, ⟨some 4, false⟩], [⟨some 13, false⟩, ⟨some 14, false⟩]],
      [[⟨some 13, false⟩, ⟨some 14, false⟩], [⟨some 23, false⟩, ⟨some 24, false⟩]]]) := by decide +kernel

/-! ## C123 -/

section C123
variable {K P : Type}

/-- C123 as stated: the documented locations are served, or refused as not implemented. -/
def C123_statement : Prop :=
  ∀ (g : Dest Nat) (v : Source ℚ Nat) (rd : Except Err Unit) (location : String),
    location ∈ ["node", "nodes", "face", "faces", "center", "edge1", "edge2"] →
    v.depth = .none → (∀ ps t, v.eval ps t = .ok (ps.map fun _ => ⟨some 1, false⟩)) →
    g.nodes.length = g.nodeCount →
    (∃ out, regrid 0 g v rd location = .ok out) ∨
      regrid 0 g v rd location = .error .notImplemented

/-- C123 fails for edges: `AttributeError`. -/
theorem C123_refuted : ¬ C123_statement := by
  intro h
  have := h ⟨.s, [0], 1, [], none, []⟩
    ⟨.s, none, .none, fun ps _ => .ok (ps.map fun _ => ⟨some 1, false⟩)⟩ (.ok ()) "edge1" (by decide)
    rfl (fun _ _ => rfl) rfl
  rcases this with ⟨out, h⟩ | h <;> cases h

/-- C123 fails for the centers of a grid of four nodes and one cell: `ValueError`. -/
theorem C123_refuted_centers : ¬ C123_statement := by
  intro h
  have := h ⟨.s, [0, 1, 2, 3], 4, [9], none, []⟩
    ⟨.s, none, .none, fun ps _ => .ok (ps.map fun _ => ⟨some 1, false⟩)⟩ (.ok ()) "center" (by decide)
    rfl (fun _ _ => rfl) rfl
  rcases this with ⟨out, h⟩ | h <;> cases h

/-- C123 fails for a variable on an unstructured grid: `ValueError`. -/
theorem C123_refuted_unstructured : ¬ C123_statement := by
  intro h
  have := h ⟨.s, [0], 1, [], none, []⟩
    ⟨.u, none, .none, fun ps _ => .ok (ps.map fun _ => ⟨some 1, false⟩)⟩ (.ok ()) "node" (by decide)
    rfl (fun _ _ => rfl) rfl
  rcases this with ⟨out, h⟩ | h <;> cases h

/-- C123. The nodes of structured grids are served, for variables on structured grids without depth or
with a sigma depth that can itself be regridded. Missing: everything else, see `C123_only_partial`. -/
theorem C123_nodes_partial (zero : K) (g : Dest P) (v : Source K P) (rd : Except Err Unit)
    (hg : g.kind = .s) (hv : v.kind = .s) (hn : g.nodes.length = g.nodeCount)
    (hd : v.depth = .none ∨ (∃ n z, v.depth = .sigma n z) ∧ rd = .ok ())
    (he : ∀ ps t, ∃ d, v.eval ps t = .ok d ∧ d.length = ps.length) :
    ∃ out, regrid zero g v rd "node" = .ok out := by
  have hev : ∀ (f : P → P × Option K) t, ∃ d, evalAt g v (g.nodes.map f) t = .ok d := by
    intro f t
    obtain ⟨d, h1, h2⟩ := he (g.nodes.map f) t
    refine ⟨d, ?_⟩
    unfold evalAt reshaped
    rw [h1]
    simp only [h2, List.length_map, hn, if_true]
  have hfill : ∃ out, fill zero g v g.nodes = .ok out := by
    unfold fill
    cases v.times with
    | none =>
      obtain ⟨d, h⟩ := hev (fun p => (p, some zero)) none
      exact ⟨_, by simp only [h]; rfl⟩
    | some ts =>
      have hrow : ∀ (f : P → P × Option K) (t : Int), ∃ d,
          rowAt g v (g.nodes.map f) t = .ok d := by
        intro f t
        obtain ⟨d, h⟩ := hev f (some t)
        exact ⟨d.map plain, by unfold rowAt; rw [h]⟩
      have hflat : ∃ d, mapE (fun t : Int =>
          rowAt g v (g.nodes.map fun p => (p, some zero)) t) ts = .ok d := by
        obtain ⟨d, h, -⟩ := mapE_rel (R := fun _ _ => True) (l := ts)
          (f := fun t : Int => rowAt g v (g.nodes.map fun p => (p, some zero)) t) (fun t _ => by
            obtain ⟨d, h⟩ := hrow (fun p => (p, some zero)) t
            exact ⟨d, h, trivial⟩)
        exact ⟨d, h⟩
      rcases hd with hd | ⟨⟨n, z, hd⟩, -⟩
      · obtain ⟨d, h⟩ := hflat
        exact ⟨.times d, by simp only [hd, h]⟩
      · obtain ⟨d, h, -⟩ := mapE_rel (R := fun _ _ => True) (l := ts) (f := fun t : Int =>
          mapE (fun k : Nat => rowAt g v (g.nodes.map fun p => (p, (z k t p).value)) t)
            (List.range n)) (fun t _ => by
            obtain ⟨d, h, -⟩ := mapE_rel (R := fun _ _ => True) (l := List.range n)
              (f := fun k : Nat => rowAt g v (g.nodes.map fun p => (p, (z k t p).value)) t)
              (fun k _ => by
                obtain ⟨d, h⟩ := hrow (fun p => (p, (z k t p).value)) t
                exact ⟨d, h, trivial⟩)
            exact ⟨d, h, trivial⟩)
        exact ⟨.timesLevels d, by simp only [hd, h]⟩
  obtain ⟨out, hfill⟩ := hfill
  refine ⟨out, ?_⟩
  unfold regrid
  simp only [destPoints, if_true, hv, locate, hg, true_or]
  rcases hd with hd | ⟨⟨n, z, hd⟩, rfl⟩
  · simp only [hd, hfill]
  · simp only [hd, hfill]

/-- C123. Only structured grids are served, at nodes, or at centers if there are as many centers as
nodes, and only without depth or with sigma depth. -/
theorem C123_only_partial (zero : K) (g : Dest P) (v : Source K P) (rd : Except Err Unit)
    (location : String) (out : NewData K) (he : ∀ ps t d, v.eval ps t = .ok d → d.length = ps.length)
    (hts : v.times ≠ some []) (hz : ∀ z, v.depth ≠ .sigma 0 z)
    (h : regrid zero g v rd location = .ok out) :
    g.kind = .s ∧ v.kind = .s ∧ v.depth ≠ .other ∧
      ((location = "node" ∧ g.nodes.length = g.nodeCount) ∨
        (location = "center" ∧ g.centers.length = g.nodeCount)) := by
  unfold regrid at h
  split at h
  · cases h
  · rename_i pts hpts
    split at h
    · cases h
    · rename_i hloc
      split at h
      · cases h
      · split at h
        · rename_i hg
          split_ifs at h with hl
          have hv : v.kind = .s := by
            unfold locate at hloc
            cases hk : v.kind <;> rw [hk] at hloc <;> first | rfl | cases hloc
          have hdo : v.depth ≠ .other := by
            intro e; rw [e] at h; cases h
          have hfill : fill zero g v pts = .ok out := by
            split at h
            · cases h
            · exact h
          have hlen : pts.length = g.nodeCount := by
            have key : ∀ (f : P → P × Option K) t d, evalAt g v (pts.map f) t = .ok d →
                pts.length = g.nodeCount := by
              intro f t d e
              have := evalAt_len e
              rw [← this.2, he _ _ _ this.1, List.length_map]
            unfold fill at hfill
            split at hfill
            · split at hfill
              · cases hfill
              · rename_i d e; exact key _ _ _ e
            · rename_i ts ht
              cases ts with
              | nil => exact absurd ht hts
              | cons t ts =>
                split at hfill
                · rename_i n z hd
                  split at hfill
                  · cases hfill
                  · rename_i d e
                    obtain ⟨f, hf, -⟩ := mapE_inv e
                    have h1 := hf t (by simp)
                    obtain ⟨f', hf', -⟩ := mapE_inv h1
                    cases n with
                    | zero => exact absurd hd (hz z)
                    | succ n =>
                      have h2 := hf' 0 (by simp)
                      obtain ⟨d, e2, -⟩ := rowAt_ok h2
                      exact key _ _ _ e2
                · split at hfill
                  · cases hfill
                  · rename_i d e
                    obtain ⟨f, hf, -⟩ := mapE_inv e
                    have h2 := hf t (by simp)
                    obtain ⟨d, e2, -⟩ := rowAt_ok h2
                    exact key _ _ _ e2
          refine ⟨hg, hv, hdo, ?_⟩
          unfold destPoints at hpts
          rcases hl with rfl | rfl
          · simp only [if_true, Except.ok.injEq] at hpts
            subst hpts
            exact Or.inl ⟨rfl, hlen⟩
          · rw [if_neg (by decide), if_pos (by decide), hg] at hpts
            simp only [Except.ok.injEq] at hpts
            subst hpts
            exact Or.inr ⟨rfl, hlen⟩
        · cases h

/-- A variable with a depth object that has no length is refused: `TypeError`. -/
theorem C123_level_depths (zero : K) (g : Dest P) (v : Source K P) (rd : Except Err Unit)
    (hg : g.kind = .s) (hv : v.kind = .s) (hd : v.depth = .other) :
    regrid zero g v rd "node" = .error .typeError := by
  unfold regrid
  simp only [destPoints, if_true, hv, locate, hd, hg, true_or]

/-- Other location names (the documented `nodes`, `faces`, `edge1` and `edge2` among them) are refused with
`AttributeError`, whatever the grids and the variable. -/
theorem C123_names (zero : K) (g : Dest P) (v : Source K P) (rd : Except Err Unit) (location : String)
    (h : location ∉ ["node", "face", "center"]) :
    regrid zero g v rd location = .error .attributeError := by
  simp only [List.mem_cons, List.not_mem_nil, or_false, not_or] at h
  unfold regrid destPoints
  rw [if_neg h.1, if_neg (by rintro (h' | h'); exacts [h.2.1 h', h.2.2 h'])]

/-- The name `face` is refused for a structured destination, with `ValueError`, once the source is one
that can be regridded at all. -/
theorem C123_face (zero : K) (g : Dest P) (v : Source K P) (rd : Except Err Unit) (hg : g.kind = .s)
    (hv : v.kind = .s) (hd : v.depth = .none ∨ rd = .ok ()) :
    regrid zero g v rd "face" = .error .valueError := by
  unfold regrid destPoints locate
  rw [if_neg (by decide), if_pos (by decide), hg, hv]
  simp only
  rw [if_neg (by decide)]
  rcases hd with hd | hd
  · rw [hd]
  · rw [hd]
    cases v.depth <;> rfl

example : "nodes" ∉ ["node", "face", "center"] ∧ "edge1" ∉ ["node", "face", "center"] := by decide

example : ∃ out, regrid (0 : ℚ) (⟨.s, [3, 4], 2, [], none, []⟩ : Dest Nat)
    ⟨.s, none, .none, fun ps _ => .ok (ps.map fun _ => ⟨some 1, false⟩)⟩ (.ok ()) "node" = .ok out :=
  ⟨_, rfl⟩

end C123

end Verif
