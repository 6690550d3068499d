import Verif.Lemmas.DepthInterp
import Verif.Spec.DepthInterp
import Mathlib.Tactic.LinearCombination
import Mathlib.Algebra.Order.Ring.Rat
import Mathlib.Algebra.Order.Field.Rat

/-!
# C18: vertical interpolation of a variable
-/

set_option autoImplicit false

namespace Verif
open Verif.DepthM Verif.Spec

/-- The result is right at point `j`: masked points stay masked, others have the value of their own
column at their own index and weight. -/
def RightAt {K : Type*} [Field K] (ents : List (Entry K)) (cols : List (List K))
    (out : List (Cell K)) (j : Nat) : Prop :=
  ∀ e col, ents[j]? = some e → cols[j]? = some col → ∃ c, out[j]? = some c ∧
    (e.masked = true → c.masked = true) ∧
    (e.masked = false → c.masked = false ∧ ∃ α v, e.alpha = some α ∧ c.value = some v ∧
      LevelValue col e.idx α v)

/-- What the depth object may return and the shape of the data: `m` levels at every point. -/
def ValidQuery {K : Type*} [Field K] [LinearOrder K] (m : Nat) (ents : List (Entry K))
    (cols : List (List K)) : Prop :=
  cols.length = ents.length ∧ (∀ c ∈ cols, c.length = m) ∧
    ∀ e ∈ ents, e.masked = false → ∃ α, e.alpha = some α ∧ ValidPick m e.idx α

/-- C18 as listed, for data on levels. -/
def C18_statement : Prop :=
  ∀ (m layers : Nat) (ents : List (Entry ℚ)) (cols : List (List ℚ)), 2 ≤ m → m = layers + 1 →
    ValidQuery m ents cols →
    ∃ out, depthInterp m layers ents cols = .ok out ∧ ∀ j, j < ents.length → RightAt ents cols out j

variable {K : Type*} [Field K] [LinearOrder K]

private theorem blend_ok {m : Nat} {ents : List (Entry K)} {cols : List (List K)}
    (hv : ValidQuery m ents cols) (j : Nat) (k : Int) (hat : At ents j k)
    (hk : k ≠ (m : Int) - 1) (hm : 2 ≤ m) :
    ∃ v, blendAt ents cols k j = .ok (j, some v) ∧ ∃ e col α, ents[j]? = some e ∧
      cols[j]? = some col ∧ e.masked = false ∧ e.alpha = some α ∧ LevelValue col e.idx α v := by
  obtain ⟨hl, hc, he⟩ := hv
  obtain ⟨e, hej, hem, hei⟩ := hat
  have hj : j < ents.length := (List.getElem?_eq_some_iff.mp hej).1
  have hcj : cols[j]? = some (cols[j]'(by omega)) := List.getElem?_eq_getElem (by omega)
  obtain ⟨α, hα, h0, h1, hp⟩ := he e (List.mem_of_getElem? hej) hem
  have hcl : (cols[j]'(by omega)).length = m := hc _ (List.getElem_mem _)
  generalize hcol : cols[j]'(by omega) = col at hcj hcl
  rw [hei] at hp
  rcases hp with ⟨hp0, hp1⟩ | ⟨rfl, rfl⟩ | ⟨hp, _⟩
  · obtain ⟨i, rfl⟩ : ∃ i : Nat, k = (i : Int) := ⟨k.toNat, by omega⟩
    have ha : col[i]? = some (col[i]'(by omega)) := List.getElem?_eq_getElem (by omega)
    have hb : col[i + 1]? = some (col[i + 1]'(by omega)) := List.getElem?_eq_getElem (by omega)
    refine ⟨col[i]'(by omega) + (col[i + 1]'(by omega) - col[i]'(by omega)) * α, ?_, e, col, α, hej,
      hcj, hem, hα, Or.inl ⟨i, _, _, hei, ha, hb, by ring⟩⟩
    have p1 : Np.pyGet col ((i : Int) + 1) = .ok (col[i + 1]'(by omega)) := by
      exact_mod_cast Np.pyGet_nonneg (i := i + 1) hb
    simp [blendAt, valAt, hcj, Np.pyGet_nonneg ha, p1, hej, hα]
  · have ha : col[0]? = some (col[0]'(by omega)) := List.getElem?_eq_getElem (by omega)
    have hne : col ≠ [] := by rintro rfl; simp at hcl; omega
    have hb : col.getLast? = some (col.getLast hne) := List.getLast?_eq_some_getLast hne
    refine ⟨col[0]'(by omega), ?_, e, col, 1, hej, hcj, hem, hα,
      Or.inr (Or.inl ⟨hei, rfl, by rw [List.head?_eq_getElem?]; exact ha⟩)⟩
    have p1 : Np.pyGet col 0 = .ok (col[0]'(by omega)) := by
      exact_mod_cast Np.pyGet_nonneg (i := 0) ha
    simp [blendAt, valAt, hcj, Np.pyGet_neg_one hb, p1, hej, hα]
  · exact absurd hp hk

/-- The value the loop stores at point `j`. -/
private def stored (ents : List (Entry K)) (cols : List (List K)) (j : Nat) : Option K :=
  match ents[j]? with
  | some e => match blendAt ents cols e.idx j with
    | .ok p => p.2
    | .error _ => none
  | none => none

private theorem stored_eq {m : Nat} {ents : List (Entry K)} {cols : List (List K)}
    (hv : ValidQuery m ents cols) (j : Nat) (k : Int) (hat : At ents j k)
    (hk : k ≠ (m : Int) - 1) (hm : 2 ≤ m) :
    blendAt ents cols k j = .ok (j, stored ents cols j) ∧ ∃ v e col α, stored ents cols j = some v ∧
      ents[j]? = some e ∧ cols[j]? = some col ∧ e.masked = false ∧ e.alpha = some α ∧
      LevelValue col e.idx α v := by
  obtain ⟨v, hb, e, col, α, h1, h2, h3, h4, h5⟩ := blend_ok hv j k hat hk hm
  have hs : stored ents cols j = some v := by
    obtain ⟨e', h1', _, hi⟩ := hat
    rw [h1] at h1'; cases h1'
    simp [stored, h1, hi, hb]
  exact ⟨by rw [hs]; exact hb, v, e, col, α, hs, h1, h2, h3, h4, h5⟩

private theorem right_of_stored {m : Nat} {ents : List (Entry K)} {cols : List (List K)}
    (hv : ValidQuery m ents cols) {out : List (Cell K)} (j : Nat) (k : Int) (hat : At ents j k)
    (hk : k ≠ (m : Int) - 1) (hm : 2 ≤ m)
    (ho : out[j]? = some { value := stored ents cols j, masked := false }) :
    RightAt ents cols out j := by
  obtain ⟨_, v, e, col, α, hs, h1, h2, h3, h4, h5⟩ := stored_eq hv j k hat hk hm
  intro e' col' he' hc'
  rw [h1] at he'; rw [h2] at hc'; cases he'; cases hc'
  exact ⟨_, ho, fun h => (by rw [h3] at h; cases h), fun _ => ⟨rfl, α, v, h4, hs, h5⟩⟩

private theorem right_of_masked {ents : List (Entry K)} {cols : List (List K)}
    {out : List (Cell K)} (j : Nat) (e : Entry K) (he : ents[j]? = some e) (hm : e.masked = true)
    (ho : out[j]? = (ents.map fun e => ({ value := none, masked := e.masked } : Cell K))[j]?) :
    RightAt ents cols out j := by
  intro e' col' he' _
  rw [he] at he'; cases he'
  rw [List.getElem?_map, he] at ho
  exact ⟨_, ho, fun _ => hm, fun h => by rw [hm] at h; cases h⟩

/-- C18 holds when no unmasked point has the last level's index (that is, no point was extrapolated
beyond the end listed last): every point is right, whatever other points are asked for.
Missing: queries with points beyond the end listed last. -/
theorem C18_levels_partial (m layers : Nat) (ents : List (Entry K)) (cols : List (List K))
    (hm : 2 ≤ m) (hl : m ≠ layers) (hv : ValidQuery m ents cols)
    (hno : ∀ e ∈ ents, e.masked = false → e.idx ≠ (m : Int) - 1) :
    ∃ out, depthInterp m layers ents cols = .ok out ∧ out.length = ents.length ∧
      ∀ j, j < ents.length → RightAt ents cols out j := by
  unfold depthInterp
  by_cases hall : ents.all Entry.masked = true
  · refine ⟨ents.map fun e => { value := none, masked := e.masked }, by simp only [hall, if_true],
      by simp, ?_⟩
    intro j hj
    have he : ents[j]? = some (ents[j]'hj) := List.getElem?_eq_getElem hj
    exact right_of_masked j _ he (List.all_eq_true.mp hall _ (List.getElem_mem _)) rfl
  · simp only [hall, hl, if_false, Bool.false_eq_true]
    have hkk : ∀ k ∈ uniqIdx ents, k ≠ (m : Int) - 1 ∧
        ∀ j, At ents j k → blendAt ents cols k j = .ok (j, stored ents cols j) := by
      intro k hk
      obtain ⟨j, e, he, hem, hei⟩ := mem_uniqIdx.mp hk
      have hne : k ≠ (m : Int) - 1 := by
        rw [← hei]; exact hno e (List.mem_of_getElem? he) hem
      exact ⟨hne, fun j' hat => (stored_eq hv j' k hat hne hm).1⟩
    obtain ⟨out, h1, h2, h3, h4⟩ := levelLoop_good (m := m) (ents := ents) (cols := cols)
      (g := stored ents cols) (uniqIdx ents) none
      (ents.map fun e => { value := none, masked := e.masked }) (by simp)
      ((Np.unique_pairwise _).imp ne_of_lt) hkk
    rw [h1]
    refine ⟨out, rfl, by rw [h2]; simp, ?_⟩
    intro j hj
    have he : ents[j]? = some (ents[j]'hj) := List.getElem?_eq_getElem hj
    by_cases hmj : (ents[j]'hj).masked = true
    · refine right_of_masked j _ he hmj (h4 j (by simpa using hj) ?_)
      rintro k _ ⟨e', he', hm', _⟩
      rw [he] at he'; cases he'
      rw [hmj] at hm'; cases hm'
    · have hat : At ents j (ents[j]'hj).idx := ⟨_, he, by simpa using hmj, rfl⟩
      have hk := mem_uniqIdx.mpr ⟨j, hat⟩
      exact right_of_stored hv j _ hat (hkk _ hk).1 hm (h3 j _ hk hat)

/-- C18 fails on every query with an unmasked point beyond the end listed last: either the call
raises, or that point's value is NaN. -/
theorem C18_refuted_beyond_last (m layers : Nat) (ents : List (Entry K)) (cols : List (List K))
    (hm : 2 ≤ m) (hl : m ≠ layers) (hv : ValidQuery m ents cols) (j : Nat) (e : Entry K)
    (hj : ents[j]? = some e) (hu : e.masked = false) (hi : e.idx = (m : Int) - 1) :
    depthInterp m layers ents cols = .error .unboundLocal ∨
    ∃ out c, depthInterp m layers ents cols = .ok out ∧ out[j]? = some c ∧ c.value = none ∧
      c.masked = false := by
  have hall : ¬ ents.all Entry.masked = true := by
    intro h
    have := List.all_eq_true.mp h e (List.mem_of_getElem? hj)
    rw [hu] at this; cases this
  have hat : At ents j ((m : Int) - 1) := ⟨e, hj, hu, hi⟩
  have hmem : (m : Int) - 1 ∈ uniqIdx ents := mem_uniqIdx.mpr ⟨j, hat⟩
  have hmax : ∀ k ∈ uniqIdx ents, k ≤ (m : Int) - 1 := by
    intro k hk
    obtain ⟨j', e', he', hu', hi'⟩ := mem_uniqIdx.mp hk
    obtain ⟨α, _, _, _, hp⟩ := hv.2.2 e' (List.mem_of_getElem? he') hu'
    omega
  -- the last level's index is the last of the sorted indices
  obtain ⟨ks, ks', hsplit⟩ := List.append_of_mem hmem
  have hpw := Np.unique_pairwise ((ents.filter fun e => !e.masked).map Entry.idx)
  change (uniqIdx ents).Pairwise (· < ·) at hpw
  have hks' : ks' = [] := by
    rcases ks' with _ | ⟨x, t⟩
    · rfl
    · rw [hsplit] at hpw
      have h1 := (List.pairwise_cons.mp (List.pairwise_append.mp hpw).2.1).1 x (by simp)
      have h2 := hmax x (by rw [hsplit]; simp)
      omega
  subst hks'
  have hks : ∀ k ∈ ks, k < (m : Int) - 1 := by
    intro k hk
    rw [hsplit] at hpw
    exact (List.pairwise_append.mp hpw).2.2 k hk _ (by simp)
  obtain ⟨out, h1, h2, h3, h4⟩ := levelLoop_good (m := m) (ents := ents) (cols := cols)
      (g := stored ents cols) ks none
      (ents.map fun e => { value := none, masked := e.masked }) (by simp)
      (by rw [hsplit] at hpw; exact (List.pairwise_append.mp hpw).1.imp ne_of_lt)
      (fun k hk => ⟨ne_of_lt (hks k hk), fun j' hat =>
        (stored_eq hv j' k hat (ne_of_lt (hks k hk)) hm).1⟩)
  have hloop : levelLoop m ents cols (uniqIdx ents)
      (none, ents.map fun e => { value := none, masked := e.masked })
      = levelLoop m ents cols [(m : Int) - 1] (match ks.getLast? with
        | some k => some (groupOf ents k)
        | none => none, out) := by
    simp only [hsplit, levelLoop_append, h1]
    cases ks.getLast? <;> rfl
  have houtj : out[j]? = some { value := none, masked := false } := by
    rw [h4 j (by simpa using (List.getElem?_eq_some_iff.mp hj).1) (fun k hk hat' => by
      have := hat.unique hat'
      have := hks k hk
      omega)]
    rw [List.getElem?_map, hj]
    simp [hu]
  unfold depthInterp
  simp only [hall, hl, if_false, Bool.false_eq_true]
  rw [hloop]
  rcases hlast : ks.getLast? with _ | k
  · left
    simp [levelLoop]
  · right
    have hk : k ∈ ks := List.mem_of_getLast? hlast
    -- the level value exists at every point
    have hok : mapE (plainAt cols ((m : Int) - 1)) (groupOf ents k)
        = .ok ((groupOf ents k).map fun i =>
          (i, (cols[i]?.bind fun c => c[m - 1]?))) := by
      apply mapE_ok
      intro i hi
      obtain ⟨e', he', _, _⟩ := mem_groupOf.mp hi
      have hlt : i < cols.length := by rw [hv.1]; exact (List.getElem?_eq_some_iff.mp he').1
      have hc : cols[i]? = some (cols[i]'hlt) := List.getElem?_eq_getElem hlt
      have hcl := hv.2.1 _ (List.getElem_mem hlt)
      have hx : (cols[i]'hlt)[m - 1]? = some ((cols[i]'hlt)[m - 1]'(by omega)) :=
        List.getElem?_eq_getElem (by omega)
      have := Np.pyGet_nonneg hx
      rw [show ((m - 1 : Nat) : Int) = (m : Int) - 1 by omega] at this
      simp [plainAt, valAt, hc, this, hx]
    simp only [levelLoop, if_true, hok]
    refine ⟨_, { value := none, masked := false }, rfl, ?_, rfl, rfl⟩
    rw [← houtj]
    refine (putAll_get out _ _ j ?_).2 ?_
    · rw [h2]; simpa using (List.getElem?_eq_some_iff.mp hj).1
    · intro hmg
      have h5 := (mem_groupOf.mp hmg).unique hat
      have := hks k hk
      omega

/-- C18 is false: two points, one inside and one beyond the last level. -/
theorem C18_refuted : ¬ C18_statement := by
  intro h
  have hv : ValidQuery 3 [(⟨0, some (1 / 2), false⟩ : Entry ℚ), ⟨2, some 0, false⟩]
      [[10, 20, 30], [10, 20, 30]] := by
    refine ⟨rfl, by decide, ?_⟩
    intro e he _
    simp only [List.mem_cons, List.not_mem_nil, or_false] at he
    rcases he with rfl | rfl
    · exact ⟨1 / 2, rfl, by norm_num, by norm_num, by left; norm_num⟩
    · exact ⟨0, rfl, by norm_num, by norm_num, by right; right; norm_num⟩
  obtain ⟨out, ho, hr⟩ := h 3 2 _ _ (by decide) rfl hv
  have : depthInterp 3 2 [(⟨0, some (1 / 2), false⟩ : Entry ℚ), ⟨2, some 0, false⟩]
      [[10, 20, 30], [10, 20, 30]] = .ok [⟨some 30, false⟩, ⟨none, false⟩] := by decide +kernel
  rw [this] at ho
  cases ho
  obtain ⟨c, hc, _, h2⟩ := hr 1 (by decide) _ _ rfl rfl
  obtain ⟨_, α, v, _, hvv, _⟩ := h2 rfl
  simp only [List.getElem?_cons_succ, List.getElem?_cons_zero, Option.some.injEq] at hc
  rw [← hc] at hvv
  cases hvv

/-- Data on layers: points inside the levels get the value of their own layer, held constant, and
masked points stay masked. Missing: points beyond either end, see the next theorem. -/
theorem C18_layers_partial (m : Nat) (ents : List (Entry K)) (cols : List (List K))
    (hlen : cols.length = ents.length) (hc : ∀ c ∈ cols, c.length = m)
    (he : ∀ e ∈ ents, e.masked = false → 0 ≤ e.idx ∧ e.idx < (m : Int)) :
    ∃ out, depthInterp m m ents cols = .ok out ∧ out.length = ents.length ∧
      ∀ (j : Nat) (e : Entry K) (col : List K), ents[j]? = some e → cols[j]? = some col →
        ∃ c, out[j]? = some c ∧ c.masked = e.masked ∧ (e.masked = false → ∃ k : Nat, e.idx = (k : Int) ∧
          ∃ v, col[k]? = some v ∧ c.value = some v) := by
  let g : Nat → Option K := fun j => match ents[j]?, cols[j]? with
    | some e, some col => col[e.idx.toNat]?
    | _, _ => none
  unfold depthInterp
  by_cases hall : ents.all Entry.masked = true
  · refine ⟨ents.map fun e => { value := none, masked := e.masked }, by simp only [hall, if_true],
      by simp, ?_⟩
    intro j e col hj _
    have := List.all_eq_true.mp hall e (List.mem_of_getElem? hj)
    refine ⟨⟨none, e.masked⟩, by rw [List.getElem?_map, hj]; rfl, rfl, ?_⟩
    intro h; rw [this] at h; cases h
  · simp only [hall, if_true, if_false, Bool.false_eq_true]
    have hkk : ∀ k ∈ uniqIdx ents, k ≠ -1 ∧ ∀ j, At ents j k → plainAt cols k j = .ok (j, g j) := by
      intro k hk
      obtain ⟨j0, e0, h1, h2, h3⟩ := mem_uniqIdx.mp hk
      have hr := he e0 (List.mem_of_getElem? h1) h2
      refine ⟨by omega, ?_⟩
      rintro j ⟨e, hej, hem, hei⟩
      have hj : j < cols.length := by rw [hlen]; exact (List.getElem?_eq_some_iff.mp hej).1
      have hcj : cols[j]? = some (cols[j]'hj) := List.getElem?_eq_getElem hj
      have hcl := hc _ (List.getElem_mem hj)
      have hx : (cols[j]'hj)[k.toNat]? = some ((cols[j]'hj)[k.toNat]'(by omega)) :=
        List.getElem?_eq_getElem (by omega)
      have := Np.pyGet_nonneg hx
      rw [show ((k.toNat : Nat) : Int) = k by omega] at this
      simp [plainAt, valAt, hcj, this, g, hej, hei, hx]
    obtain ⟨out, h1, h2, h3, h4⟩ := layerLoop_good (ents := ents) (cols := cols) (g := g)
      (uniqIdx ents) (ents.map fun e => { value := none, masked := e.masked }) (by simp)
      ((Np.unique_pairwise _).imp ne_of_lt) hkk
    refine ⟨out, h1, by rw [h2]; simp, ?_⟩
    intro j e col hj hcj
    by_cases hm : e.masked = true
    · refine ⟨⟨none, e.masked⟩, ?_, rfl, fun h => by rw [hm] at h; cases h⟩
      rw [h4 j (by simpa using (List.getElem?_eq_some_iff.mp hj).1), List.getElem?_map, hj]
      · rfl
      · rintro k _ ⟨e', he', hm', _⟩
        rw [hj] at he'; cases he'
        rw [hm] at hm'; cases hm'
    · have hm' : e.masked = false := by simpa using hm
      have hat : At ents j e.idx := ⟨e, hj, hm', rfl⟩
      have hr := he e (List.mem_of_getElem? hj) hm'
      have hcl := hc col (List.mem_of_getElem? hcj)
      refine ⟨_, h3 j _ (mem_uniqIdx.mpr ⟨j, hat⟩) hat, hm'.symm, fun _ => ?_⟩
      refine ⟨e.idx.toNat, by omega, col[e.idx.toNat]'(by omega), List.getElem?_eq_getElem (by omega),
        ?_⟩
      simp only [g, hj, hcj]
      exact List.getElem?_eq_getElem (by omega)

/-- Data on layers, points beyond the end listed first (index -1): such a point is never filled; it
is NaN and not masked whenever the call returns. -/
theorem C18_refuted_layers_before_first (m : Nat) (ents : List (Entry K)) (cols : List (List K))
    (out : List (Cell K)) (h : depthInterp m m ents cols = .ok out) (j : Nat) (e : Entry K)
    (hj : ents[j]? = some e) (hu : e.masked = false) (hi : e.idx = -1) :
    out[j]? = some { value := none, masked := false } := by
  have hall : ¬ ents.all Entry.masked = true := by
    intro hh
    have := List.all_eq_true.mp hh e (List.mem_of_getElem? hj)
    rw [hu] at this; cases this
  unfold depthInterp at h
  simp only [hall, if_true, if_false, Bool.false_eq_true] at h
  rw [layerLoop_neg _ _ _ h j (by simpa using (List.getElem?_eq_some_iff.mp hj).1)
    ⟨e, hj, hu, hi⟩, List.getElem?_map, hj]
  simp [hu]

example : depthInterp 3 2 [(⟨0, some (1 / 2), false⟩ : Entry ℚ), ⟨-1, some 1, false⟩,
    ⟨1, some (1 / 4), false⟩, ⟨7, none, true⟩] [[10, 20, 30], [1, 2, 3], [5, 9, 17], [0, 0, 0]]
    = .ok [⟨some 15, false⟩, ⟨some 1, false⟩, ⟨some 11, false⟩, ⟨none, true⟩] := by decide +kernel
example : depthInterp 2 2 [(⟨0, some (1 / 2), false⟩ : Entry ℚ), ⟨1, some (1 / 4), false⟩,
    ⟨-1, some 1, false⟩] [[10, 20], [1, 2], [5, 9]]
    = .ok [⟨some 10, false⟩, ⟨some 2, false⟩, ⟨none, false⟩] := by decide +kernel
/-- Beyond the last level only: the call raises. -/
example : depthInterp 3 2 [(⟨2, some 0, false⟩ : Entry ℚ)] [[10, 20, 30]] = .error .unboundLocal := by
  decide +kernel

end Verif
