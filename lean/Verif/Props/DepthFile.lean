import Verif.Model.DepthFile
import Verif.Spec.SGrid
import Verif.Lemmas.SIndex
import Verif.Props.Util
import Verif.Props.Depth
import Mathlib.Tactic.FieldSimp
import Mathlib.Tactic.Ring
import Mathlib.Tactic.LinearCombination
import Mathlib.Algebra.Order.Ring.Rat

/-!
# C125-C130: depth objects loaded from files
-/

set_option autoImplicit false

namespace Verif
open Verif.Spec Verif.Util Verif.DepthFile

/-! ## C125: which depth systems a file has -/

section C125

/-- Some variable of the data file or the grid file has one of the names, or one of the descriptions as
its long name or standard name. -/
def Offers (names descriptions : List String) (ds : List FVar) (dg : Option (List FVar)) : Prop :=
  ∃ f, (f = ds ∨ dg = some f) ∧ ∃ v ∈ f, v.name ∈ names ∨
    ∃ q ∈ descriptions, v.longName = some q ∨ v.standardName = some q

theorem somewhere_offers (defaults cf : List (String × List String)) (k : String) (ds : List FVar)
    (dg : Option (List FVar)) :
    (Somewhere defaults cf k ds ∨ ∃ g, dg = some g ∧ Somewhere defaults cf k g) ↔
      Offers (candidates defaults k) (candidates cf k) ds dg := by
  constructor
  · have one : ∀ f, Somewhere defaults cf k f → ∃ v ∈ f, v.name ∈ candidates defaults k ∨
        ∃ q ∈ candidates cf k, v.longName = some q ∨ v.standardName = some q := by
      rintro f (⟨q, hq, v, hv, h⟩ | ⟨q, hq, v, hv, rfl⟩)
      · exact ⟨v, hv, Or.inr ⟨q, hq, h⟩⟩
      · exact ⟨v, hv, Or.inl hq⟩
    rintro (h | ⟨g, hg, h⟩)
    · exact ⟨ds, Or.inl rfl, one ds h⟩
    · exact ⟨g, Or.inr hg, one g h⟩
  · rintro ⟨f, hf, v, hv, h⟩
    have : Somewhere defaults cf k f := by
      rcases h with h | ⟨q, hq, h⟩
      · exact Or.inr ⟨v.name, h, v, hv, rfl⟩
      · exact Or.inl ⟨q, hq, v, hv, h⟩
    rcases hf with rfl | hf
    · exact Or.inl this
    · exact Or.inr ⟨f, hf, this⟩

theorem canSigma_iff (defaults cf : List (String × List String)) (hd : (defaults.map Prod.fst).Nodup)
    (hc : (cf.map Prod.fst).Nodup) (ds : List FVar) (dg : Option (List FVar)) :
    canSigma defaults cf ds dg = true ↔
      ∀ k, k ∈ cf.map Prod.fst ∨ k ∈ defaults.map Prod.fst → k ≠ "zeta" →
        Offers (candidates defaults k) (candidates cf k) ds dg := by
  unfold canSigma
  rw [List.all_eq_true]
  constructor
  · intro h k hk hz
    rw [← somewhere_offers]
    by_contra hn
    rw [not_or] at hn
    have := (C53_missing defaults cf hd hc ds dg k).2
      ⟨hk, hn.1, fun g hg hs => hn.2 ⟨g, hg, hs⟩⟩
    have := h (k, none) (by
      rw [List.mem_filter]
      exact ⟨this, by simp [hz]⟩)
    simp at this
  · rintro h ⟨k, o⟩ hm
    rw [List.mem_filter] at hm
    obtain ⟨hm, hz⟩ := hm
    cases o with
    | some v => rfl
    | none =>
      obtain ⟨hk, h1, h2⟩ := (C53_missing defaults cf hd hc ds dg k).1 hm
      have hz' : k ≠ "zeta" := by
        rintro rfl
        simp at hz
      rcases (somewhere_offers defaults cf k ds dg).2 (h k hk hz') with h | ⟨g, hg, h⟩
      · exact absurd h h1
      · exact absurd h (h2 g hg)

/-- What a file needs for ROMS depths; zeta is optional. -/
def RomsFile (ds : List FVar) (dg : Option (List FVar)) : Prop :=
  Offers ["Cs_r"] ["S-coordinate stretching curves at RHO-points"] ds dg ∧
  Offers ["Cs_w"] ["S-coordinate stretching curves at W-points"] ds dg ∧
  Offers ["s_rho"] ["S-coordinate at RHO-points"] ds dg ∧
  Offers ["s_w"] ["S-coordinate at W-points"] ds dg ∧
  Offers ["hc"] ["S-coordinate parameter, critical depth"] ds dg ∧
  Offers ["h"] ["bathymetry at RHO-points", "Final bathymetry at RHO-points"] ds dg

/-- What a file needs for FVCOM depths; zeta is optional. -/
def FvcomFile (ds : List FVar) (dg : Option (List FVar)) : Prop :=
  Offers ["siglay"] ["ocean_sigma/general_coordinate"] ds dg ∧
  Offers ["siglev"] ["ocean_sigma/general_coordinate"] ds dg ∧
  Offers ["h"] ["sea_floor_depth_below_geoid"] ds dg

/-- What a file needs for level depths: one of three names, or a description of one letter. -/
def LevelFile (ds : List FVar) (dg : Option (List FVar)) : Prop :=
  Offers ["depth", "depth_levels", "Depth"] ["d", "e", "p", "t", "h"] ds dg

/-- C125. A file can make ROMS depths exactly if it offers the six terms. -/
theorem C125_roms (ds : List FVar) (dg : Option (List FVar)) :
    canSigma romsNames romsCf ds dg = true ↔ RomsFile ds dg := by
  rw [canSigma_iff _ _ (by decide) (by decide)]
  simp [romsNames, romsCf, candidates, RomsFile, or_imp, forall_and]

/-- C125. A file can make FVCOM depths exactly if it offers the three terms. -/
theorem C125_fvcom (ds : List FVar) (dg : Option (List FVar)) :
    canSigma fvcomNames fvcomCf ds dg = true ↔ FvcomFile ds dg := by
  rw [canSigma_iff _ _ (by decide) (by decide)]
  simp [fvcomNames, fvcomCf, candidates, FvcomFile, or_imp, forall_and]

/-- C125. A file can make level depths exactly if a variable has one of the names or a description of
one letter. -/
theorem C125_levels_partial (ds : List FVar) (dg : Option (List FVar)) :
    canCreate levelNames levelCf ds dg = true ↔ LevelFile ds dg := by
  rw [C53_can_create _ _ (by decide) (by decide)]
  simp only [somewhere_offers]
  simp [levelNames, levelCf, candidates, LevelFile]

/-- C125. The system of a file: none of the three, exactly one of them, or an error. -/
theorem C125_system (ds : List FVar) (dg : Option (List FVar)) :
    (systemOf ds dg = .ok .surface ↔ ¬ RomsFile ds dg ∧ ¬ FvcomFile ds dg ∧ ¬ LevelFile ds dg) ∧
    (systemOf ds dg = .ok (.cls 0) ↔ RomsFile ds dg ∧ ¬ FvcomFile ds dg ∧ ¬ LevelFile ds dg) ∧
    (systemOf ds dg = .ok (.cls 1) ↔ ¬ RomsFile ds dg ∧ FvcomFile ds dg ∧ ¬ LevelFile ds dg) ∧
    (systemOf ds dg = .ok (.cls 2) ↔ ¬ RomsFile ds dg ∧ ¬ FvcomFile ds dg ∧ LevelFile ds dg) ∧
    (systemOf ds dg = .error .valueError ↔ (RomsFile ds dg ∧ FvcomFile ds dg) ∨
      (RomsFile ds dg ∧ LevelFile ds dg) ∨ (FvcomFile ds dg ∧ LevelFile ds dg)) := by
  rw [← C125_roms, ← C125_fvcom, ← C125_levels_partial]
  unfold systemOf
  generalize canSigma romsNames romsCf ds dg = a
  generalize canSigma fvcomNames fvcomCf ds dg = b
  generalize canCreate levelNames levelCf ds dg = c
  cases a <;> cases b <;> cases c <;>
    simp [DepthM.factory, DepthM.argmaxBool, List.filter]

/-- C125 as stated: a variable described as "depth", as CF prescribes, makes level depths. -/
def C125_statement : Prop :=
  ∀ (ds : List FVar) (v : FVar), v ∈ ds → v.standardName = some "depth" →
    canCreate levelNames levelCf ds none = true

/-- C125 fails: the description is taken apart into its letters. -/
theorem C125_refuted : ¬ C125_statement := by
  intro h
  exact absurd (h [⟨"z", none, some "depth"⟩] ⟨"z", none, some "depth"⟩ (by simp) rfl) (by decide +kernel)

/-- The other way round, a variable described as "h" makes level depths of it, and a ROMS file with such
a variable has no depth system. -/
example : systemOf [⟨"x", some "h", none⟩] none = .ok (.cls 2) ∧
    systemOf [⟨"Cs_r", none, none⟩, ⟨"Cs_w", none, none⟩, ⟨"s_rho", none, none⟩, ⟨"s_w", none, none⟩,
      ⟨"hc", none, none⟩, ⟨"h", none, none⟩] none = .ok (.cls 0) ∧
    systemOf [⟨"Cs_r", none, none⟩, ⟨"Cs_w", none, none⟩, ⟨"s_rho", none, none⟩, ⟨"s_w", none, none⟩,
      ⟨"hc", none, none⟩, ⟨"h", some "h", none⟩] none = .error .valueError ∧
    systemOf [⟨"siglay", none, none⟩, ⟨"siglev", none, none⟩] (some [⟨"h", none, none⟩]) =
      .ok (.cls 1) := by
  decide +kernel

end C125

/-! ## C126: the layers and the levels of an FVCOM file -/

section C126

/-- C126 as stated: in a file with variables named `siglay` and `siglev`, these are the terms. -/
def C126_statement : Prop :=
  ∀ (ds : List FVar) (dg : Option (List FVar)) (v w : FVar), (ds.map FVar.name).Nodup → v ∈ ds →
    w ∈ ds → v.name = "siglay" → w.name = "siglev" →
    ("siglay", some v) ∈ search fvcomNames fvcomCf ds dg ∧
      ("siglev", some w) ∈ search fvcomNames fvcomCf ds dg

private theorem fvcom_lookup (ds : List FVar) (dg : Option (List FVar)) (k : String)
    (hk : k = "siglay" ∨ k = "siglev") (v : FVar) :
    (k, some v) ∈ search fvcomNames fvcomCf ds dg ↔
      FirstWay (ways fvcomNames fvcomCf k ds ++ dg.elim [] (ways fvcomNames fvcomCf k)) v :=
  C53_chosen fvcomNames fvcomCf (by decide) (by decide) ds dg k v

/-- C126 fails for files that follow the FVCOM convention, in which both have the same standard name. -/
theorem C126_refuted : ¬ C126_statement := by
  intro h
  have := (h [⟨"siglay", none, some "ocean_sigma/general_coordinate"⟩,
    ⟨"siglev", none, some "ocean_sigma/general_coordinate"⟩] none
    ⟨"siglay", none, some "ocean_sigma/general_coordinate"⟩
    ⟨"siglev", none, some "ocean_sigma/general_coordinate"⟩ (by decide) (by simp) (by simp) rfl rfl).2
  exact absurd this (by decide +kernel)

/-- C126. As soon as one variable of the data file is described as a sigma coordinate, both terms are one
and the same variable: the layers are taken for the levels, or the other way round. -/
theorem C126_same (ds : List FVar) (dg : Option (List FVar)) (u : FVar) (hu : u ∈ ds)
    (hd : u.longName = some "ocean_sigma/general_coordinate" ∨
      u.standardName = some "ocean_sigma/general_coordinate") :
    ∃ v ∈ ds, ("siglay", some v) ∈ search fvcomNames fvcomCf ds dg ∧
      ("siglev", some v) ∈ search fvcomNames fvcomCf ds dg ∧
      (v.longName = some "ocean_sigma/general_coordinate" ∨
        v.standardName = some "ocean_sigma/general_coordinate") := by
  have hit : ∃ v ∈ ds, LongHit ds "ocean_sigma/general_coordinate" v ∧
      (v.longName = some "ocean_sigma/general_coordinate" ∨
        v.standardName = some "ocean_sigma/general_coordinate") := by
    have hb : byAttr ds "ocean_sigma/general_coordinate" ≠ [] := by
      unfold byAttr
      intro e
      rw [List.append_eq_nil_iff, List.filter_eq_nil_iff, List.filter_eq_nil_iff] at e
      rcases hd with hd | hd
      · exact e.1 u hu (by simp [hd])
      · exact e.2 u hu (by simp [hd])
    cases hv : byAttr ds "ocean_sigma/general_coordinate" with
    | nil => exact absurd hv hb
    | cons v l =>
      have hm : v ∈ byAttr ds "ocean_sigma/general_coordinate" := by rw [hv]; simp
      unfold byAttr at hm
      rw [List.mem_append, List.mem_filter, List.mem_filter] at hm
      refine ⟨v, ?_, (byAttr_head ds _ v).1 (by rw [hv]; rfl), ?_⟩
      · rcases hm with h | h <;> exact h.1
      · rcases hm with h | h
        · exact Or.inl (by simpa using h.2)
        · exact Or.inr (by simpa using h.2)
  obtain ⟨v, hv, hl, hn⟩ := hit
  have best : ∀ k, k = "siglay" ∨ k = "siglev" → Best (LongHit ds) (candidates fvcomCf k) v := by
    rintro k (rfl | rfl) <;>
    exact ⟨[], "ocean_sigma/general_coordinate", [], rfl, hl, by simp⟩
  refine ⟨v, hv, ?_, ?_, hn⟩
  · rw [fvcom_lookup ds dg "siglay" (Or.inl rfl)]
    exact ⟨[], _, _, rfl, best _ (Or.inl rfl), by simp⟩
  · rw [fvcom_lookup ds dg "siglev" (Or.inr rfl)]
    exact ⟨[], _, _, rfl, best _ (Or.inr rfl), by simp⟩

/-- C126 for files that describe no variable of the data file so. Missing: the ones that follow the
convention, for which it is false. -/
theorem C126_partial (ds : List FVar) (dg : Option (List FVar)) (v w : FVar)
    (hnd : (ds.map FVar.name).Nodup) (hv : v ∈ ds) (hw : w ∈ ds) (nv : v.name = "siglay")
    (nw : w.name = "siglev")
    (hno : ∀ u ∈ ds, u.longName ≠ some "ocean_sigma/general_coordinate" ∧
      u.standardName ≠ some "ocean_sigma/general_coordinate") :
    ("siglay", some v) ∈ search fvcomNames fvcomCf ds dg ∧
      ("siglev", some w) ∈ search fvcomNames fvcomCf ds dg := by
  have nohit : ∀ k, k = "siglay" ∨ k = "siglev" → ∀ u, ¬ Best (LongHit ds) (candidates fvcomCf k) u := by
    rintro k hk u ⟨pre, q, post, e, h, -⟩
    have hq : q ∈ candidates fvcomCf k := by rw [e]; simp
    have hq' : q = "ocean_sigma/general_coordinate" := by
      rcases hk with rfl | rfl <;> simpa [candidates, fvcomCf] using hq
    subst hq'
    have hb := (byAttr_head ds _ u).2 h
    have hm : u ∈ byAttr ds "ocean_sigma/general_coordinate" := List.mem_of_mem_head? hb
    unfold byAttr at hm
    rw [List.mem_append, List.mem_filter, List.mem_filter] at hm
    rcases hm with ⟨hm, h⟩ | ⟨hm, h⟩
    · exact (hno u hm).1 (by simpa using h)
    · exact (hno u hm).2 (by simpa using h)
  have named : ∀ u ∈ ds, ∀ k, candidates fvcomNames k = [k] → u.name = k →
      Best (NameHit ds) (candidates fvcomNames k) u := by
    intro u hu k hk hn
    rw [← firstName_iff, hk]
    unfold firstName
    have : ds.find? (fun v => v.name == k) = some u := by
      rw [List.find?_eq_some_iff_append]
      obtain ⟨as, bs, rfl⟩ := List.append_of_mem hu
      refine ⟨by simp [hn], as, bs, rfl, ?_⟩
      intro a ha
      simp only [Bool.not_eq_true', beq_eq_false_iff_ne, ne_eq]
      intro h
      rw [List.map_append, List.map_cons, List.nodup_append] at hnd
      exact hnd.2.2 a.name (List.mem_map_of_mem ha) u.name (by simp) (by rw [h, hn])
    simp [this]
  refine ⟨?_, ?_⟩
  · rw [fvcom_lookup ds dg "siglay" (Or.inl rfl)]
    refine ⟨[_], _, _, rfl, named v hv "siglay" rfl nv, ?_⟩
    intro w' hw' u
    rw [List.mem_singleton] at hw'
    subst hw'
    exact nohit _ (Or.inl rfl) u
  · rw [fvcom_lookup ds dg "siglev" (Or.inr rfl)]
    refine ⟨[_], _, _, rfl, named w hw "siglev" rfl nw, ?_⟩
    intro w' hw' u
    rw [List.mem_singleton] at hw'
    subst hw'
    exact nohit _ (Or.inr rfl) u

/-- The hypotheses hold for a file without descriptions, and the conclusion of the other theorem for one
with them, in which the levels come first. -/
example : search fvcomNames fvcomCf [⟨"siglay", none, none⟩, ⟨"siglev", none, none⟩] none =
      [("siglay", some ⟨"siglay", none, none⟩), ("siglev", some ⟨"siglev", none, none⟩),
        ("bathymetry", none), ("zeta", none)] ∧
    (∀ u ∈ [(⟨"siglay", none, none⟩ : FVar), ⟨"siglev", none, none⟩],
      u.longName ≠ some "ocean_sigma/general_coordinate" ∧
      u.standardName ≠ some "ocean_sigma/general_coordinate") ∧
    search fvcomNames fvcomCf [⟨"siglev", none, some "ocean_sigma/general_coordinate"⟩,
        ⟨"siglay", none, some "ocean_sigma/general_coordinate"⟩] none =
      [("siglay", some ⟨"siglev", none, some "ocean_sigma/general_coordinate"⟩),
        ("siglev", some ⟨"siglev", none, some "ocean_sigma/general_coordinate"⟩),
        ("bathymetry", none), ("zeta", none)] := by
  decide +kernel

end C126

/-! ## C127: bathymetry and zeta at the nodes -/

section C127
variable {K : Type} [Field K]

theorem means_length {α : Type} (f : α → α → α) (l : List α) : (means f l).length = l.length - 1 := by
  simp [means]

theorem means_get {α : Type} (f : α → α → α) (l : List α) (i : Nat) (a b : α) (ha : l[i]? = some a)
    (hb : l[i + 1]? = some b) : (means f l)[i]? = some (f a b) := by
  have hi : i + 1 < l.length := (List.getElem?_eq_some_iff.mp hb).1
  unfold means
  rw [List.getElem?_zipWith, List.getElem?_dropLast, if_pos (by omega), ha, List.getElem?_tail, hb]

/-- The entry of the averages from the four entries around it. -/
theorem psi_entry (A : List (List (Option K))) (i j : Nat) (a b c d : Option K)
    (ha : entry A i j = some a) (hb : entry A (i + 1) j = some b) (hc : entry A i (j + 1) = some c)
    (hd : entry A (i + 1) (j + 1) = some d) :
    entry (psi A) i j = some (half (half a b) (half c d)) := by
  unfold entry at *
  rw [Option.bind_eq_some_iff] at ha hb hc hd
  obtain ⟨r, hr, ha⟩ := ha
  obtain ⟨r', hr', hb⟩ := hb
  obtain ⟨_, hr2, hc⟩ := hc
  obtain ⟨_, hr2', hd⟩ := hd
  rw [hr] at hr2
  cases hr2
  rw [hr'] at hr2'
  cases hr2'
  have h1 := means_get (List.zipWith half) A i r r' hr hr'
  unfold psi
  rw [List.getElem?_map, h1]
  simp only [Option.map_some, Option.bind_some]
  refine means_get half _ j _ _ ?_ ?_
  · rw [List.getElem?_zipWith, ha, hb]
  · rw [List.getElem?_zipWith, hc, hd]

/-- C127. Each node gets the mean of the four centers around it. -/
theorem C127_mean [CharZero K] (A : List (List (Option K))) (i j : Nat) (a b c d : K)
    (ha : entry A i j = some (some a)) (hb : entry A (i + 1) j = some (some b))
    (hc : entry A i (j + 1) = some (some c)) (hd : entry A (i + 1) (j + 1) = some (some d)) :
    entry (psi A) i j = some (some ((a + b + c + d) / 4)) := by
  rw [psi_entry A i j _ _ _ _ ha hb hc hd]
  simp only [half]
  congr 2
  field_simp
  ring

/-- C127. A node is masked exactly if one of the four centers around it is. -/
theorem C127_masked (A : List (List (Option K))) (i j : Nat) (a b c d : Option K)
    (ha : entry A i j = some a) (hb : entry A (i + 1) j = some b) (hc : entry A i (j + 1) = some c)
    (hd : entry A (i + 1) (j + 1) = some d) :
    entry (psi A) i j = some none ↔ a = none ∨ b = none ∨ c = none ∨ d = none := by
  rw [psi_entry A i j _ _ _ _ ha hb hc hd]
  cases a <;> cases b <;> cases c <;> cases d <;> simp [half]

/-- C127. A seafloor that is a plane keeps its depth at every node that lies at the mean position of the
four centers around it. -/
theorem C127_plane [CharZero K] (A : List (List (Option K))) (X Y : Nat → Nat → K) (α β γ x y : K)
    (i j : Nat)
    (hA : ∀ r c, r = i ∨ r = i + 1 → c = j ∨ c = j + 1 →
      entry A r c = some (some (α + β * X r c + γ * Y r c)))
    (hx : x = (X i j + X (i + 1) j + X i (j + 1) + X (i + 1) (j + 1)) / 4)
    (hy : y = (Y i j + Y (i + 1) j + Y i (j + 1) + Y (i + 1) (j + 1)) / 4) :
    entry (psi A) i j = some (some (α + β * x + γ * y)) := by
  rw [C127_mean A i j _ _ _ _ (hA i j (Or.inl rfl) (Or.inl rfl)) (hA (i + 1) j (Or.inr rfl) (Or.inl rfl))
    (hA i (j + 1) (Or.inl rfl) (Or.inr rfl)) (hA (i + 1) (j + 1) (Or.inr rfl) (Or.inr rfl)), hx, hy]
  congr 2
  field_simp
  ring

/-- C127. The averages have one row and one column less. -/
theorem C127_shape (A : List (List (Option K))) (c : Nat) (hA : Rectangular c A) :
    (psi A).length = A.length - 1 ∧ Rectangular (c - 1) (psi A) := by
  unfold psi
  refine ⟨by simp [means_length], ?_⟩
  intro r hr
  obtain ⟨q, hq, rfl⟩ := List.mem_map.mp hr
  rw [means_length]
  have : q.length = c := by
    unfold means at hq
    obtain ⟨i, hi, rfl⟩ := List.mem_iff_getElem.mp hq
    rw [List.length_zipWith] at hi
    rw [List.getElem_zipWith, List.length_zipWith]
    have h1 := hA _ (List.dropLast_subset _ (List.getElem_mem (l := A.dropLast) (n := i) (by omega)))
    have h2 := hA _ (List.mem_of_mem_tail (List.getElem_mem (l := A.tail) (n := i) (by omega)))
    omega
  omega

/-- The bathymetry that a loaded depth takes from a file has one value for each node. -/
def ForNodes (g : SIndex.Shapes) (A : List (List (Option K))) : Prop :=
  A.length = g.node.1 ∧ Rectangular g.node.2 A

/-- C127 as stated: bathymetry at nodes or centers ends up at the nodes. -/
def C127_statement : Prop :=
  ∀ (g : SIndex.Shapes) (A : List (List (Option ℚ))) (c : Nat) (out : List (List (Option ℚ))),
    0 < A.length → Rectangular c A →
    (SIndex.inferLocation g [A.length, c] = some .node ∨
      SIndex.inferLocation g [A.length, c] = some .center) →
    bathyOf (fun b => SIndex.inferLocation g [b.length, SIndex.ncols b]) psi {} (some A) =
      .ok (.file out) → ForNodes g out

/-- C127 fails for a grid whose centers are inside the nodes: nine nodes, four centers, one value. -/
theorem C127_refuted : ¬ C127_statement := by
  intro h
  have := h { node := (3, 3), center := some (2, 2) } [[some 1, some 1], [some 1, some 1]] 2 [[some 1]]
    (by decide) (by unfold Rectangular; simp) (Or.inr (by decide)) (by decide +kernel)
  exact absurd this.1 (by decide)

/-- C127 for data at the nodes and for centers around the nodes. Missing: centers inside the nodes. -/
theorem C127_partial (g : SIndex.Shapes) (A : List (List (Option K))) (c : Nat)
    (h0 : 0 < A.length) (hA : Rectangular c A)
    (hloc : SIndex.inferLocation g [A.length, c] = some .node ∨
      (SIndex.inferLocation g [A.length, c] = some .center ∧ g.node.1 < A.length)) :
    ∃ out, bathyOf (fun b => SIndex.inferLocation g [b.length, SIndex.ncols b]) psi {} (some A) =
      .ok (.file out) ∧ ForNodes g out ∧ (out = A ∨ out = psi A) := by
  have hn : SIndex.ncols A = c := SIndex.ncols_eq c A hA (by rintro rfl; simp at h0)
  unfold bathyOf atNodes
  simp only [hn, Bool.false_eq_true, if_false]
  unfold SIndex.inferLocation at *
  simp only [List.reverse_cons, List.reverse_nil, List.nil_append, List.cons_append, Prod.mk.injEq]
    at hloc ⊢
  rcases hloc with h | ⟨h, hlt⟩
  · rw [h]
    refine ⟨A, by simp, ⟨?_, ?_⟩, Or.inl rfl⟩
    · split_ifs at h <;> first | omega | cases h
    · split_ifs at h with _ _ _ h4 <;> first | cases h | skip
      have : c = g.node.2 := by omega
      rwa [← this]
  · rw [h]
    refine ⟨psi A, by simp, ?_, Or.inr rfl⟩
    obtain ⟨s1, s2⟩ := C127_shape A c hA
    split_ifs at h with h1 <;> first | cases h | skip
    have : c - 1 = g.node.2 := by omega
    refine ⟨by omega, ?_⟩
    rwa [← this]

/-- The hypotheses hold for four nodes with nine centers around them, one of them masked. -/
example : SIndex.inferLocation { node := (2, 2), center := some (3, 3) } [3, 3] = some .center ∧
    psi [[some (1 : ℚ), some 2, some 3], [some 4, some 5, some 6], [some 7, some 8, none]] =
      [[some 3, some 4], [some 6, none]] := by
  decide +kernel

end C127

/-! ## C128: sigma depths with some of their parts given -/

section C128
variable {β ζ : Type}

/-- C128 as stated: bathymetry, zeta and time may each be given; what is not given is taken from the
file, data at the nodes as they are and data at the centers averaged. -/
def C128_statement : Prop :=
  ∀ (locB : Nat → Option SIndex.Loc) (locZ : Nat → Option SIndex.Loc) (avg : Nat → Nat) (a : SArgs)
    (b z : Nat) (found : List (String × Option FVar)), locB b ≠ none → locZ z ≠ none →
    ∃ m, makeSigma locB avg avg a (some b) (some z) found = .ok m ∧
      (a.zeta = none → m.zeta = .file (if locZ z = some .node then z else avg z))

/-- C128 fails: with the bathymetry given, looking up zeta is an `UnboundLocalError`. -/
theorem C128_refuted : ¬ C128_statement := by
  intro h
  obtain ⟨m, hm, -⟩ := h (fun _ => some .node) (fun _ => some .node) id { bathymetry := true } 0 0 []
    (by simp) (by simp)
  cases hm

/-- C128 fails: a constant zeta without a time axis is a `TypeError`. -/
theorem C128_refuted_constant_zeta : ¬ C128_statement := by
  intro h
  obtain ⟨m, hm, -⟩ := h (fun _ => some .node) (fun _ => some .node) id { zeta := some false } 0 0 []
    (by simp) (by simp)
  cases hm

/-- C128 fails: zeta at the nodes is averaged if the bathymetry is at the centers. -/
theorem C128_refuted_location : ¬ C128_statement := by
  intro h
  obtain ⟨m, hm, hz⟩ := h (fun _ => some .center) (fun _ => some .node) (· + 1) {} 0 0 []
    (by simp) (by simp)
  have := hz rfl
  cases hm
  cases this

/-- C128. What a loaded depth consists of: given parts are kept, a missing zeta is zero and then the time
is constant, the rest is from the file, treated according to the location of the bathymetry. -/
theorem C128_parts (loc : β → Option SIndex.Loc) (avgB : β → β) (avgZ : ζ → ζ) (a : SArgs)
    (bathyVar : Option β) (zetaVar : Option ζ) (found : List (String × Option FVar)) (m : Made β ζ)
    (h : makeSigma loc avgB avgZ a bathyVar zetaVar found = .ok m) :
    (m.bathymetry = .given ↔ a.bathymetry = true) ∧ (m.zeta = .given ↔ a.zeta ≠ none) ∧
    (m.time = .given ↔ a.time = true) ∧ (m.zeta = .zero ↔ a.zeta = none ∧ zetaVar = none) ∧
    (m.time = .constant ↔ a.time = false ∧ m.zeta = .zero) ∧
    (m.time = .ofFile ↔ a.time = false ∧ ∃ z, m.zeta = .file z) ∧
    (a.bathymetry = false → ∃ b, bathyVar = some b ∧ loc b ≠ none ∧
      m.bathymetry = .file (if loc b = some .node then b else avgB b)) ∧
    (∀ z, a.zeta = none → zetaVar = some z → ∃ b, bathyVar = some b ∧
      m.zeta = .file (if loc b = some .node then z else avgZ z)) := by
  unfold makeSigma at h
  cases ht : timeOf a zetaVar.isSome with
  | error e => rw [ht] at h; cases h
  | ok time =>
    rw [ht] at h
    simp only at h
    cases hb : bathyOf loc avgB a bathyVar with
    | error e => rw [hb] at h; cases h
    | ok bb =>
      rw [hb] at h
      simp only at h
      cases hz : zetaOf loc avgZ a bathyVar zetaVar with
      | error e => rw [hz] at h; cases h
      | ok zz =>
        rw [hz] at h
        simp only [Except.ok.injEq] at h
        subst h
        obtain ⟨at', ab, az, aterms⟩ := a
        unfold timeOf at ht
        unfold bathyOf atNodes at hb
        unfold zetaOf atNodes at hz
        simp only at ht hb hz ⊢
        cases ab
        · simp only [Bool.false_eq_true, if_false] at hb hz
          cases bathyVar with
          | none => cases hb
          | some b =>
            simp only at hb hz
            cases hl : loc b with
            | none => rw [hl] at hb; cases hb
            | some l =>
              rw [hl] at hb hz
              simp only [Except.ok.injEq] at hb hz
              subst hb
              rcases az with _ | (_ | _) <;> cases at' <;> cases zetaVar <;> cases l <;>
                simp at ht hz <;> subst ht <;> subst hz <;> simp [hl]
        · simp only [if_true, Except.ok.injEq] at hb hz
          subst hb
          rcases az with _ | (_ | _) <;> cases at' <;> cases zetaVar <;>
            simp at ht hz <;> subst ht <;> subst hz <;> simp

/-- C128. When a sigma depth can be loaded: the location of the bathymetry of the file must be known
unless the bathymetry is given, in which case zeta must be given or missing; a given zeta without a time
needs a time. -/
theorem C128_served_partial (loc : β → Option SIndex.Loc) (avgB : β → β) (avgZ : ζ → ζ) (a : SArgs)
    (bathyVar : Option β) (zetaVar : Option ζ) (found : List (String × Option FVar)) :
    (∃ m, makeSigma loc avgB avgZ a bathyVar zetaVar found = .ok m) ↔
      (a.time = true ∨ a.zeta ≠ some false) ∧
      ((a.bathymetry = false ∧ ∃ b, bathyVar = some b ∧ loc b ≠ none) ∨
        (a.bathymetry = true ∧ (a.zeta ≠ none ∨ zetaVar = none))) := by
  obtain ⟨at', ab, az, aterms⟩ := a
  unfold makeSigma timeOf bathyOf zetaOf atNodes
  cases ab <;> rcases az with _ | (_ | _) <;> cases at' <;> cases zetaVar <;> cases bathyVar <;> simp
  all_goals
    rename_i b
    cases hl : loc b <;> simp

/-- A file with bathymetry at the centers and zeta, with nothing given; one without zeta; and a given
bathymetry with a given zeta that has a time. -/
example : makeSigma (fun _ : Nat => some .center) (· + 10) (· + 20) {} (some 1) (some 2) [] =
      .ok ⟨.ofFile, .file 11, .file 22, []⟩ ∧
    makeSigma (fun _ : Nat => some .node) (· + 10) (fun z : Nat => z) {} (some 1) none [] =
      .ok ⟨.constant, .file 1, .zero, []⟩ ∧
    makeSigma (fun _ : Nat => some .node) (· + 10) (fun z : Nat => z)
      { bathymetry := true, zeta := some true } none (some 2) [] = .ok ⟨.ofZeta, .given, .given, []⟩ := by
  decide

/-- C128 and C127 for a ROMS file with nothing given, bathymetry and zeta at the centers around the nodes:
every node has the mean of the four centers around it, at every time. -/
theorem C128_roms {K : Type} [Field K] (g : SIndex.Shapes) (A : List (List (Option K)))
    (Z : List (List (List (Option K)))) (c : Nat) (found : List (String × Option FVar)) (h0 : 0 < A.length)
    (hA : Rectangular c A) (hZ : ∀ z ∈ Z, z.length = A.length ∧ Rectangular c z)
    (hloc : SIndex.inferLocation g [A.length, c] = some .center) (hlt : g.node.1 < A.length) :
    makeRoms g {} (some A) (some Z) found =
        .ok ⟨.ofFile, .file (psi A), .file (Z.map psi), termsOf {} found⟩ ∧
      ForNodes g (psi A) ∧ ∀ z ∈ Z, ForNodes g (psi z) := by
  have hn : SIndex.ncols A = c := SIndex.ncols_eq c A hA (by rintro rfl; simp at h0)
  have hs : c - 1 = g.node.2 ∧ A.length - 1 = g.node.1 := by
    unfold SIndex.inferLocation at hloc
    simp only [List.reverse_cons, List.reverse_nil, List.nil_append, List.cons_append, Prod.mk.injEq]
      at hloc
    split_ifs at hloc with h1 <;> first | cases hloc | skip
    omega
  have shape : ∀ z : List (List (Option K)), z.length = A.length → Rectangular c z → ForNodes g (psi z) := by
    intro z hl hz
    obtain ⟨s1, s2⟩ := C127_shape z c hz
    exact ⟨by omega, hs.1 ▸ s2⟩
  refine ⟨?_, shape A rfl hA, fun z hz => shape z (hZ z hz).1 (hZ z hz).2⟩
  unfold makeRoms makeSigma timeOf bathyOf zetaOf atNodes
  simp [hn, hloc]

end C128

/-! ## C129: terms named by the caller -/

section C129

/-- C129 as stated: "Direct mapping of component name to netCDF variable name. Partial definition is
allowable." A term named by the caller is the variable of that name, the others are found. -/
def C129_statement : Prop :=
  ∀ (a : SArgs) (ds : List FVar) (given : List (String × String)) (found : List (String × Option FVar)),
    a.terms = some given → (given.map Prod.fst).Nodup →
    (∀ k n v, (k, n) ∈ given → v ∈ ds → v.name = n → (k, .data v) ∈ termsOf a found) ∧
    (∀ k v, (k, some v) ∈ found → k ≠ "bathymetry" → k ≠ "zeta" → k ∉ given.map Prod.fst →
      (k, .data v) ∈ termsOf a found)

/-- C129 fails: the term is the name itself. -/
theorem C129_refuted : ¬ C129_statement := by
  intro h
  have := (h { terms := some [("hc", "Tcline")] } [⟨"Tcline", none, none⟩] [("hc", "Tcline")] [] rfl
    (by decide)).1 "hc" "Tcline" ⟨"Tcline", none, none⟩ (by decide) (by decide) rfl
  revert this
  decide

/-- C129 fails: the terms not named are not looked up. -/
theorem C129_refuted_others : ¬ C129_statement := by
  intro h
  have := (h { terms := some [("hc", "Tcline")] } [] [("hc", "Tcline")]
    [("s_w", some ⟨"s_w", none, none⟩)] rfl (by decide)).2 "s_w" ⟨"s_w", none, none⟩ (by decide)
    (by decide) (by decide) (by decide)
  revert this
  decide

/-- C129 without names: the terms are exactly the variables found. With names: exactly the names.
Missing: variables for names. -/
theorem C129_partial (a : SArgs) (found : List (String × Option FVar)) :
    (a.terms = none → ∀ k t, (k, t) ∈ termsOf a found ↔
      k ≠ "bathymetry" ∧ k ≠ "zeta" ∧ ∃ v, (k, some v) ∈ found ∧ t = .data v) ∧
    (∀ given, a.terms = some given → ∀ k t, (k, t) ∈ termsOf a found ↔
      ∃ n, (k, n) ∈ given ∧ t = .text n) := by
  refine ⟨?_, ?_⟩
  · intro h k t
    unfold termsOf
    rw [h]
    simp only [List.mem_filterMap, List.mem_filter, Option.map_eq_some_iff, Prod.mk.injEq]
    constructor
    · rintro ⟨⟨k', o⟩, ⟨hm, hk⟩, v, ho, rfl, rfl⟩
      simp only at ho
      subst ho
      simp only [Bool.not_eq_true', Bool.or_eq_false_iff, beq_eq_false_iff_ne, ne_eq] at hk
      exact ⟨hk.1, hk.2, v, hm, rfl⟩
    · rintro ⟨h1, h2, v, hm, rfl⟩
      exact ⟨(k, some v), ⟨hm, by simp [h1, h2]⟩, v, rfl, rfl, rfl⟩
  · intro given h k t
    unfold termsOf
    rw [h]
    simp only [List.mem_map, Prod.mk.injEq]
    constructor
    · rintro ⟨⟨k', n⟩, hm, rfl, rfl⟩
      exact ⟨n, hm, rfl⟩
    · rintro ⟨n, hm, rfl⟩
      exact ⟨(k, n), hm, rfl, rfl⟩

/-- The terms found in a file with two of them, one missing, and the bathymetry. -/
example : termsOf {} [("Cs_r", some ⟨"Cs_r", none, none⟩), ("hc", none),
    ("bathymetry", some ⟨"h", none, none⟩), ("s_w", some ⟨"s_w", none, none⟩)] =
    [("Cs_r", .data ⟨"Cs_r", none, none⟩), ("s_w", .data ⟨"s_w", none, none⟩)] := by
  decide

end C129

/-! ## C130: level depths given by the caller -/

section C130
variable {K : Type} [Field K] [LinearOrder K] [IsStrictOrderedRing K]

/-- C130 as stated: loading leaves the caller's levels as they are. -/
def C130_statement : Prop :=
  ∀ (l : List ℚ) (inFile : Option (List ℚ)) (out : List ℚ) (after : Option (List ℚ)),
    makeLevels (some l) inFile = .ok (out, after) → after = some l

/-- C130 fails: the shallowest level is set to zero in the caller's own array. -/
theorem C130_refuted : ¬ C130_statement := by
  intro h
  exact absurd (h [10, 20] none [0, 20] (some [0, 20]) (by decide +kernel)) (by decide +kernel)

/-- C130. What happens to the caller's levels happens to those of the object, and the file does not
matter; they stay as they are if the shallowest one is already zero. Missing: other levels. -/
theorem C130_partial (l : List K) (inFile : Option (List K)) (out : List K) (after : Option (List K))
    (h : makeLevels (some l) inFile = .ok (out, after)) :
    after = some out ∧ out.length = l.length ∧ makeLevels none (some l) = .ok (out, none) ∧
      (0 ∈ l → (∀ x ∈ l, 0 ≤ x) → after = some l) := by
  unfold makeLevels at *
  simp only at h ⊢
  cases hz : DepthM.zeroTop l with
  | error e => rw [hz] at h; cases h
  | ok r =>
    rw [hz] at h
    simp only [Except.ok.injEq, Prod.mk.injEq] at h
    obtain ⟨rfl, rfl⟩ := h
    obtain ⟨s, a, hs, hle, rfl⟩ := C65_zeroed_is_smallest l r hz
    refine ⟨rfl, by simp, rfl, ?_⟩
    intro h0 hpos
    have ha : a = 0 := le_antisymm (hle 0 h0) (hpos a (List.mem_of_getElem? hs))
    subst ha
    obtain ⟨hs, he⟩ := List.getElem?_eq_some_iff.mp hs
    conv_rhs => rw [← List.set_getElem_self hs, he]

/-- The hypotheses hold for levels listed from the bottom. -/
example : makeLevels (some [30, 10, (0 : ℚ)]) none = .ok ([30, 10, 0], some [30, 10, 0]) := by
  decide +kernel

end C130

end Verif
