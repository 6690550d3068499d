import Verif.Lemmas.Depth

set_option autoImplicit false

namespace Verif.DepthM
open Verif.Spec

variable {K : Type*} [Field K] [LinearOrder K] [IsStrictOrderedRing K]

/-- What a finished entry says about a point at depth `d` with column `col` listed from the surface
down (`cm`: the column is masked). -/
def AscSigma (rnd : K → K) (col : List K) (cm sm bm : Bool) (d : K) (e : Entry K) : Prop :=
  ∀ first last, col[0]? = some first → col[col.length - 1]? = some last →
  (d < first → e.masked = (cm || sm) ∧ e.alpha = some 1 ∧ e.idx = -1) ∧
  (last ≤ d → e.masked = (cm || bm) ∧ e.alpha = some 0 ∧ e.idx = (col.length : Int) - 1) ∧
  (first ≤ d → d < last → e.masked = cm ∧ ∃ (j : Nat) (a b : K), e.idx = (j : Int) ∧
    col[j]? = some a ∧ col[j + 1]? = some b ∧ a ≤ d ∧ d < b ∧
    (cm = false → e.alpha = ratio rnd d a b))

/-- The same for a column listed from the bottom up. -/
def DescSigma (rnd : K → K) (col : List K) (cm sm bm : Bool) (d : K) (e : Entry K) : Prop :=
  ∀ first last, col[0]? = some first → col[col.length - 1]? = some last →
  (d < last → e.masked = (cm || sm) ∧ e.alpha = some 0 ∧ e.idx = (col.length : Int) - 1) ∧
  (first ≤ d → e.masked = (cm || bm) ∧ e.alpha = some 1 ∧ e.idx = -1) ∧
  (last ≤ d → d < first → e.masked = cm ∧ ∃ (j : Nat) (a b : K), e.idx = (j : Int) ∧
    col[j]? = some a ∧ col[j + 1]? = some b ∧ b ≤ d ∧ d < a ∧
    (cm = false → e.alpha = ratio rnd d a b))

omit [IsStrictOrderedRing K] in
theorem row_reads {row : List K} (hn : 2 ≤ row.length) (e : Entry K) :
    ∃ l0 l1, Np.pyGet row (min (max (if e.masked then 0 else e.idx) 0) ((row.length : Int) - 2))
        = .ok l0 ∧
      Np.pyGet row (min (max (if e.masked then 0 else e.idx) 0) ((row.length : Int) - 2) + 1)
        = .ok l1 := by
  generalize hc : min (max (if e.masked then 0 else e.idx) 0) ((row.length : Int) - 2) = c
  have h0 : 0 ≤ c := by rw [← hc]; omega
  have h1 : c ≤ (row.length : Int) - 2 := by rw [← hc]; omega
  obtain ⟨m, rfl⟩ := Int.eq_ofNat_of_zero_le h0
  refine ⟨row[m]'(by omega), row[m + 1]'(by omega),
    Np.pyGet_nonneg (List.getElem?_eq_getElem _), ?_⟩
  exact_mod_cast Np.pyGet_nonneg (i := m + 1) (List.getElem?_eq_getElem (by omega))

/-- `sm`/`bm`: does this condition mask? Everything but `'extrapolate'` does. -/
theorem sigma_point_asc {rnd : K → K} {row : List K} (hs : row.Pairwise (· < ·))
    (hn : 2 ≤ row.length) (sbc bbc : BC) (d : K) (cm : Bool) :
    ∃ k e, Np.digitize d row false = .ok k ∧
      sigmaWithin rnd d row (applyBC 0 ((row.length : Int) - 1) sbc bbc
        { idx := (k : Int) - 1, alpha := none, masked := cm }) = .ok e ∧
      AscSigma rnd row cm (decide (sbc ≠ .extrapolate)) (decide (bbc ≠ .extrapolate)) d e := by
  obtain ⟨k, hk, hkn, hlo, hhi⟩ := Np.digitize_incr hs d
  obtain ⟨first, h0⟩ : ∃ x, row[0]? = some x := ⟨_, List.getElem?_eq_getElem (by omega)⟩
  obtain ⟨last, h1⟩ : ∃ x, row[row.length - 1]? = some x := ⟨_, List.getElem?_eq_getElem (by omega)⟩
  have hfl : first < last := Np.pairwise_get?_lt hs (by omega) h0 h1
  refine ⟨k, ?_⟩
  rcases Nat.eq_zero_or_pos k with rfl | hkpos
  · have hd : d < first := hhi 0 first (Nat.le_refl _) h0
    have hent : applyBC 0 ((row.length : Int) - 1) sbc bbc
        ({ idx := ((0 : Nat) : Int) - 1, alpha := none, masked := cm } : Entry K)
        = { idx := -1, alpha := some 1, masked := cm || decide (sbc ≠ .extrapolate) } := by
      have : ¬ ((row.length : Int) - 1 ≤ -1) := by omega
      cases sbc <;> cases bbc <;> cases cm <;> simp [applyBC, this]
    rw [hent]
    obtain ⟨l0, l1, r0, r1⟩ := row_reads hn
      ({ idx := -1, alpha := some 1, masked := cm || decide (sbc ≠ .extrapolate) } : Entry K)
    refine ⟨{ idx := -1, alpha := some 1, masked := cm || decide (sbc ≠ .extrapolate) }, hk, ?_, ?_⟩
    · simp only [sigmaWithin]
      simp only at r0 r1
      rw [r0, r1]
    · intro f l hf hl
      rw [h0] at hf; rw [h1] at hl; cases hf; cases hl
      exact ⟨fun _ => ⟨rfl, rfl, rfl⟩, fun h => absurd hd (not_lt.mpr (le_trans (le_of_lt hfl) h)),
        fun h _ => absurd hd (not_lt.mpr h)⟩
  · rcases Nat.lt_or_eq_of_le hkn with hlt | heq
    · obtain ⟨j, rfl⟩ : ∃ j, k = j + 1 := ⟨k - 1, by omega⟩
      have ha : row[j]? = some row[j] := List.getElem?_eq_getElem (by omega)
      have hb : row[j + 1]? = some row[j + 1] := List.getElem?_eq_getElem hlt
      have had : row[j] ≤ d := hlo j _ (by omega) ha
      have hdb : d < row[j + 1] := hhi (j + 1) _ (Nat.le_refl _) hb
      have hfd : first ≤ d := hlo 0 _ (by omega) h0
      have hdl : d < last := hhi _ _ (by omega) h1
      have e1 : (((j + 1 : Nat) : Int) - 1) = (j : Int) := by push_cast; ring
      have g1 : ¬ ((j : Int) < 0) := by omega
      have g2 : ¬ ((row.length : Int) - 1 ≤ (j : Int)) := by omega
      have hent : applyBC 0 ((row.length : Int) - 1) sbc bbc
          ({ idx := ((j + 1 : Nat) : Int) - 1, alpha := none, masked := cm } : Entry K)
          = { idx := (j : Int), alpha := none, masked := cm } := by
        rw [e1]
        cases sbc <;> cases bbc <;> cases cm <;> simp [applyBC, g1, g2]
      rw [hent]
      obtain ⟨l0, l1, r0, r1⟩ := row_reads hn
        ({ idx := (j : Int), alpha := none, masked := cm } : Entry K)
      refine ⟨{ idx := (j : Int), alpha := ratio rnd d l0 l1, masked := cm }, hk, ?_, ?_⟩
      · simp only [sigmaWithin]
        simp only at r0 r1
        rw [r0, r1]
      · intro f l hf hl
        rw [h0] at hf; rw [h1] at hl; cases hf; cases hl
        refine ⟨fun h => absurd h (not_lt.mpr hfd), fun h => absurd hdl (not_lt.mpr h),
          fun _ _ => ⟨rfl, j, _, _, rfl, ha, hb, had, hdb, ?_⟩⟩
        rintro rfl
        have hc : min (max (if false = true then 0 else (j : Int)) 0) ((row.length : Int) - 2)
            = (j : Int) := by
          simp only [Bool.false_eq_true, if_false]; omega
        simp only at r0 r1
        rw [hc] at r0 r1
        rw [Np.pyGet_nonneg ha] at r0
        rw [show ((j : Int) + 1) = ((j + 1 : Nat) : Int) by push_cast; rfl,
          Np.pyGet_nonneg hb] at r1
        cases r0; cases r1; rfl
    · subst heq
      have hd : last ≤ d := hlo _ last (by omega) h1
      have g1 : ¬ ((row.length : Int) - 1 < 0) := by omega
      have hent : applyBC 0 ((row.length : Int) - 1) sbc bbc
          ({ idx := (row.length : Int) - 1, alpha := none, masked := cm } : Entry K)
          = { idx := (row.length : Int) - 1, alpha := some 0,
              masked := cm || decide (bbc ≠ .extrapolate) } := by
        cases sbc <;> cases bbc <;> cases cm <;> simp [applyBC, g1]
      rw [hent]
      obtain ⟨l0, l1, r0, r1⟩ := row_reads hn
        ({ idx := (row.length : Int) - 1, alpha := some 0,
           masked := cm || decide (bbc ≠ .extrapolate) } : Entry K)
      refine ⟨{ idx := (row.length : Int) - 1, alpha := some 0, masked := cm || decide (bbc ≠ .extrapolate) }, hk, ?_, ?_⟩
      · simp only [sigmaWithin]
        simp only at r0 r1
        rw [r0, r1]
      · intro f l hf hl
        rw [h0] at hf; rw [h1] at hl; cases hf; cases hl
        exact ⟨fun h => absurd h (not_lt.mpr (le_trans (le_of_lt hfl) hd)),
          fun _ => ⟨rfl, rfl, rfl⟩, fun _ h => absurd h (not_lt.mpr hd)⟩

theorem sigma_point_desc {rnd : K → K} {row : List K} (hs : row.Pairwise (· > ·))
    (hn : 2 ≤ row.length) (sbc bbc : BC) (d : K) (cm : Bool) :
    ∃ k e, Np.digitize d row false = .ok k ∧
      sigmaWithin rnd d row (applyBC ((row.length : Int) - 1) 0 sbc bbc
        { idx := (k : Int) - 1, alpha := none, masked := cm }) = .ok e ∧
      DescSigma rnd row cm (decide (sbc ≠ .extrapolate)) (decide (bbc ≠ .extrapolate)) d e := by
  obtain ⟨k, hk, hkn, hlo, hhi⟩ := Np.digitize_decr hs hn d false
  simp only [Bool.false_eq_true, if_false] at hlo hhi
  obtain ⟨first, h0⟩ : ∃ x, row[0]? = some x := ⟨_, List.getElem?_eq_getElem (by omega)⟩
  obtain ⟨last, h1⟩ : ∃ x, row[row.length - 1]? = some x := ⟨_, List.getElem?_eq_getElem (by omega)⟩
  have hfl : first > last := Np.pairwise_get?_lt hs (by omega) h0 h1
  have hs0 : ¬ ((row.length : Int) - 1 = 0) := by omega
  refine ⟨k, ?_⟩
  rcases Nat.eq_zero_or_pos k with rfl | hkpos
  · have hd : first ≤ d := hhi 0 first (Nat.le_refl _) h0
    have hent : applyBC ((row.length : Int) - 1) 0 sbc bbc
        ({ idx := ((0 : Nat) : Int) - 1, alpha := none, masked := cm } : Entry K)
        = { idx := -1, alpha := some 1, masked := cm || decide (bbc ≠ .extrapolate) } := by
      have : ¬ ((row.length : Int) - 1 ≤ -1) := by omega
      cases sbc <;> cases bbc <;> cases cm <;> simp [applyBC, this, hs0]
    rw [hent]
    obtain ⟨l0, l1, r0, r1⟩ := row_reads hn
      ({ idx := -1, alpha := some 1, masked := cm || decide (bbc ≠ .extrapolate) } : Entry K)
    refine ⟨{ idx := -1, alpha := some 1, masked := cm || decide (bbc ≠ .extrapolate) }, hk, ?_, ?_⟩
    · simp only [sigmaWithin]
      simp only at r0 r1
      rw [r0, r1]
    · intro f l hf hl
      rw [h0] at hf; rw [h1] at hl; cases hf; cases hl
      exact ⟨fun h => absurd h (not_lt.mpr (le_trans (le_of_lt hfl) hd)),
        fun _ => ⟨rfl, rfl, rfl⟩, fun _ h => absurd h (not_lt.mpr hd)⟩
  · rcases Nat.lt_or_eq_of_le hkn with hlt | heq
    · obtain ⟨j, rfl⟩ : ∃ j, k = j + 1 := ⟨k - 1, by omega⟩
      have ha : row[j]? = some row[j] := List.getElem?_eq_getElem (by omega)
      have hb : row[j + 1]? = some row[j + 1] := List.getElem?_eq_getElem hlt
      have had : d < row[j] := hlo j _ (by omega) ha
      have hdb : row[j + 1] ≤ d := hhi (j + 1) _ (Nat.le_refl _) hb
      have hfd : d < first := hlo 0 _ (by omega) h0
      have hdl : last ≤ d := hhi _ _ (by omega) h1
      have e1 : (((j + 1 : Nat) : Int) - 1) = (j : Int) := by push_cast; ring
      have g1 : ¬ ((j : Int) < 0) := by omega
      have g2 : ¬ ((row.length : Int) - 1 ≤ (j : Int)) := by omega
      have hent : applyBC ((row.length : Int) - 1) 0 sbc bbc
          ({ idx := ((j + 1 : Nat) : Int) - 1, alpha := none, masked := cm } : Entry K)
          = { idx := (j : Int), alpha := none, masked := cm } := by
        rw [e1]
        cases sbc <;> cases bbc <;> cases cm <;> simp [applyBC, g1, g2, hs0]
      rw [hent]
      obtain ⟨l0, l1, r0, r1⟩ := row_reads hn
        ({ idx := (j : Int), alpha := none, masked := cm } : Entry K)
      refine ⟨{ idx := (j : Int), alpha := ratio rnd d l0 l1, masked := cm }, hk, ?_, ?_⟩
      · simp only [sigmaWithin]
        simp only at r0 r1
        rw [r0, r1]
      · intro f l hf hl
        rw [h0] at hf; rw [h1] at hl; cases hf; cases hl
        refine ⟨fun h => absurd h (not_lt.mpr hdl), fun h => absurd hfd (not_lt.mpr h),
          fun _ _ => ⟨rfl, j, _, _, rfl, ha, hb, hdb, had, ?_⟩⟩
        rintro rfl
        have hc : min (max (if false = true then 0 else (j : Int)) 0) ((row.length : Int) - 2)
            = (j : Int) := by
          simp only [Bool.false_eq_true, if_false]; omega
        simp only at r0 r1
        rw [hc] at r0 r1
        rw [Np.pyGet_nonneg ha] at r0
        rw [show ((j : Int) + 1) = ((j + 1 : Nat) : Int) by push_cast; rfl,
          Np.pyGet_nonneg hb] at r1
        cases r0; cases r1; rfl
    · subst heq
      have hd : d < last := hlo _ last (by omega) h1
      have g1 : ¬ ((row.length : Int) - 1 < 0) := by omega
      have hent : applyBC ((row.length : Int) - 1) 0 sbc bbc
          ({ idx := (row.length : Int) - 1, alpha := none, masked := cm } : Entry K)
          = { idx := (row.length : Int) - 1, alpha := some 0,
              masked := cm || decide (sbc ≠ .extrapolate) } := by
        cases sbc <;> cases bbc <;> cases cm <;> simp [applyBC, g1, hs0]
      rw [hent]
      obtain ⟨l0, l1, r0, r1⟩ := row_reads hn
        ({ idx := (row.length : Int) - 1, alpha := some 0,
           masked := cm || decide (sbc ≠ .extrapolate) } : Entry K)
      refine ⟨{ idx := (row.length : Int) - 1, alpha := some 0, masked := cm || decide (sbc ≠ .extrapolate) }, hk, ?_, ?_⟩
      · simp only [sigmaWithin]
        simp only at r0 r1
        rw [r0, r1]
      · intro f l hf hl
        rw [h0] at hf; rw [h1] at hl; cases hf; cases hl
        exact ⟨fun _ => ⟨rfl, rfl, rfl⟩,
          fun h => absurd hd (not_lt.mpr (le_trans (le_of_lt hfl) h)),
          fun h _ => absurd hd (not_lt.mpr h)⟩

/-- A point: its depth, its water column and whether the column is masked. -/
structure Pt (K : Type*) where
  d : K
  col : List K
  cm : Bool

omit [IsStrictOrderedRing K] in
theorem sigma_passes {rnd : K → K} {surf bot : Int} {sbc bbc : BC} {R : Pt K → Entry K → Prop}
    (pts : List (Pt K))
    (h : ∀ p ∈ pts, ∃ k e, Np.digitize p.d p.col false = .ok k ∧
      sigmaWithin rnd p.d p.col (applyBC surf bot sbc bbc
        { idx := (k : Int) - 1, alpha := none, masked := p.cm }) = .ok e ∧ R p e) :
    ∃ ks out,
      mapE (fun p : K × List K => Np.digitize p.1 p.2 false)
        ((pts.map Pt.d).zip (pts.map Pt.col)) = .ok ks ∧
      mapE (fun p : K × List K × Entry K => sigmaWithin rnd p.1 p.2.1 p.2.2)
        ((pts.map Pt.d).zip ((pts.map Pt.col).zip ((ks.zip (pts.map Pt.cm)).map fun p =>
          applyBC surf bot sbc bbc { idx := (p.1 : Int) - 1, alpha := none, masked := p.2 })))
        = .ok out ∧ List.Forall₂ R pts out := by
  induction pts with
  | nil => exact ⟨[], [], rfl, rfl, List.Forall₂.nil⟩
  | cons p ps ih =>
    obtain ⟨k, e, h1, h2, h3⟩ := h p (by simp)
    obtain ⟨ks, out, g1, g2, g3⟩ := ih (fun x hx => h x (by simp [hx]))
    refine ⟨k :: ks, e :: out, by simp [mapE, h1, g1], ?_, List.Forall₂.cons h3 g3⟩
    simp only [List.map_cons, List.zip_cons_cons, mapE, h2, g2]

omit [IsStrictOrderedRing K] in
theorem any_false_pts {R : Pt K → Entry K → Prop} {p : Entry K → Bool} {l : List (Pt K)}
    {out : List (Entry K)} (hf : List.Forall₂ R l out) (h : ∀ d ∈ l, ∀ e, R d e → p e = false) :
    out.any p = false := by
  induction hf with
  | nil => rfl
  | cons hr _ ih =>
    simp [h _ (by simp) _ hr, ih (fun d hd => h d (by simp [hd]))]

theorem sigmaAlphas_asc {rnd : K → K} (hr : Rounding rnd) (hk : KeepsNonzero rnd) (n nl : Nat)
    (hn : 2 ≤ n) (pts : List (Pt K))
    (hp : ∀ p ∈ pts, p.col.Pairwise (· < ·) ∧ p.col.length = n) (sbc bbc : BC) :
    ∃ out, sigmaAlphas rnd 0 ((n : Int) - 1) n nl n sbc bbc (pts.map Pt.d) (pts.map Pt.col)
        (pts.map Pt.cm) = .ok out ∧
      List.Forall₂ (fun p e => AscSigma rnd p.col p.cm (decide (sbc ≠ .extrapolate))
        (decide (bbc ≠ .extrapolate)) p.d e) pts out := by
  obtain ⟨ks, out, g1, g2, g3⟩ := sigma_passes (rnd := rnd) (surf := 0) (bot := (n : Int) - 1)
    (sbc := sbc) (bbc := bbc) (R := fun p e => AscSigma rnd p.col p.cm
      (decide (sbc ≠ .extrapolate)) (decide (bbc ≠ .extrapolate)) p.d e) pts (by
      intro p hpm
      obtain ⟨h1, h2⟩ := hp p hpm
      have := sigma_point_asc (rnd := rnd) h1 (by omega) sbc bbc p.d p.cm
      rw [h2] at this
      exact this)
  refine ⟨out, ?_, g3⟩
  have key : ∀ p ∈ pts, ∀ e, AscSigma rnd p.col p.cm (decide (sbc ≠ .extrapolate))
      (decide (bbc ≠ .extrapolate)) p.d e → e.masked = true ∨
        ∃ α, e.alpha = some α ∧ 0 ≤ α ∧ α ≤ 1 := by
    intro p hpm e he
    obtain ⟨h1, h2⟩ := hp p hpm
    obtain ⟨ha, hb, hc⟩ := he (p.col[0]'(by omega)) (p.col[p.col.length - 1]'(by omega))
      (List.getElem?_eq_getElem _) (List.getElem?_eq_getElem _)
    rcases lt_or_ge p.d (p.col[0]'(by omega)) with h | h
    · exact Or.inr ⟨1, (ha h).2.1, zero_le_one, le_refl _⟩
    · rcases lt_or_ge p.d (p.col[p.col.length - 1]'(by omega)) with h' | h'
      · obtain ⟨hm, j, a, b, _, _, _, had, hdb, hal⟩ := hc h h'
        cases hcm : p.cm with
        | true => left; rw [hm, hcm]
        | false =>
          obtain ⟨α, q1, q2, q3⟩ := ratio_incr hr hk (lt_of_le_of_lt had hdb) had (le_of_lt hdb)
          exact Or.inr ⟨α, by rw [hal hcm, q1], q2, q3⟩
      · exact Or.inr ⟨0, (hb h').2.1, le_refl _, zero_le_one⟩
  unfold sigmaAlphas
  rw [if_neg (by omega), if_neg (by simp), g1]
  simp only
  rw [g2]
  simp only
  rw [any_false_pts g3, any_false_pts g3]
  · simp
  · intro p hpm e he
    rcases key p hpm e he with h | ⟨α, h1, h2, h3⟩
    · cases e.alpha <;> simp [h]
    · simp [h1, not_lt.mpr h2, not_lt.mpr h3]
  · intro p hpm e he
    rcases key p hpm e he with h | ⟨α, h1, h2, h3⟩
    · simp [h]
    · simp [h1]

theorem sigmaAlphas_desc {rnd : K → K} (hr : Rounding rnd) (hk : KeepsNonzero rnd) (n nl : Nat)
    (hn : 2 ≤ n) (pts : List (Pt K))
    (hp : ∀ p ∈ pts, p.col.Pairwise (· > ·) ∧ p.col.length = n) (sbc bbc : BC) :
    ∃ out, sigmaAlphas rnd ((n : Int) - 1) 0 n nl n sbc bbc (pts.map Pt.d) (pts.map Pt.col)
        (pts.map Pt.cm) = .ok out ∧
      List.Forall₂ (fun p e => DescSigma rnd p.col p.cm (decide (sbc ≠ .extrapolate))
        (decide (bbc ≠ .extrapolate)) p.d e) pts out := by
  obtain ⟨ks, out, g1, g2, g3⟩ := sigma_passes (rnd := rnd) (surf := (n : Int) - 1) (bot := 0)
    (sbc := sbc) (bbc := bbc) (R := fun p e => DescSigma rnd p.col p.cm
      (decide (sbc ≠ .extrapolate)) (decide (bbc ≠ .extrapolate)) p.d e) pts (by
      intro p hpm
      obtain ⟨h1, h2⟩ := hp p hpm
      have := sigma_point_desc (rnd := rnd) h1 (by omega) sbc bbc p.d p.cm
      rw [h2] at this
      exact this)
  refine ⟨out, ?_, g3⟩
  have key : ∀ p ∈ pts, ∀ e, DescSigma rnd p.col p.cm (decide (sbc ≠ .extrapolate))
      (decide (bbc ≠ .extrapolate)) p.d e → e.masked = true ∨
        ∃ α, e.alpha = some α ∧ 0 ≤ α ∧ α ≤ 1 := by
    intro p hpm e he
    obtain ⟨h1, h2⟩ := hp p hpm
    obtain ⟨ha, hb, hc⟩ := he (p.col[0]'(by omega)) (p.col[p.col.length - 1]'(by omega))
      (List.getElem?_eq_getElem _) (List.getElem?_eq_getElem _)
    rcases lt_or_ge p.d (p.col[p.col.length - 1]'(by omega)) with h | h
    · exact Or.inr ⟨0, (ha h).2.1, le_refl _, zero_le_one⟩
    · rcases lt_or_ge p.d (p.col[0]'(by omega)) with h' | h'
      · obtain ⟨hm, j, a, b, _, _, _, had, hdb, hal⟩ := hc h h'
        cases hcm : p.cm with
        | true => left; rw [hm, hcm]
        | false =>
          obtain ⟨α, q1, q2, q3⟩ := ratio_decr hr hk (lt_of_le_of_lt had hdb) had (le_of_lt hdb)
          exact Or.inr ⟨α, by rw [hal hcm, q1], q2, q3⟩
      · exact Or.inr ⟨1, (hb h').2.1, zero_le_one, le_refl _⟩
  unfold sigmaAlphas
  rw [if_neg (by omega), if_neg (by simp), g1]
  simp only
  rw [g2]
  simp only
  rw [any_false_pts g3, any_false_pts g3]
  · simp
  · intro p hpm e he
    rcases key p hpm e he with h | ⟨α, h1, h2, h3⟩
    · cases e.alpha <;> simp [h]
    · simp [h1, not_lt.mpr h2, not_lt.mpr h3]
  · intro p hpm e he
    rcases key p hpm e he with h | ⟨α, h1, h2, h3⟩
    · simp [h]
    · simp [h1]

end Verif.DepthM
