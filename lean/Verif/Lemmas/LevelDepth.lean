import Verif.Lemmas.Depth

set_option autoImplicit false

namespace Verif.DepthM
open Verif.Spec

variable {K : Type*} [Field K] [LinearOrder K] [IsStrictOrderedRing K]

/-- What a finished entry says about depth `d`, for levels listed from the surface down. -/
def AscEntry (rnd : K → K) (col : List K) (sm bm : Bool) (first last d : K) (e : Entry K) : Prop :=
  (d < first → e.masked = sm ∧ e.alpha = some 1 ∧ e.idx = -1) ∧
  (last ≤ d → e.masked = bm ∧ e.alpha = some 0 ∧ e.idx = (col.length : Int) - 1) ∧
  (first ≤ d → d < last → e.masked = false ∧ ∃ (j : Nat) (a b : K), e.idx = (j : Int) ∧
    col[j]? = some a ∧ col[j + 1]? = some b ∧ a ≤ d ∧ d < b ∧ e.alpha = ratio rnd d a b)

theorem level_point_asc {rnd : K → K} {levels : List K} (hs : levels.Pairwise (· < ·))
    (hn : 2 ≤ levels.length) {first last : K} (h0 : levels[0]? = some first)
    (h1 : levels[levels.length - 1]? = some last) (sbc bbc : BC) (d : K) :
    ∃ k e, Np.digitize d levels false = .ok k ∧
      levelWithin rnd levels d (levelEnds levels.length true sbc bbc ((k : Int) - 1)) = .ok e ∧
      AscEntry rnd levels (decide (sbc = .mask)) (decide (bbc = .mask)) first last d e := by
  obtain ⟨k, hk, hkn, hlo, hhi⟩ := Np.digitize_incr hs d
  have hfl : first < last := Np.pairwise_get?_lt hs (by omega) h0 h1
  refine ⟨k, ?_⟩
  rcases Nat.eq_zero_or_pos k with rfl | hkpos
  · -- above the surface
    have hd : d < first := hhi 0 first (Nat.le_refl _) h0
    refine ⟨{ idx := -1, alpha := some 1, masked := decide (sbc = .mask) }, hk, ?_, ?_, ?_, ?_⟩
    · have : ¬ ((-1 : Int) = (levels.length : Int) - 1) := by omega
      cases sbc <;> cases bbc <;> simp [levelEnds, levelWithin, this]
    · intro _; exact ⟨rfl, rfl, rfl⟩
    · intro h; exact absurd hd (not_lt.mpr (le_trans (le_of_lt hfl) h))
    · intro h _; exact absurd hd (not_lt.mpr h)
  · rcases Nat.lt_or_eq_of_le hkn with hlt | heq
    · -- inside
      obtain ⟨j, rfl⟩ : ∃ j, k = j + 1 := ⟨k - 1, by omega⟩
      have ha : levels[j]? = some levels[j] := List.getElem?_eq_getElem (by omega)
      have hb : levels[j + 1]? = some levels[j + 1] := List.getElem?_eq_getElem hlt
      have had : levels[j] ≤ d := hlo j _ (by omega) ha
      have hdb : d < levels[j + 1] := hhi (j + 1) _ (Nat.le_refl _) hb
      have hfd : first ≤ d := hlo 0 _ (by omega) h0
      have hdl : d < last := hhi _ _ (by omega) h1
      have e1 : (((j + 1 : Nat) : Int) - 1) = (j : Int) := by push_cast; ring
      have g1 : ¬ ((j : Int) = -1) := by omega
      have g2 : ¬ ((j : Int) = (levels.length : Int) - 1) := by omega
      have hent : levelEnds levels.length true sbc bbc (((j + 1 : Nat) : Int) - 1)
          = ({ idx := (j : Int), alpha := none, masked := false } : Entry K) := by
        rw [e1]
        cases sbc <;> cases bbc <;> simp [levelEnds, g1, g2]
      have p0 : Np.pyGet levels (j : Int) = .ok levels[j] := Np.pyGet_nonneg ha
      have p1 : Np.pyGet levels ((j : Int) + 1) = .ok levels[j + 1] := by
        exact_mod_cast Np.pyGet_nonneg (i := j + 1) hb
      refine ⟨{ idx := (j : Int), alpha := ratio rnd d levels[j] levels[j + 1], masked := false },
        hk, ?_, ?_, ?_, ?_⟩
      · rw [hent]; simp only [levelWithin, p0, p1]
      · intro h; exact absurd h (not_lt.mpr hfd)
      · intro h; exact absurd hdl (not_lt.mpr h)
      · intro _ _
        exact ⟨rfl, j, _, _, rfl, ha, hb, had, hdb, rfl⟩
    · -- at or below the bottom
      subst heq
      have hd : last ≤ d := hlo _ last (by omega) h1
      have g1 : ¬ (((levels.length : Int) - 1) = -1) := by omega
      refine ⟨{ idx := (levels.length : Int) - 1, alpha := some 0, masked := decide (bbc = .mask) },
        hk, ?_, ?_, ?_, ?_⟩
      · cases sbc <;> cases bbc <;> simp [levelEnds, levelWithin, g1]
      · intro h; exact absurd h (not_lt.mpr (le_trans (le_of_lt hfl) hd))
      · intro _; exact ⟨rfl, rfl, rfl⟩
      · intro _ h; exact absurd h (not_lt.mpr hd)

/-- What a finished entry says about depth `d`, for levels listed from the bottom up. -/
def DescEntry (rnd : K → K) (col : List K) (sm bm : Bool) (first last d : K) (e : Entry K) : Prop :=
  (d ≤ last → e.masked = sm ∧ e.alpha = some 0 ∧ e.idx = (col.length : Int) - 1) ∧
  (first < d → e.masked = bm ∧ e.alpha = some 1 ∧ e.idx = -1) ∧
  (last < d → d ≤ first → e.masked = false ∧ ∃ (j : Nat) (a b : K), e.idx = (j : Int) ∧
    col[j]? = some a ∧ col[j + 1]? = some b ∧ b < d ∧ d ≤ a ∧ e.alpha = ratio rnd d a b)

theorem level_point_desc {rnd : K → K} {levels : List K} (hs : levels.Pairwise (· > ·))
    (hn : 2 ≤ levels.length) {first last : K} (h0 : levels[0]? = some first)
    (h1 : levels[levels.length - 1]? = some last) (sbc bbc : BC) (d : K) :
    ∃ k e, Np.digitize d levels true = .ok k ∧
      levelWithin rnd levels d (levelEnds levels.length false sbc bbc ((k : Int) - 1)) = .ok e ∧
      DescEntry rnd levels (decide (sbc = .mask)) (decide (bbc = .mask)) first last d e := by
  obtain ⟨k, hk, hkn, hlo, hhi⟩ := Np.digitize_decr hs hn d true
  simp only [if_true] at hlo hhi
  have hfl : first > last := Np.pairwise_get?_lt hs (by omega) h0 h1
  refine ⟨k, ?_⟩
  rcases Nat.eq_zero_or_pos k with rfl | hkpos
  · have hd : first < d := hhi 0 first (Nat.le_refl _) h0
    refine ⟨{ idx := -1, alpha := some 1, masked := decide (bbc = .mask) }, hk, ?_, ?_, ?_, ?_⟩
    · have : ¬ ((-1 : Int) = (levels.length : Int) - 1) := by omega
      cases sbc <;> cases bbc <;> simp [levelEnds, levelWithin, this]
    · intro h; exact absurd hd (not_lt.mpr (le_trans h (le_of_lt hfl)))
    · intro _; exact ⟨rfl, rfl, rfl⟩
    · intro _ h; exact absurd hd (not_lt.mpr h)
  · rcases Nat.lt_or_eq_of_le hkn with hlt | heq
    · obtain ⟨j, rfl⟩ : ∃ j, k = j + 1 := ⟨k - 1, by omega⟩
      have ha : levels[j]? = some levels[j] := List.getElem?_eq_getElem (by omega)
      have hb : levels[j + 1]? = some levels[j + 1] := List.getElem?_eq_getElem hlt
      have had : d ≤ levels[j] := hlo j _ (by omega) ha
      have hdb : levels[j + 1] < d := hhi (j + 1) _ (Nat.le_refl _) hb
      have hfd : d ≤ first := hlo 0 _ (by omega) h0
      have hdl : last < d := hhi _ _ (by omega) h1
      have e1 : (((j + 1 : Nat) : Int) - 1) = (j : Int) := by push_cast; ring
      have g1 : ¬ ((j : Int) = -1) := by omega
      have g2 : ¬ ((j : Int) = (levels.length : Int) - 1) := by omega
      have hent : levelEnds levels.length false sbc bbc (((j + 1 : Nat) : Int) - 1)
          = ({ idx := (j : Int), alpha := none, masked := false } : Entry K) := by
        rw [e1]
        cases sbc <;> cases bbc <;> simp [levelEnds, g1, g2]
      have p0 : Np.pyGet levels (j : Int) = .ok levels[j] := Np.pyGet_nonneg ha
      have p1 : Np.pyGet levels ((j : Int) + 1) = .ok levels[j + 1] := by
        exact_mod_cast Np.pyGet_nonneg (i := j + 1) hb
      refine ⟨{ idx := (j : Int), alpha := ratio rnd d levels[j] levels[j + 1], masked := false },
        hk, ?_, ?_, ?_, ?_⟩
      · rw [hent]; simp only [levelWithin, p0, p1]
      · intro h; exact absurd hdl (not_lt.mpr h)
      · intro h; exact absurd h (not_lt.mpr hfd)
      · intro _ _
        exact ⟨rfl, j, _, _, rfl, ha, hb, hdb, had, rfl⟩
    · subst heq
      have hd : d ≤ last := hlo _ last (by omega) h1
      have g1 : ¬ (((levels.length : Int) - 1) = -1) := by omega
      refine ⟨{ idx := (levels.length : Int) - 1, alpha := some 0, masked := decide (sbc = .mask) },
        hk, ?_, ?_, ?_, ?_⟩
      · cases sbc <;> cases bbc <;> simp [levelEnds, levelWithin, g1]
      · intro _; exact ⟨rfl, rfl, rfl⟩
      · intro h; exact absurd h (not_lt.mpr (le_trans hd (le_of_lt hfl)))
      · intro h _; exact absurd h (not_lt.mpr hd)

omit [IsStrictOrderedRing K] in
/-- The two `mapE` passes of `levelAlphas` done point by point. -/
theorem two_passes {rnd : K → K} {levels : List K} {asc : Bool} {sbc bbc : BC} {right : Bool}
    {R : K → Entry K → Prop} (depths : List K)
    (h : ∀ d, ∃ k e, Np.digitize d levels right = .ok k ∧
      levelWithin rnd levels d (levelEnds levels.length asc sbc bbc ((k : Int) - 1)) = .ok e ∧
      R d e) :
    ∃ ks out, mapE (fun d => Np.digitize d levels right) depths = .ok ks ∧
      mapE (fun p : K × Entry K => levelWithin rnd levels p.1 p.2)
        (depths.zip (ks.map fun k : Nat => levelEnds levels.length asc sbc bbc ((k : Int) - 1)))
        = .ok out ∧ List.Forall₂ R depths out := by
  induction depths with
  | nil => exact ⟨[], [], rfl, rfl, List.Forall₂.nil⟩
  | cons d ds ih =>
    obtain ⟨k, e, h1, h2, h3⟩ := h d
    obtain ⟨ks, out, g1, g2, g3⟩ := ih
    refine ⟨k :: ks, e :: out, by simp [mapE, h1, g1], ?_, List.Forall₂.cons h3 g3⟩
    simp only [List.map_cons, List.zip_cons_cons, mapE, h2, g2]

omit [IsStrictOrderedRing K] in
theorem any_false_of_forall₂ {R : K → Entry K → Prop} {p : Entry K → Bool} {l : List K}
    {out : List (Entry K)} (hf : List.Forall₂ R l out) (h : ∀ d e, R d e → p e = false) :
    out.any p = false := by
  induction hf with
  | nil => rfl
  | cons hr _ ih => simp [h _ _ hr, ih]

theorem levelAlphas_asc {rnd : K → K} (hk : KeepsNonzero rnd) {levels : List K}
    (hs : levels.Pairwise (· < ·)) (hn : 2 ≤ levels.length) {first last : K}
    (h0 : levels[0]? = some first) (h1 : levels[levels.length - 1]? = some last)
    (shape0 : Option Nat) (hsh : shape0 ≠ some 1) (sbc bbc : BC) (depths : List K) :
    ∃ out, levelAlphas rnd levels shape0 sbc bbc depths = .ok out ∧
      List.Forall₂ (AscEntry rnd levels (decide (sbc = .mask)) (decide (bbc = .mask)) first last)
        depths out := by
  have hfl : first < last := Np.pairwise_get?_lt hs (by omega) h0 h1
  obtain ⟨ks, out, g1, g2, g3⟩ := two_passes (asc := true) (right := false) depths
    (fun d => level_point_asc (rnd := rnd) hs hn h0 h1 sbc bbc d)
  refine ⟨out, ?_, g3⟩
  have p0 : Np.pyGet levels 0 = .ok first := Np.pyGet_nonneg (i := 0) h0
  have p1 : Np.pyGet levels (-1) = .ok last :=
    Np.pyGet_neg_one (by rw [List.getLast?_eq_getElem?]; exact h1)
  unfold levelAlphas
  rw [if_neg (by rintro (h | h); exacts [hsh h, by omega]), p0, p1]
  simp only [hfl, decide_true, Bool.not_true, g1, g2]
  rw [any_false_of_forall₂ g3]
  · simp
  · rintro d e ⟨ha, hb, hc⟩
    rcases lt_or_ge d first with h | h
    · simp [(ha h).2.1]
    · rcases lt_or_ge d last with h' | h'
      · obtain ⟨_, j, a, b, _, ja, jb, had, hdb, hal⟩ := hc h h'
        rw [hal, ratio_eq (ne_of_lt (lt_of_le_of_lt had hdb)) hk]
        simp
      · simp [(hb h').2.1]

theorem levelAlphas_desc {rnd : K → K} (hk : KeepsNonzero rnd) {levels : List K}
    (hs : levels.Pairwise (· > ·)) (hn : 2 ≤ levels.length) {first last : K}
    (h0 : levels[0]? = some first) (h1 : levels[levels.length - 1]? = some last)
    (shape0 : Option Nat) (hsh : shape0 ≠ some 1) (sbc bbc : BC) (depths : List K) :
    ∃ out, levelAlphas rnd levels shape0 sbc bbc depths = .ok out ∧
      List.Forall₂ (DescEntry rnd levels (decide (sbc = .mask)) (decide (bbc = .mask)) first last)
        depths out := by
  have hfl : first > last := Np.pairwise_get?_lt hs (by omega) h0 h1
  obtain ⟨ks, out, g1, g2, g3⟩ := two_passes (asc := false) (right := true) depths
    (fun d => level_point_desc (rnd := rnd) hs hn h0 h1 sbc bbc d)
  refine ⟨out, ?_, g3⟩
  have p0 : Np.pyGet levels 0 = .ok first := Np.pyGet_nonneg (i := 0) h0
  have p1 : Np.pyGet levels (-1) = .ok last :=
    Np.pyGet_neg_one (by rw [List.getLast?_eq_getElem?]; exact h1)
  unfold levelAlphas
  rw [if_neg (by rintro (h | h); exacts [hsh h, by omega]), p0, p1]
  simp only [not_lt.mpr (le_of_lt hfl), decide_false, Bool.not_false, g1, g2]
  rw [any_false_of_forall₂ g3]
  · simp
  · rintro d e ⟨ha, hb, hc⟩
    rcases le_or_gt d last with h | h
    · simp [(ha h).2.1]
    · rcases le_or_gt d first with h' | h'
      · obtain ⟨_, j, a, b, _, ja, jb, had, hdb, hal⟩ := hc h h'
        rw [hal, ratio_eq (ne_of_gt (lt_of_lt_of_le had hdb)) hk]
        simp
      · simp [(hb h').2.1]

end Verif.DepthM
