import Verif.Props.Rounded
import Verif.Lemmas.RoundedAt
import Verif.Props.At
import Verif.Lemmas.LevelDepth

/-!
# C160: `Variable.at` in floating point

The whole evaluation with every operation rounded, compared with the exact one.
-/

set_option autoImplicit false

namespace Verif
open Spec Verif.DepthM Verif.TimeM Verif.At Verif.Rounded Verif.RoundedAt

section
variable {K : Type} [Field K] [LinearOrder K]

/-- The exact run (`false`) and the rounded run (`true`). -/
def bothRuns (rnd : K → K) : Bool → K → K := fun i => match i with
  | true => rnd
  | false => fun x => x

/-- An exact weight between 0 and 1, and the rounded weight within four roundings of it. -/
def NearWeight (u : K) (a : Bool → Option K) : Prop :=
  (a false = none ∧ a true = none) ∨
  ∃ α α' : K, a false = some α ∧ a true = some α' ∧ 0 ≤ α ∧ α ≤ 1 ∧ |α' - α| ≤ 4 * u

/-- An exact value of size at most `M`, and a rounded value within `e` of it; NaN and masks alike. -/
def NearCell (M e : K) (c : Bool → Cell K) : Prop :=
  (c true).masked = (c false).masked ∧
  (((c false).value = none ∧ (c true).value = none) ∨
    ∃ x x' : K, (c false).value = some x ∧ (c true).value = some x' ∧ |x| ≤ M ∧ |x' - x| ≤ e)

variable [IsStrictOrderedRing K]

theorem nearWeight_const {u : K} (hu : 0 ≤ u) {α : K} (h0 : 0 ≤ α) (h1 : α ≤ 1) :
    NearWeight u (fun _ => some α) :=
  Or.inr ⟨α, α, rfl, rfl, h0, h1, by rw [sub_self, abs_zero]; linarith⟩

/-- One rounded mix of values that are already off by `e`. -/
theorem step_near {rnd : K → K} {u : K} (h : Accurate rnd u) (hu : u ≤ 1 / 16) (M e : K) :
    Step (bothRuns rnd) (NearWeight u) (NearCell M e) (NearCell M (e + 16 * u * (M + e))) where
  sub := by
    rintro c ⟨hm, hv⟩
    refine ⟨hm, hv.imp id ?_⟩
    rintro ⟨x, x', hx, hx', hM, he⟩
    refine ⟨x, x', hx, hx', hM, le_trans he ?_⟩
    have h1 := abs_nonneg x
    have h2 := abs_nonneg (x' - x)
    have : 0 ≤ 16 * u * (M + e) := mul_nonneg (by linarith [acc_nonneg h]) (by linarith)
    linarith
  blank := fun b => ⟨rfl, Or.inl ⟨rfl, rfl⟩⟩
  mix := by
    rintro c d ⟨cm, cv⟩ ⟨dm, dv⟩ a ha
    refine ⟨by simp only [mixCellR, cm, dm], ?_⟩
    simp only [mixCellR]
    rcases cv with ⟨c0, c1⟩ | ⟨x, x', c0, c1, xM, xe⟩
    · left; simp only [c0, c1, and_self]
    rcases dv with ⟨d0, d1⟩ | ⟨y, y', d0, d1, yM, ye⟩
    · left; simp only [c0, c1, d0, d1, and_self]
    rcases ha with ⟨a0, a1⟩ | ⟨α, α', a0, a1, h0, h1, hα⟩
    · left; simp only [c0, c1, d0, d1, a0, a1, and_self]
    right
    simp only [c0, c1, d0, d1, a0, a1]
    refine ⟨_, _, rfl, rfl, ?_, ?_⟩
    · show |x + (y - x) * α| ≤ M
      rw [show x + (y - x) * α = (1 - α) * x + α * y by ring]
      rw [abs_le] at xM yM ⊢
      have h1' : 0 ≤ 1 - α := by linarith
      have e1 := mul_le_mul_of_nonneg_left xM.1 h1'
      have e2 := mul_le_mul_of_nonneg_left xM.2 h1'
      have e3 := mul_le_mul_of_nonneg_left yM.1 h0
      have e4 := mul_le_mul_of_nonneg_left yM.2 h0
      constructor <;> linarith
    · show |mixR rnd x' y' α' - (x + (y - x) * α)| ≤ e + 16 * u * (M + e)
      have hx' : |x'| ≤ M + e := abs_le_of_near xe xM
      have hy' : |y'| ≤ M + e := abs_le_of_near ye yM
      have k1 := mix_err h hu hx' hy' h0 h1 hα
      have k2 : |(x' + (y' - x') * α) - (x + (y - x) * α)| ≤ e := by
        rw [show (x' + (y' - x') * α) - (x + (y - x) * α) =
          (1 - α) * (x' - x) + α * (y' - y) by ring]
        rw [abs_le] at xe ye ⊢
        have h1' : 0 ≤ 1 - α := by linarith
        have e1 := mul_le_mul_of_nonneg_left xe.1 h1'
        have e2 := mul_le_mul_of_nonneg_left xe.2 h1'
        have e3 := mul_le_mul_of_nonneg_left ye.1 h0
        have e4 := mul_le_mul_of_nonneg_left ye.2 h0
        constructor <;> linarith
      calc |mixR rnd x' y' α' - (x + (y - x) * α)|
          = |(mixR rnd x' y' α' - (x' + (y' - x') * α)) + ((x' + (y' - x') * α) - (x + (y - x) * α))| := by
            congr 1; ring
        _ ≤ _ := abs_add_le _ _
        _ ≤ _ := by linarith

/-! ### The weights in time -/

theorem alphaFrom_near {rnd : K → K} {u : K} (h : Accurate rnd u) (hu : u ≤ 1 / 16) {times : List Int}
    (hs : StrictIncr times) (t : Int) (i0 : Nat)
    (hlo : ∀ a, i0 ≠ 0 → times[i0 - 1]? = some a → a < t) (hhi : ∀ b, times[i0]? = some b → t ≤ b) :
    Together (fun a => NearWeight u (fun i => some (a i)))
      (fun i => alphaFrom (bothRuns rnd i) times t i0) := by
  have hu0 := acc_nonneg h
  unfold alphaFrom
  split
  · exact Or.inr ⟨fun _ => 1, nearWeight_const hu0 zero_le_one (le_refl _), fun _ => rfl⟩
  split
  · exact Or.inr ⟨fun _ => 0, nearWeight_const hu0 (le_refl _) zero_le_one, fun _ => rfl⟩
  rename_i h1 h2
  have hlt : i0 < times.length := by omega
  obtain ⟨a, ha⟩ : ∃ a, times[i0 - 1]? = some a := ⟨_, List.getElem?_eq_getElem (by omega)⟩
  obtain ⟨b, hb⟩ : ∃ b, times[i0]? = some b := ⟨_, List.getElem?_eq_getElem hlt⟩
  have hat := hlo a h2 ha
  have htb := hhi b hb
  have g0 : Np.pyGet times ((i0 : Int) - 1) = .ok a := by
    rw [show (i0 : Int) - 1 = ((i0 - 1 : Nat) : Int) by omega]
    exact Np.pyGet_nonneg ha
  have g1 : Np.pyGet times (i0 : Int) = .ok b := Np.pyGet_nonneg hb
  simp only [g0, g1]
  have hab : (0 : K) < ((b - a : Int) : K) := by exact_mod_cast (by omega : (0 : Int) < b - a)
  have hta : (0 : K) < ((t - a : Int) : K) := by exact_mod_cast (by omega : (0 : Int) < t - a)
  have hle : ((t - a : Int) : K) ≤ ((b - a : Int) : K) := by exact_mod_cast (by omega : t - a ≤ b - a)
  have hd : ((b - a : Int) : K) / 1000000 ≠ 0 := by positivity
  have q0 : (0 : K) ≤ ((t - a : Int) : K) / 1000000 / (((b - a : Int) : K) / 1000000) := by positivity
  have q1 : ((t - a : Int) : K) / 1000000 / (((b - a : Int) : K) / 1000000) ≤ 1 := by
    rw [div_le_one (by positivity)]
    exact div_le_div_of_nonneg_right hle (by norm_num)
  obtain ⟨n1, n2⟩ := quot_err h hu hd q0 q1
  refine Or.inr ⟨fun i => bothRuns rnd i (bothRuns rnd i (((t - a : Int) : K) / 1000000) /
    bothRuns rnd i (((b - a : Int) : K) / 1000000)), Or.inr ⟨_, _, rfl, rfl, q0, q1, n2⟩, ?_⟩
  intro i
  cases i
  · exact if_neg hd
  · exact if_neg n1

theorem interpAlpha_near {rnd : K → K} {u : K} (h : Accurate rnd u) (hu : u ≤ 1 / 16)
    {times : List Int} (hs : StrictIncr times) (t : Int) (e : Bool) :
    Together (fun a => NearWeight u (fun i => some (a i)))
      (fun i => interpAlpha (bothRuns rnd i) times t e) := by
  have key : Together (fun a => NearWeight u (fun i => some (a i))) (fun i =>
      match indexOf times t e with
      | .error x => .error x
      | .ok i0 => alphaFrom (bothRuns rnd i) times t i0) := by
    have hf : ∀ i0, i0 = (if times.length = 1 then 0 else Np.searchsortedLeft times t) →
        Together (fun a => NearWeight u (fun i => some (a i)))
          (fun i => alphaFrom (bothRuns rnd i) times t i0) := by
      rintro i0 rfl
      by_cases h1 : times.length = 1
      · have : Together (fun a => NearWeight u (fun i => some (a i)))
            (fun i => alphaFrom (bothRuns rnd i) times t 0) := by
          refine Or.inr ⟨fun _ => 0, nearWeight_const (acc_nonneg h) (le_refl _) zero_le_one, ?_⟩
          intro i
          simp [alphaFrom, h1]
        simpa only [h1, if_true] using this
      · rw [if_neg h1]
        obtain ⟨_, k2, k3⟩ := Np.searchsortedLeft_spec (hs.imp (fun h => le_of_lt h)) t
        exact alphaFrom_near h hu hs t _ (fun a h0 ha => k2 _ a (by omega) ha)
          (fun b hb => k3 _ b (le_refl _) hb)
    rcases hi : indexOf times t e with x | i0
    · exact Or.inl ⟨x, fun _ => rfl⟩
    · refine hf i0 ?_
      unfold indexOf at hi
      simp only at hi
      split at hi
      · split at hi
        · cases hi
        · exact (Except.ok.inj hi).symm
      · exact (Except.ok.inj hi).symm
  unfold interpAlpha
  simp only
  split
  · split
    · exact Or.inl ⟨_, fun _ => rfl⟩
    · exact key
  · exact key

/-! ### The weights in depth -/

theorem bracket_incr {levels : List K} (hs : levels.Pairwise (· < ·)) {d a b a' b' : K} {j j' : Nat}
    (h0 : levels[j]? = some a) (h1 : levels[j + 1]? = some b) (h0' : levels[j']? = some a')
    (h1' : levels[j' + 1]? = some b') (ha : a ≤ d) (hb : d < b) (ha' : a' ≤ d) (hb' : d < b') :
    j = j' := by
  have key : ∀ {j j' : Nat} {a b a' b' : K}, levels[j + 1]? = some b → levels[j']? = some a' →
      d < b → a' ≤ d → ¬ j < j' := by
    intro j j' a b a' b' h1 h0' hb ha' hlt
    rcases Nat.lt_or_eq_of_le (show j + 1 ≤ j' by omega) with h | h
    · exact absurd (Np.pairwise_get?_lt hs h h1 h0') (not_lt.mpr (le_of_lt (lt_of_le_of_lt ha' hb)))
    · rw [← h, h1] at h0'; cases h0'; exact absurd hb (not_lt.mpr ha')
  have k1 := key (a := a) (b' := b') h1 h0' hb ha'
  have k2 := key (a := a') (b' := b) h1' h0 hb' ha
  omega

theorem bracket_decr {levels : List K} (hs : levels.Pairwise (· > ·)) {d a b a' b' : K} {j j' : Nat}
    (h0 : levels[j]? = some a) (h1 : levels[j + 1]? = some b) (h0' : levels[j']? = some a')
    (h1' : levels[j' + 1]? = some b') (hb : b < d) (ha : d ≤ a) (hb' : b' < d) (ha' : d ≤ a') :
    j = j' := by
  have key : ∀ {j j' : Nat} {a b a' b' : K}, levels[j + 1]? = some b → levels[j']? = some a' →
      b < d → d ≤ a' → ¬ j < j' := by
    intro j j' a b a' b' h1 h0' hb ha' hlt
    rcases Nat.lt_or_eq_of_le (show j + 1 ≤ j' by omega) with h | h
    · exact absurd (Np.pairwise_get?_lt hs h h1 h0') (not_lt.mpr (le_of_lt (lt_of_lt_of_le hb ha')))
    · rw [← h, h1] at h0'; cases h0'; exact absurd hb (not_lt.mpr ha')
  have k1 := key (a := a) (b' := b') h1 h0' hb ha'
  have k2 := key (a := a') (b' := b) h1' h0 hb' ha
  omega

/-- The rounded and the exact weight between two levels. -/
theorem ratio_near {rnd : K → K} {u : K} (h : Accurate rnd u) (hu : u ≤ 1 / 16) {d a b : K}
    (hc : (a ≤ d ∧ d < b) ∨ (b < d ∧ d ≤ a)) :
    NearWeight u (fun i => ratio (bothRuns rnd i) d a b) := by
  have hne : b - a ≠ 0 := by
    rcases hc with ⟨ha, hb⟩ | ⟨ha, hb⟩
    · exact ne_of_gt (by linarith)
    · exact ne_of_lt (by linarith)
  have q : 0 ≤ (d - a) / (b - a) ∧ (d - a) / (b - a) ≤ 1 := by
    rcases hc with ⟨ha, hb⟩ | ⟨ha, hb⟩
    · exact ⟨div_nonneg (by linarith) (by linarith),
        by rw [div_le_one (by linarith)]; linarith⟩
    · exact ⟨div_nonneg_of_nonpos (by linarith) (by linarith),
        by rw [div_le_one_of_neg (by linarith)]; linarith⟩
  obtain ⟨n1, n2⟩ := quot_err h hu hne q.1 q.2
  refine Or.inr ⟨(d - a) / (b - a), rnd (rnd (d - a) / rnd (b - a)), ?_, ?_, q.1, q.2, n2⟩
  · simp only [ratio, bothRuns, hne, if_false]
  · simp only [ratio, bothRuns, n1, if_false]

/-- The exact and the rounded entry of one point. -/
theorem entries_near {rnd : K → K} {u : K} (h : Accurate rnd u) (hu : u ≤ 1 / 16) {levels : List K}
    {sm bm : Bool} {first last d : K} {e e' : Entry K}
    (hr : (StrictIncr levels ∧ first < last ∧ AscEntry (fun x => x) levels sm bm first last d e ∧
        AscEntry rnd levels sm bm first last d e') ∨
      (StrictDecr levels ∧ last < first ∧ DescEntry (fun x => x) levels sm bm first last d e ∧
        DescEntry rnd levels sm bm first last d e')) :
    ∃ x : Ent Bool K, Ent.of false x = e ∧ Ent.of true x = e' ∧ NearWeight u x.alpha := by
  have hu0 := acc_nonneg h
  have same : ∀ (m : Bool) (k : Int) (α : K), 0 ≤ α → α ≤ 1 →
      (e.masked = m ∧ e.alpha = some α ∧ e.idx = k) → (e'.masked = m ∧ e'.alpha = some α ∧ e'.idx = k) →
      ∃ x : Ent Bool K, Ent.of false x = e ∧ Ent.of true x = e' ∧ NearWeight u x.alpha := by
    rintro m k α h0 h1 ⟨rfl, a1, rfl⟩ ⟨m2, a2, k2⟩
    refine ⟨⟨e.idx, e.masked, fun _ => some α⟩, ?_, ?_, nearWeight_const hu0 h0 h1⟩
    · cases e; simp_all [Ent.of]
    · cases e; cases e'; simp_all [Ent.of]
  have inner : ∀ (a b : K), ((a ≤ d ∧ d < b) ∨ (b < d ∧ d ≤ a)) → e.masked = e'.masked →
      e.idx = e'.idx → e.alpha = ratio (fun x => x) d a b → e'.alpha = ratio rnd d a b →
      ∃ x : Ent Bool K, Ent.of false x = e ∧ Ent.of true x = e' ∧ NearWeight u x.alpha := by
    intro a b hc hm hi h1 h2
    refine ⟨⟨e.idx, e.masked, fun i => ratio (bothRuns rnd i) d a b⟩, ?_, ?_, ratio_near h hu hc⟩
    · cases e; simp_all [Ent.of, bothRuns]
    · cases e; cases e'; simp_all [Ent.of, bothRuns]
  rcases hr with ⟨hs, hfl, ⟨h1, h2, h3⟩, ⟨h1', h2', h3'⟩⟩ | ⟨hs, hfl, ⟨h1, h2, h3⟩, ⟨h1', h2', h3'⟩⟩
  · rcases lt_or_ge d first with c | c
    · exact same _ _ 1 zero_le_one (le_refl _) (h1 c) (h1' c)
    rcases lt_or_ge d last with c' | c'
    · obtain ⟨m, j, a, b, ji, g0, g1, ha, hb, hal⟩ := h3 c c'
      obtain ⟨m', j', a', b', ji', g0', g1', ha', hb', hal'⟩ := h3' c c'
      obtain rfl := bracket_incr hs g0 g1 g0' g1' ha hb ha' hb'
      rw [g0] at g0'; cases g0'
      rw [g1] at g1'; cases g1'
      exact inner a b (Or.inl ⟨ha, hb⟩) (by rw [m, m']) (by rw [ji, ji']) hal hal'
    · exact same _ _ 0 (le_refl _) zero_le_one (h2 c') (h2' c')
  · rcases le_or_gt d last with c | c
    · exact same _ _ 0 (le_refl _) zero_le_one (h1 c) (h1' c)
    rcases le_or_gt d first with c' | c'
    · obtain ⟨m, j, a, b, ji, g0, g1, hb, ha, hal⟩ := h3 c c'
      obtain ⟨m', j', a', b', ji', g0', g1', hb', ha', hal'⟩ := h3' c c'
      obtain rfl := bracket_decr hs g0 g1 g0' g1' hb ha hb' ha'
      rw [g0] at g0'; cases g0'
      rw [g1] at g1'; cases g1'
      exact inner a b (Or.inr ⟨hb, ha⟩) (by rw [m, m']) (by rw [ji, ji']) hal hal'
    · exact same _ _ 1 zero_le_one (le_refl _) (h2 c') (h2' c')

omit [IsStrictOrderedRing K] in
theorem forall2_near {u : K} {R R' : K → Entry K → Prop} {ds : List K} {l l' : List (Entry K)}
    (h : List.Forall₂ R ds l) (h' : List.Forall₂ R' ds l')
    (hR : ∀ d e e', R d e → R' d e' →
      ∃ x : Ent Bool K, Ent.of false x = e ∧ Ent.of true x = e' ∧ NearWeight u x.alpha) :
    ∃ E : List (Ent Bool K), Weights (NearWeight u) E ∧ E.map (Ent.of false) = l ∧
      E.map (Ent.of true) = l' := by
  induction h generalizing l' with
  | nil => cases h'; exact ⟨[], fun x hx => absurd hx (List.not_mem_nil), rfl, rfl⟩
  | cons hd _ ih =>
    rcases h' with _ | ⟨hd', tl'⟩
    obtain ⟨E, hE, e1, e2⟩ := ih tl'
    obtain ⟨x, x1, x2, hx⟩ := hR _ _ _ hd hd'
    refine ⟨x :: E, ?_, by simp [x1, e1], by simp [x2, e2]⟩
    intro y hy hm
    rcases List.mem_cons.mp hy with rfl | hy
    · exact hx
    · exact hE y hy hm

/-- Level depths, listed down or up, asked by both runs. -/
theorem depths_near {rnd : K → K} {u : K} (h : Accurate rnd u) (hu : u ≤ 1 / 16) {P : Type}
    (z : P → K) {levels : List K} (hs : StrictIncr levels ∨ StrictDecr levels) (sbc bbc : BC)
    (pts : List P) :
    Depths (P := fun _ : Bool => P) (NearWeight u)
      (fun i => levelSysR (bothRuns rnd i) z levels sbc bbc) (pts.map fun p _ => p) := by
  have hcm : ∀ i : Bool, (pts.map fun p => (fun _ : Bool => p)).map (· i) = pts := by
    intro i; rw [List.map_map]; exact List.map_id pts
  unfold Depths
  simp only [hcm, levelSysR]
  by_cases h1 : levels.length = 1
  · obtain ⟨x, rfl⟩ := List.length_eq_one_iff.mp h1
    refine Or.inr ⟨List.replicate pts.length ⟨0, false, fun _ => some 0⟩, ?_, ?_⟩
    · intro y hy _
      rw [List.eq_of_mem_replicate hy]
      exact nearWeight_const (acc_nonneg h) (le_refl _) zero_le_one
    · intro i
      simp [levelAlphas, argmin, argminFrom, surfaceOnly, Ent.of]
  by_cases h0 : levels.length = 0
  · obtain rfl := List.length_eq_zero_iff.mp h0
    exact Or.inl ⟨.indexError, fun i => rfl⟩
  have hn : 2 ≤ levels.length := by omega
  obtain ⟨first, hf⟩ : ∃ x, levels[0]? = some x := ⟨_, List.getElem?_eq_getElem (by omega)⟩
  obtain ⟨last, hl⟩ : ∃ x, levels[levels.length - 1]? = some x :=
    ⟨_, List.getElem?_eq_getElem (by omega)⟩
  have hsh : some levels.length ≠ some 1 := by
    intro h; rw [Option.some.injEq] at h; omega
  have hid : KeepsNonzero (fun x : K => x) := fun x hx => hx
  have hk := keeps_of_accurate h hu
  have fin : ∀ l l', levelAlphas (fun x => x) levels (some levels.length) sbc bbc (pts.map z) = .ok l →
      levelAlphas rnd levels (some levels.length) sbc bbc (pts.map z) = .ok l' →
      (∃ E : List (Ent Bool K), Weights (NearWeight u) E ∧ E.map (Ent.of false) = l ∧
        E.map (Ent.of true) = l') →
      (∃ e, ∀ i, levelAlphas (bothRuns rnd i) levels (some levels.length) sbc bbc (pts.map z) =
        .error e) ∨ ∃ E : List (Ent Bool K), Weights (NearWeight u) E ∧
          ∀ i, levelAlphas (bothRuns rnd i) levels (some levels.length) sbc bbc (pts.map z) =
            .ok (E.map (Ent.of i)) := by
    rintro l l' hl hl' ⟨E, hE, rfl, rfl⟩
    refine Or.inr ⟨E, hE, fun i => ?_⟩
    cases i
    · exact hl
    · exact hl'
  rcases hs with hs | hs
  · obtain ⟨l, ho, hf2⟩ := levelAlphas_asc hid hs hn hf hl (some levels.length) hsh sbc bbc (pts.map z)
    obtain ⟨l', ho', hf2'⟩ := levelAlphas_asc hk hs hn hf hl (some levels.length) hsh sbc bbc (pts.map z)
    exact fin l l' ho ho' (forall2_near hf2 hf2' (fun d e e' a b => entries_near h hu
      (Or.inl ⟨hs, Np.pairwise_get?_lt hs (by omega) hf hl, a, b⟩)))
  · obtain ⟨l, ho, hf2⟩ := levelAlphas_desc hid hs hn hf hl (some levels.length) hsh sbc bbc (pts.map z)
    obtain ⟨l', ho', hf2'⟩ := levelAlphas_desc hk hs hn hf hl (some levels.length) hsh sbc bbc (pts.map z)
    exact fin l l' ho ho' (forall2_near hf2 hf2' (fun d e e' a b => entries_near h hu
      (Or.inr ⟨hs, Np.pairwise_get?_lt hs (by omega) hf hl, a, b⟩)))

/-! ### The horizontal stage -/

/-- A triangle that is not too thin: its coordinates extend no more than some `S`, and its area is at
least `S² / 2κ`. -/
def Shaped (κ : K) (p q r : K × K) : Prop :=
  ProperTriangle p q r ∧ ∃ S : K,
    (|p.1 - q.1| ≤ S ∧ |q.1 - r.1| ≤ S ∧ |r.1 - p.1| ≤ S) ∧
    (|p.2 - q.2| ≤ S ∧ |q.2 - r.2| ≤ S ∧ |r.2 - p.2| ≤ S) ∧
    S * S ≤ κ * |(q.1 - p.1) * (r.2 - p.2) - (r.1 - p.1) * (q.2 - p.2)|

/-- A face of the mesh with its vertices. -/
def FaceWith (m : UGeom.Mesh K) (f : Int) (p q r : K × K) : Prop :=
  ∃ a b c : Int, Np.pyGet m.faces f = .ok [a, b, c] ∧ Np.pyGet m.nodes a = .ok p ∧
    Np.pyGet m.nodes b = .ok q ∧ Np.pyGet m.nodes c = .ok r

/-- The point lies in the face given for it, or was not found (face -1). -/
def LocatedOrNot (m : UGeom.Mesh K) (pt : UPt K) : Prop :=
  pt.face = -1 ∨ ∀ p q r, FaceWith m pt.face p q r → InTriangle p q r pt.pos

theorem acc_zero {rnd : K → K} {u : K} (h : Accurate rnd u) : rnd 0 = 0 := by
  have := h 0
  rw [abs_zero, mul_zero, sub_zero] at this
  exact abs_eq_zero.mp (le_antisymm this (abs_nonneg _))

theorem exact_accurate : Accurate (fun x : K => x) 0 := by
  intro x; rw [sub_self, abs_zero, zero_mul]

/-- Both the exact and the rounded denominator are not zero. -/
theorem denomR_ne {rnd : K → K} {u : K} (h : Accurate rnd u) (hu : u ≤ 1 / 16) {κ : K}
    (huκ : u * κ ≤ 1 / 144) {p q r : K × K} (hsh : Shaped κ p q r) : denomR rnd p q r ≠ 0 := by
  obtain ⟨hp, S, ex, ey, hκ⟩ := hsh
  obtain ⟨x, hx, _⟩ := C157_triangle_error rnd u h hu p q r S κ 0 hp ex ey hκ huκ 0 0 0
    (by rw [abs_zero]) (by rw [abs_zero]) (by rw [abs_zero]) p 1 0 0 zero_le_one (le_refl _) (le_refl _)
    ⟨by ring, by ring, by ring⟩
  intro h0
  simp [triangleR, divR, h0] at hx

theorem interpNode_near {rnd : K → K} {u : K} (h : Accurate rnd u) (hu : u ≤ 1 / 16) {κ M : K}
    (huκ : u * κ ≤ 1 / 144) (m : UGeom.Mesh K) (data : List (Option K))
    (hM : ∀ v, some v ∈ data → |v| ≤ M) (pt : UPt K)
    (hsh : ∀ p q r, FaceWith m pt.face p q r → Shaped κ p q r) (hpt : LocatedOrNot m pt) :
    Together (fun v => NearCell M (80 * (u * κ) * M) (fun i => ⟨v i, false⟩))
      (fun i => interpNodeR (bothRuns rnd i) m data pt.face pt.pos) := by
  unfold interpNodeR
  rcases hf : Np.pyGet m.faces pt.face with x | f
  · exact Or.inl ⟨x, fun _ => rfl⟩
  by_cases h3 : ∃ a b c, f = [a, b, c]
  swap
  · refine Or.inl ⟨.valueError, fun i => ?_⟩
    match f, h3 with
    | [], _ => rfl
    | [_], _ => rfl
    | [_, _], _ => rfl
    | [a, b, c], h3 => exact absurd ⟨a, b, c, rfl⟩ h3
    | _ :: _ :: _ :: _ :: _, _ => rfl
  obtain ⟨a, b, c, rfl⟩ := h3
  simp only
  rcases ha : Np.pyGet m.nodes a with x | p
  · exact Or.inl ⟨.indexError, fun _ => rfl⟩
  rcases hb : Np.pyGet m.nodes b with x | q
  · exact Or.inl ⟨.indexError, fun _ => rfl⟩
  rcases hc : Np.pyGet m.nodes c with x | r
  · exact Or.inl ⟨.indexError, fun _ => rfl⟩
  simp only
  rcases ga : Np.pyGet data a with x | v0
  · exact Or.inl ⟨.indexError, fun _ => rfl⟩
  rcases gb : Np.pyGet data b with x | v1
  · exact Or.inl ⟨.indexError, fun _ => rfl⟩
  rcases gc : Np.pyGet data c with x | v2
  · exact Or.inl ⟨.indexError, fun _ => rfl⟩
  refine Or.inr ⟨_, ⟨rfl, ?_⟩, fun _ => rfl⟩
  have hface : FaceWith m pt.face p q r := ⟨a, b, c, hf, ha, hb, hc⟩
  have hS := hsh p q r hface
  have m0 : ∀ x, v0 = some x → |x| ≤ M := fun x hx => hM x (hx ▸ UGeom.pyGet_mem ga)
  have m1 : ∀ x, v1 = some x → |x| ≤ M := fun x hx => hM x (hx ▸ UGeom.pyGet_mem gb)
  have m2 : ∀ x, v2 = some x → |x| ≤ M := fun x hx => hM x (hx ▸ UGeom.pyGet_mem gc)
  rcases v0 with _ | x0
  · left; simp [fmulR, faddR]
  rcases v1 with _ | x1
  · left; simp [fmulR, faddR]
  rcases v2 with _ | x2
  · left; simp [fmulR, faddR]
  have b0 := m0 x0 rfl
  have b1 := m1 x1 rfl
  have b2 := m2 x2 rfl
  have hM0 : 0 ≤ M := le_trans (abs_nonneg _) b0
  right
  by_cases hm1 : pt.face = -1
  · have d1 := denomR_ne h hu huκ hS
    have d0 := denomR_ne (exact_accurate (K := K)) (by norm_num) (κ := κ) (by norm_num) hS
    have z1 := acc_zero h
    have e0 : 0 ≤ 80 * (u * κ) * M := by
      have hκ0 : 0 ≤ κ := by
        obtain ⟨hp, S, _, _, hκ⟩ := hS
        by_contra hneg
        have hd : 0 < |(q.1 - p.1) * (r.2 - p.2) - (r.1 - p.1) * (q.2 - p.2)| := by
          refine abs_pos.mpr ?_
          have := UGeom.denom_ne hp
          unfold UGeom.denom at this
          intro h0; exact this (by linarith)
        have := mul_neg_of_neg_of_pos (not_le.mp hneg) hd
        linarith [mul_self_nonneg S]
      have := acc_nonneg h
      positivity
    refine ⟨0, 0, ?_, ?_, by rw [abs_zero]; exact hM0, by rw [sub_self, abs_zero]; exact e0⟩
    · simp [hm1, bothRuns, alphasR, divR, d0, fmulR, faddR]
    · simp [hm1, bothRuns, alphasR, divR, d1, fmulR, faddR, z1]
  · rcases hpt with hpt | hpt
    · exact absurd hpt hm1
    obtain ⟨w0, w1, w2, p0, p1, p2, hw⟩ := hpt p q r hface
    obtain ⟨hp, S, ex, ey, hκ⟩ := hS
    obtain ⟨y, hy, hye⟩ := C157_triangle_error rnd u h hu p q r S κ M hp ex ey hκ huκ x0 x1 x2 b0 b1 b2
      pt.pos w0 w1 w2 p0 p1 p2 hw
    obtain ⟨x, hx, hxe⟩ := C157_triangle_error (fun x => x) 0 exact_accurate (by norm_num) p q r S κ M
      hp ex ey hκ (by norm_num) x0 x1 x2 b0 b1 b2 pt.pos w0 w1 w2 p0 p1 p2 hw
    have hxx : x = w0 * x0 + w1 * x1 + w2 * x2 := by
      rw [zero_mul, mul_zero, zero_mul] at hxe
      exact sub_eq_zero.mp (abs_eq_zero.mp (le_antisymm hxe (abs_nonneg _)))
    have tri : ∀ g : K → K, faddR g (faddR g (fmulR g (some x0) (alphasR g pt.face p q r pt.pos).1)
        (fmulR g (some x1) (alphasR g pt.face p q r pt.pos).2.1))
        (fmulR g (some x2) (alphasR g pt.face p q r pt.pos).2.2) =
        triangleR g p q r x0 x1 x2 pt.pos := by
      intro g
      unfold alphasR triangleR
      simp only [hm1, if_false]
      rcases divR g (num1R g q r pt.pos) (denomR g p q r) with _ | α <;>
      rcases divR g (num2R g p r pt.pos) (denomR g p q r) with _ | β <;>
      rcases divR g (num3R g p q pt.pos) (denomR g p q r) with _ | γ <;> rfl
    refine ⟨x, y, ?_, ?_, ?_, ?_⟩
    · simp only [hm1, if_false, bothRuns, tri]; exact hx
    · simp only [hm1, if_false, bothRuns, tri]; exact hy
    · rw [hxx]
      rw [abs_le] at b0 b1 b2 ⊢
      have hsum : w0 * M + w1 * M + w2 * M = M := by rw [← add_mul, ← add_mul, hw.1, one_mul]
      have k1 := mul_le_mul_of_nonneg_left b0.1 p0
      have k2 := mul_le_mul_of_nonneg_left b0.2 p0
      have k3 := mul_le_mul_of_nonneg_left b1.1 p1
      have k4 := mul_le_mul_of_nonneg_left b1.2 p1
      have k5 := mul_le_mul_of_nonneg_left b2.1 p2
      have k6 := mul_le_mul_of_nonneg_left b2.2 p2
      constructor <;> linarith
    · rw [hxx]; exact hye

theorem interpFace_near {rnd : K → K} {u : K} (h : Accurate rnd u) {M e : K} (data : List (Option K))
    (he : 0 ≤ M → 0 ≤ e) (hM : ∀ v, some v ∈ data → |v| ≤ M) (f : Int) :
    Together (fun v => NearCell M e (fun i => ⟨v i, false⟩))
      (fun i => interpFaceR (bothRuns rnd i) data f) := by
  unfold interpFaceR
  rcases hf : Np.pyGet data f with x | v
  · exact Or.inl ⟨x, fun _ => rfl⟩
  refine Or.inr ⟨_, ⟨rfl, ?_⟩, fun _ => rfl⟩
  have hmem := UGeom.pyGet_mem hf
  rcases v with _ | x
  · left; simp [fmulR]
  have hx := hM x hmem
  have hM0 : 0 ≤ M := le_trans (abs_nonneg _) hx
  right
  by_cases hm1 : f = -1
  · refine ⟨0, 0, ?_, ?_, by rw [abs_zero]; exact hM0, by rw [sub_self, abs_zero]; exact he hM0⟩
    · simp [hm1, fmulR, bothRuns]
    · simp [hm1, fmulR, bothRuns, acc_zero h]
  · exact ⟨x, x, by simp only [hm1, if_false], by simp only [hm1, if_false], hx,
      by rw [sub_self, abs_zero]; exact he hM0⟩

theorem xyUR_near {rnd : K → K} {u : K} (h : Accurate rnd u) (hu : u ≤ 1 / 16) {κ M : K} (hκ : 0 ≤ κ)
    (huκ : u * κ ≤ 1 / 144) (m : UGeom.Mesh K) (loc : UGeom.Loc) (data : List (Option K))
    (hM : ∀ v, some v ∈ data → |v| ≤ M) (ps : List (UPt K))
    (hsh : ∀ pt ∈ ps, ∀ p q r, FaceWith m pt.face p q r → Shaped κ p q r)
    (hpt : ∀ pt ∈ ps, LocatedOrNot m pt) :
    Together (Each (NearCell M (80 * (u * κ) * M))) (fun i => xyUR (bothRuns rnd i) m loc data ps) := by
  have lift : ∀ g : Bool → UPt K → Except Err (Option K),
      (∀ p ∈ ps, Together (fun v => NearCell M (80 * (u * κ) * M) (fun i => ⟨v i, false⟩))
        (fun i => g i p)) →
      Together (Each (NearCell M (80 * (u * κ) * M))) (fun i =>
        match mapE (g i) ps with
        | .error e => .error e
        | .ok vs => .ok (vs.map fun v => ({ value := v, masked := false } : Cell K))) := by
    intro g hg
    have key := mapE_each (ι := Bool) (β := fun _ => UPt K) (γ := fun _ => Option K)
      (R := fun v => NearCell M (80 * (u * κ) * M) (fun i => ⟨v i, false⟩)) g (ps.map fun p _ => p) (by
        intro b hb
        obtain ⟨p, hp, rfl⟩ := List.mem_map.mp hb
        exact hg p hp)
    have hcm : ∀ i : Bool, (ps.map fun p => (fun _ : Bool => p)).map (· i) = ps := by
      intro i; rw [List.map_map]; exact List.map_id ps
    simp only [hcm] at key
    rcases key with ⟨x, hx⟩ | ⟨l, ⟨L, hL, hl⟩, hx⟩
    · exact Or.inl ⟨x, fun i => by simp only [hx i]⟩
    · refine Or.inr ⟨fun i => (l i).map fun v => ({ value := v, masked := false } : Cell K),
        ⟨L.map fun v i => ({ value := v i, masked := false } : Cell K), ?_, ?_⟩,
        fun i => by simp only [hx i]⟩
      · intro c hc
        obtain ⟨v, hv, rfl⟩ := List.mem_map.mp hc
        exact hL v hv
      · intro i
        simp only [hl i, List.map_map]
        rfl
  cases loc
  · exact lift _ (fun p hp => interpNode_near h hu huκ m data hM p (hsh p hp) (hpt p hp))
  · refine lift _ (fun p hp => interpFace_near h data ?_ hM p.face)
    intro hM0
    have := acc_nonneg h
    positivity
  · exact Or.inl ⟨_, fun _ => rfl⟩

/-! ### The whole evaluation -/

/-- Both raise the same exception, or both return arrays with the same masks and NaNs and with values
at most `δ` apart. -/
def WithinOf (δ : K) (exact rounded : Except Err (List (Cell K))) : Prop :=
  (∃ x, exact = .error x ∧ rounded = .error x) ∨
  ∃ rs : List (Cell K × Cell K), exact = .ok (rs.map fun r => r.1) ∧
    rounded = .ok (rs.map fun r => r.2) ∧
    ∀ r ∈ rs, r.2.masked = r.1.masked ∧ ((r.1.value = none ∧ r.2.value = none) ∨
      ∃ x y, r.1.value = some x ∧ r.2.value = some y ∧ |y - x| ≤ δ)

/-- C160. Data in time and depth, time alone, depth alone or neither, on the nodes or the faces of a
triangular mesh, with levels listed down or up and any boundary conditions; points located in their
triangle or nowhere; any time. With every operation rounded with relative error `u`, the results
are within `(80 κ + 52) u M` of the exact ones, where `M` bounds the data and `κ` the thinness of the
triangles asked for. Nothing else changes: same exceptions, same masks, same NaNs. -/
theorem C160_eval_error (rnd : K → K) (u : K) (h : Accurate rnd u) (hu : u ≤ 1 / 1024) (κ M : K)
    (hκ : 0 ≤ κ) (huκ : u * κ ≤ 1 / 144) (m : UGeom.Mesh K) (loc : UGeom.Loc) (times : List Int)
    (ht : StrictIncr times) (levels : List K) (hl : StrictIncr levels ∨ StrictDecr levels)
    (sbc bbc : BC) (d : Data (List (Option K))) (hd : d.All fun s => ∀ v, some v ∈ s → |v| ≤ M)
    (pts : List (UPt K)) (hsh : ∀ pt ∈ pts, ∀ p q r, FaceWith m pt.face p q r → Shaped κ p q r)
    (hpts : ∀ pt ∈ pts, LocatedOrNot m pt) (t : Int) (e : Bool) :
    WithinOf ((80 * κ + 52) * u * M)
      (eval (xyU m loc) times (levelSys UPt.z levels sbc bbc) d pts t e)
      (evalR rnd (xyUR rnd m loc) times (levelSysR rnd UPt.z levels sbc bbc) d pts t e) := by
  have hu0 := acc_nonneg h
  have hu16 : u ≤ 1 / 16 := le_trans hu (by norm_num)
  have hcm : ∀ (ps : List (UPt K)) (i : Bool), (ps.map fun p => (fun _ : Bool => p)).map (· i) = ps := by
    intro ps i; rw [List.map_map]; exact List.map_id ps
  have := evalR_together (ι := Bool) (P := fun _ => UPt K) (σ := fun _ => List (Option K))
    (rnd := bothRuns rnd) (step_near h hu16 M (80 * (u * κ) * M)) (step_near h hu16 M _)
    (Q := fun p => ∃ q ∈ pts, p = fun _ => q)
    (S := fun s => ∃ s0 : List (Option K), (∀ v, some v ∈ s0 → |v| ≤ M) ∧ s = fun _ => s0)
    (fun i => xyUR (bothRuns rnd i) m loc) (by
      rintro s ⟨s0, hs0, rfl⟩ ps hps
      obtain ⟨qs, hqs, rfl⟩ : ∃ qs : List (UPt K), (∀ q ∈ qs, q ∈ pts) ∧ ps = qs.map fun q _ => q := by
        refine ⟨ps.map (· false), ?_, ?_⟩
        · intro q hq
          obtain ⟨p, hp, rfl⟩ := List.mem_map.mp hq
          obtain ⟨q, hq', rfl⟩ := hps p hp
          exact hq'
        · rw [List.map_map]
          conv_lhs => rw [← List.map_id ps]
          refine List.map_congr_left fun p hp => ?_
          obtain ⟨q, _, rfl⟩ := hps p hp
          rfl
      simp only [hcm]
      exact xyUR_near h hu16 hκ huκ m loc s0 hs0 qs (fun q hq => hsh q (hqs q hq))
        (fun q hq => hpts q (hqs q hq)))
    times (fun i => levelSysR (bothRuns rnd i) UPt.z levels sbc bbc) (levels.length - 1) (fun _ => rfl)
    (d.map fun s _ => s) (by
      cases d with
      | timeDepth d =>
        intro r hr s hs
        obtain ⟨r', hr', rfl⟩ := List.mem_map.mp hr
        obtain ⟨x, hx, rfl⟩ := List.mem_map.mp hs
        exact ⟨x, hd r' hr' x hx, rfl⟩
      | time d => intro s hs; obtain ⟨x, hx, rfl⟩ := List.mem_map.mp hs; exact ⟨x, hd x hx, rfl⟩
      | depth d => intro s hs; obtain ⟨x, hx, rfl⟩ := List.mem_map.mp hs; exact ⟨x, hd x hx, rfl⟩
      | flat s => exact ⟨s, hd, rfl⟩)
    (pts.map fun p _ => p) (by
      intro p hp
      obtain ⟨q, hq, rfl⟩ := List.mem_map.mp hp
      exact ⟨q, hq, rfl⟩)
    (depths_near h hu16 UPt.z hl sbc bbc pts) t e (interpAlpha_near h hu16 ht t e)
  have hdm : ∀ i : Bool, (d.map fun s => (fun _ : Bool => s)).map (· i) = d := by
    intro i
    cases d <;> simp [Data.map, Function.comp_def]
  simp only [hcm, hdm] at this
  have e0 : evalR (bothRuns rnd false) (xyUR (bothRuns rnd false) m loc) times
      (levelSysR (bothRuns rnd false) UPt.z levels sbc bbc) d pts t e =
      eval (xyU m loc) times (levelSys UPt.z levels sbc bbc) d pts t e := by
    have hx : xyUR (fun x : K => x) m loc = xyU m loc := by
      funext s ps; exact xyUR_exact m loc s ps
    show evalR (fun x => x) (xyUR (fun x => x) m loc) times
      (levelSysR (fun x => x) UPt.z levels sbc bbc) d pts t e = _
    rw [evalR_exact, hx, levelSysR_exact]
  rcases this with ⟨x, hx⟩ | ⟨l, ⟨L, hL, hl'⟩, hx⟩
  · exact Or.inl ⟨x, by rw [← e0]; exact hx false, hx true⟩
  · refine Or.inr ⟨L.map fun c => (c false, c true), ?_, ?_, ?_⟩
    · rw [← e0, List.map_map]; exact (hx false).trans (congrArg Except.ok (hl' false))
    · rw [List.map_map]; exact (hx true).trans (congrArg Except.ok (hl' true))
    · intro r hr
      obtain ⟨c, hc, rfl⟩ := List.mem_map.mp hr
      obtain ⟨h1, h2⟩ := hL c hc
      refine ⟨h1, h2.imp id ?_⟩
      rintro ⟨x, y, hx, hy, hM, he⟩
      refine ⟨x, y, hx, hy, le_trans he ?_⟩
      have hM0 : 0 ≤ M := le_trans (abs_nonneg _) hM
      have huM : 0 ≤ u * M := mul_nonneg hu0 hM0
      have k0 : u * κ * M ≤ M / 144 := by
        have := mul_le_mul_of_nonneg_right huκ hM0; linarith
      have k1 : u * (80 * (u * κ) * M) ≤ 5 / 9 * (u * M) := by
        have := mul_le_mul_of_nonneg_left k0 hu0; linarith
      have k2 : u * (u * M) ≤ 1 / 1024 * (u * M) := mul_le_mul_of_nonneg_right hu huM
      have k3 : u * (u * (80 * (u * κ) * M)) ≤ 1 / 1024 * (5 / 9 * (u * M)) := by
        have h1 := mul_le_mul_of_nonneg_left k1 hu0
        have h2 : u * (5 / 9 * (u * M)) ≤ 1 / 1024 * (5 / 9 * (u * M)) :=
          mul_le_mul_of_nonneg_right hu (by linarith)
        linarith
      nlinarith [k1, k2, k3]

/-- C160 for doubles. -/
theorem C160_eval_error_doubles (κ M : ℚ) (hκ : 0 ≤ κ) (hκ' : κ ≤ 2 ^ 45) (m : UGeom.Mesh ℚ)
    (loc : UGeom.Loc) (times : List Int) (ht : StrictIncr times) (levels : List ℚ)
    (hl : StrictIncr levels ∨ StrictDecr levels) (sbc bbc : BC) (d : Data (List (Option ℚ)))
    (hd : d.All fun s => ∀ v, some v ∈ s → |v| ≤ M) (pts : List (UPt ℚ))
    (hsh : ∀ pt ∈ pts, ∀ p q r, FaceWith m pt.face p q r → Shaped κ p q r)
    (hpts : ∀ pt ∈ pts, LocatedOrNot m pt) (t : Int) (e : Bool) :
    WithinOf ((80 * κ + 52) / 2 ^ 53 * M)
      (eval (xyU m loc) times (levelSys UPt.z levels sbc bbc) d pts t e)
      (evalR rnd64 (xyUR rnd64 m loc) times (levelSysR rnd64 UPt.z levels sbc bbc) d pts t e) := by
  have := C160_eval_error rnd64 _ accurate64 (by norm_num) κ M hκ (by
    have : (2 : ℚ) ^ (-53 : ℤ) * κ ≤ (2 : ℚ) ^ (-53 : ℤ) * 2 ^ 45 :=
      mul_le_mul_of_nonneg_left hκ' (by norm_num)
    refine le_trans this ?_
    norm_num) m loc times ht levels hl sbc bbc d hd pts hsh hpts t e
  rwa [show (80 * κ + 52) * (2 : ℚ) ^ (-53 : ℤ) * M = (80 * κ + 52) / 2 ^ 53 * M by
    rw [show (2 : ℚ) ^ (-53 : ℤ) = 1 / 2 ^ 53 by norm_num]; ring] at this

end

/-- Thirds and sevenths on a triangle at two times and two levels. -/
private def thirds : List (List (List (Option ℚ))) :=
  [[[some (1 / 3), some 2, some 3], [some 5, some 7, some 1]],
    [[some 1, some 2, some 3], [some 5, none, some (1 / 7)]]]

/-- The hypotheses hold for them, at a point of the triangle and at one that was not found. -/
example (t : Int) (e : Bool) : WithinOf (132 / 2 ^ 53 * 7)
    (eval (xyU oneTriangle .node) [0, 10] (levelSys UPt.z [0, 10] .extrapolate .mask)
      (.timeDepth thirds) [⟨0, (1, 1), 1 / 3⟩, ⟨-1, (9, 9), 1⟩] t e)
    (evalR rnd64 (xyUR rnd64 oneTriangle .node) [0, 10]
      (levelSysR rnd64 UPt.z [0, 10] .extrapolate .mask)
      (.timeDepth thirds) [⟨0, (1, 1), 1 / 3⟩, ⟨-1, (9, 9), 1⟩] t e) := by
  have hv : ∀ r ∈ thirds, ∀ s ∈ r, ∀ v ∈ s,
      (v.all fun x => decide (-7 ≤ x) && decide (x ≤ 7)) = true := by decide +kernel
  have hsh : ∀ f p q r, FaceWith oneTriangle f p q r → Shaped 1 p q r ∧
      p = (0, 0) ∧ q = (4, 0) ∧ r = (0, 4) := by
    rintro f p q r ⟨a, b, c, h1, h2, h3, h4⟩
    have : [a, b, c] = [0, 1, 2] := by
      have := UGeom.pyGet_mem h1
      simpa [oneTriangle] using this
    simp only [List.cons.injEq, and_true] at this
    obtain ⟨rfl, rfl, rfl⟩ := this
    cases h2; cases h3; cases h4
    refine ⟨⟨Or.inl (by unfold TurnsLeft; norm_num), 4, ?_, ?_, ?_⟩, rfl, rfl, rfl⟩ <;> norm_num
  have := C160_eval_error_doubles 1 7 (by norm_num) (by norm_num) oneTriangle .node [0, 10]
    (by unfold StrictIncr; decide) [0, 10] (Or.inl (by unfold StrictIncr; decide +kernel)) .extrapolate
    .mask (.timeDepth thirds)
    (by
      intro r hr s hs v hv'
      have := hv r hr s hs _ hv'
      simp only [Option.all_some, Bool.and_eq_true, decide_eq_true_eq] at this
      exact abs_le.mpr this)
    [⟨0, (1, 1), 1 / 3⟩, ⟨-1, (9, 9), 1⟩] (fun pt _ p q r h => (hsh _ p q r h).1)
    (by
      intro pt hpt
      simp only [List.mem_cons, List.not_mem_nil, or_false] at hpt
      rcases hpt with rfl | rfl
      · refine Or.inr fun p q r h => ?_
        obtain ⟨_, rfl, rfl, rfl⟩ := hsh _ p q r h
        exact ⟨1 / 2, 1 / 4, 1 / 4, by norm_num, by norm_num, by norm_num, by norm_num, by norm_num,
          by norm_num⟩
      · exact Or.inl rfl) t e
  norm_num at this ⊢
  exact this

/-- What the two runs give at the first time; they differ. -/
example : eval (xyU oneTriangle .node) [0, 10] (levelSys UPt.z [0, 10] .extrapolate .mask)
      (.timeDepth thirds) [⟨0, (1, 1), 1 / 3⟩, ⟨-1, (9, 9), 1⟩] 0 false =
      .ok [⟨some (547 / 360), false⟩, ⟨some 0, false⟩] ∧
    evalR rnd64 (xyUR rnd64 oneTriangle .node) [0, 10] (levelSysR rnd64 UPt.z [0, 10] .extrapolate .mask)
      (.timeDepth thirds) [⟨0, (1, 1), 1 / 3⟩, ⟨-1, (9, 9), 1⟩] 0 false =
      .ok [⟨some (3421484716905085 / 2251799813685248), false⟩, ⟨some 0, false⟩] := by
  decide +kernel

end Verif
