import Verif.Model.SCelltree
import Verif.Spec.SCelltree
import Verif.Lemmas.SIndex
import Mathlib.Tactic.Ring

/-!
# Compression lemmas for the masked search tree
-/

set_option autoImplicit false

namespace Verif.SCelltree
open Verif Verif.Spec Verif.SIndex

theorem compress_get {α : Type*} (xs : List α) (keep : List Bool) (k : Nat) (v : α)
    (hk : keep[k]? = some true) (hv : xs[k]? = some v) :
    (compress xs keep)[(keep.take k).count true]? = some v := by
  induction keep generalizing xs k with
  | nil => simp at hk
  | cons b bs ih =>
    cases xs with
    | nil => simp at hv
    | cons x xs =>
      cases k with
      | zero =>
        simp only [List.getElem?_cons_zero, Option.some.injEq] at hk hv
        subst hk hv
        simp [compress]
      | succ k =>
        have := ih xs k (by simpa using hk) (by simpa using hv)
        cases b with
        | true => simpa [compress] using this
        | false => simpa [compress] using this

theorem reshape_rows (rows : List (List Int)) (h : ∀ r ∈ rows, r.length = 4 ∧
    ((∀ x ∈ r, 0 ≤ x) ∨ (∀ x ∈ r, x < 0))) :
    reshape4 (rows.flatten.filter (fun x => decide (0 ≤ x))) =
      .ok (rows.filter (fun r => r.all (fun x => decide (0 ≤ x)))) := by
  induction rows with
  | nil => rfl
  | cons r t ih =>
    have ih' := ih (fun r hr => h r (by simp [hr]))
    obtain ⟨hl, hs⟩ := h r (by simp)
    match r, hl with
    | [a, b, c, d], _ =>
      rcases hs with hs | hs
      · have ha := hs a (by simp)
        have hb := hs b (by simp)
        have hc := hs c (by simp)
        have hd := hs d (by simp)
        simp only [List.flatten_cons, List.filter_append]
        have e : List.filter (fun x => decide (0 ≤ x)) [a, b, c, d] = [a, b, c, d] := by
          simp [ha, hb, hc, hd]
        rw [e, List.filter_cons]
        simp only [List.cons_append, List.nil_append, reshape4, ih']
        simp [ha, hb, hc, hd]
      · have ha := not_le.2 (hs a (by simp))
        have hb := not_le.2 (hs b (by simp))
        have hc := not_le.2 (hs c (by simp))
        have hd := not_le.2 (hs d (by simp))
        simp only [List.flatten_cons, List.filter_append]
        have e : List.filter (fun x => decide (0 ≤ x)) [a, b, c, d] = [] := by
          simp [ha, hb, hc, hd]
        rw [e, List.nil_append, ih', List.filter_cons]
        simp [ha]

theorem takenFlat_get (rows cols : Nat) (mask : List (List Bool)) (i j : Nat) (hi : i < rows)
    (hj : j < cols) : (takenFlat rows cols mask)[i * cols + j]? = some (taken mask i j) := by
  have hlt : i * cols + j < rows * cols := by
    calc i * cols + j < i * cols + cols := by omega
      _ = (i + 1) * cols := by ring
      _ ≤ rows * cols := Nat.mul_le_mul_right _ (by omega)
  have h1 : (i * cols + j) / cols = i := by
    rw [Nat.mul_comm, Nat.mul_add_div (by omega), Nat.div_eq_of_lt hj]; rfl
  have h2 : (i * cols + j) % cols = j := by
    rw [Nat.mul_comm, Nat.mul_add_mod]; exact Nat.mod_eq_of_lt hj
  simp [takenFlat, List.getElem?_range hlt, h1, h2]

theorem water_iff (mask : List (List Bool)) (i j : Nat) :
    water mask i j = true ↔ entry mask i j = some false := by
  unfold water entry
  cases mask[i]? with
  | none => simp
  | some r =>
    simp only [Option.bind_some]
    cases r[j]? with
    | none => simp
    | some b => cases b <;> simp

theorem taken_corners (mask : List (List Bool)) (i j : Nat) (h : water mask i j = true) :
    taken mask i j = true ∧ taken mask i (j + 1) = true ∧ taken mask (i + 1) (j + 1) = true ∧
      taken mask (i + 1) j = true := by
  refine ⟨?_, ?_, ?_, ?_⟩ <;> simp [taken, h]

theorem number_taken (keep : List Bool) (k : Nat) (h : keep[k]? = some true) :
    number keep k = (((keep.take k).count true : Nat) : Int) := by
  simp [number, h]

theorem coord_of_number {P : Type} (nodes : List P) (keep : List Bool) (k : Nat)
    (h : keep[k]? = some true) (hn : k < nodes.length) :
    (if 0 ≤ number keep k then (compress nodes keep)[(number keep k).toNat]? else none) =
      nodes[k]? := by
  rw [number_taken keep k h, if_pos (by omega)]
  rw [List.getElem?_eq_getElem hn]
  rw [Int.toNat_natCast]
  exact compress_get nodes keep k _ h (List.getElem?_eq_getElem hn)

theorem flat_get (c : Nat) (cm : List (List Bool)) (hr : Rectangular c cm) (hc : 0 < c) (q : Nat) :
    cm.flatten[q]? = entry cm (q / c) (q % c) := by
  rw [← flatten_get c cm hr (q / c) (q % c) (Nat.mod_lt _ hc)]
  congr 1
  rw [Nat.mul_comm]; exact (Nat.div_add_mod q c).symm

theorem flatten_length (c : Nat) {α : Type*} (A : List (List α)) (hr : Rectangular c A) :
    A.flatten.length = A.length * c := by
  induction A with
  | nil => simp
  | cons r t ih =>
    rw [List.flatten_cons, List.length_append, ih (fun x hx => hr x (by simp [hx])),
      hr r (by simp), List.length_cons]
    ring

end Verif.SCelltree
