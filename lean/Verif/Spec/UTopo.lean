import Mathlib.Data.List.Basic

/-!
# Meshes as sets of sides
-/

set_option autoImplicit false

namespace Verif.Spec

/-- A face table with `nv` vertices per face. -/
def Rect (nv : Nat) (faces : List (List Int)) : Prop := ∀ f ∈ faces, f.length = nv

/-- Side `j` of face `i` runs from `a` to `b`: consecutive vertices, the last one followed by the
first. -/
def Side (faces : List (List Int)) (i j : Nat) (a b : Int) : Prop :=
  ∃ f, faces[i]? = some f ∧ f[j]? = some a ∧ f[(j + 1) % f.length]? = some b

/-- Sides with the same two end points, in either direction. -/
def SameEdge (a b c d : Int) : Prop := (a = c ∧ b = d) ∨ (a = d ∧ b = c)

/-- Side `(i, j)` and side `(k, l)` are the same edge. -/
def Shares (faces : List (List Int)) (i j k l : Nat) : Prop :=
  ∃ a b c d, Side faces i j a b ∧ Side faces k l c d ∧ SameEdge a b c d

/-- Every edge belongs to at most two sides. -/
def AtMostTwo (faces : List (List Int)) : Prop :=
  ∀ i j k l m n, Shares faces i j k l → Shares faces i j m n →
    (k, l) = (i, j) ∨ (m, n) = (i, j) ∨ (k, l) = (m, n)

/-- Entry of a table. -/
def Entry (t : List (List Int)) (i j : Nat) (v : Int) : Prop :=
  ∃ r, t[i]? = some r ∧ r[j]? = some v

/-- Number of segment ends at a node. -/
def degree (v : Int) (segs : List (Int × Int)) : Nat :=
  (segs.map (fun s => (if s.1 = v then 1 else 0) + (if s.2 = v then 1 else 0))).sum

end Verif.Spec

namespace Verif.Spec

/-- A walk from `u` to `v` along directed steps. -/
inductive Walk : Int → Int → List (Int × Int) → Prop
  | nil (u : Int) : Walk u u []
  | cons (u x v : Int) (s : List (Int × Int)) : Walk x v s → Walk u v ((u, x) :: s)

/-- The segments, each walked once in one of its directions, make up closed loops. -/
def ClosedLoops (segs : List (Int × Int)) : Prop :=
  ∃ loops : List (List (Int × Int)), (∀ l ∈ loops, l ≠ [] ∧ ∃ a, Walk a a l) ∧
    ∃ segs' : List (Int × Int),
      List.Forall₂ (fun s s' => s' = s ∨ s' = (s.2, s.1)) segs segs' ∧ segs'.Perm loops.flatten

end Verif.Spec
