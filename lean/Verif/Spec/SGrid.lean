import Verif.Model.SIndex
import Mathlib.Data.List.Forall2

/-!
# What paddings, locations and windows of structured grids mean

Stated from the documentation of `SGrid` (`gridded/pysgrid/sgrid.py:81-96`): a padded array is the
array of one value per cell with extra values at the padded ends.
-/

set_option autoImplicit false

namespace Verif.Spec
open Verif.SIndex

/-- How many extra values a padding word puts before the first cell. -/
def lowPads : Pad → Nat
  | .low => 1
  | .both => 1
  | _ => 0

/-- How many extra values a padding word puts after the last cell. -/
def highPads : Pad → Nat
  | .high => 1
  | .both => 1
  | _ => 0

/-- `full` is `core` with the extra values of padding `p` around it. -/
def Padded {α : Type*} (p : Pad) (core full : List α) : Prop :=
  ∃ a b, full = a ++ core ++ b ∧ a.length = lowPads p ∧ b.length = highPads p

/-- The same in two dimensions: every row is padded by `p.2`, and the list of rows by `p.1`. -/
def Padded2 {α : Type*} (p : Pad × Pad) (core full : List (List α)) : Prop :=
  ∃ mid, List.Forall₂ (Padded p.2) core mid ∧ Padded p.1 mid full

/-- All rows have `c` values. -/
def Rectangular {α : Type*} (c : Nat) (A : List (List α)) : Prop := ∀ r ∈ A, r.length = c

/-- The value in row `i` and column `j`. -/
def entry {α : Type*} (A : List (List α)) (i j : Nat) : Option α :=
  (A[i]?).bind (fun r => r[j]?)

/-- The array shape of a location. -/
def shapeOf (g : Shapes) : Loc → Option (Nat × Nat)
  | .node => some g.node
  | .center => g.center
  | .edge1 => g.edge1
  | .edge2 => g.edge2

/-- The offsets, from the index of a cell, of the values at a location that belong to the cell:
its four corners, the two sides that differ in the column, the two sides that differ in the row,
its center. -/
def belongs : Loc → List (Nat × Nat)
  | .node => [(0, 0), (1, 0), (1, 1), (0, 1)]
  | .edge1 => [(0, 0), (0, 1)]
  | .edge2 => [(0, 0), (1, 0)]
  | .center => [(0, 0)]

/-- The window contains the index pair. -/
def inWindow (w : Window) (i j : Nat) : Prop :=
  w.lo0 ≤ i ∧ i < w.hi0 ∧ w.lo1 ≤ j ∧ j < w.hi1

end Verif.Spec
