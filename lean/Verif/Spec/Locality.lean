import Verif.Model.At
import Verif.Spec.SGrid

/-!
# What is next to what
-/

set_option autoImplicit false

namespace Verif.Spec
open Verif.At

/-- Entry `i` of the list is next to `x`: no entry lies strictly between the two. -/
def NextTo {α : Type*} [LT α] (l : List α) (x : α) (i : Nat) : Prop :=
  ∃ y, l[i]? = some y ∧ ∀ z ∈ l, ¬ (y < z ∧ z < x) ∧ ¬ (x < z ∧ z < y)

/-- Two lists of the same length whose entries correspond. -/
def Alike {α β : Type*} (R : α → β → Prop) (l : List α) (l' : List β) : Prop :=
  l.length = l'.length ∧ ∀ (i : Nat) x x', l[i]? = some x → l'[i]? = some x' → R x x'

section
variable {K : Type}

/-- The numbers of the data values a point takes its value from: the corners of its face, or the
face. -/
def UsesU (m : UGeom.Mesh K) (loc : UGeom.Loc) (p : UPt K) (n : Nat) : Prop :=
  match loc with
  | .node => ∃ (k : Nat) (f : List Int), p.face = k ∧ m.faces[k]? = some f ∧ (n : Int) ∈ f
  | .face => p.face = n
  | .boundary => False

/-- The places in the data array a point of cell `(i, j)` takes its value from: the four corners of
the cell, its center, or its two edges, after the padding. -/
def UsesS (g : SInterp.Grid K) (loc : SIndex.Loc) (p : SPt K) (r c : Nat) : Prop :=
  ∃ i j : Nat, p.cell = some ((i : Int), (j : Int)) ∧
    let a := i + lowPads (g.pads loc).1
    let b := j + lowPads (g.pads loc).2
    match loc with
    | .node => (r = a ∨ r = a + 1) ∧ (c = b ∨ c = b + 1)
    | .center => r = a ∧ c = b
    | .edge1 => r = a ∧ (c = b ∨ c = b + 1)
    | .edge2 => (r = a ∨ r = a + 1) ∧ c = b

/-- Two arrays hold the same value at a place. -/
def SameAt {α : Type*} (A A' : List (List α)) (r c : Nat) : Prop :=
  ∃ v, entry A r c = some v ∧ entry A' r c = some v

end

end Verif.Spec
