import Verif.Model.Vector

/-!
# What vector variables should answer
-/

set_option autoImplicit false

namespace Verif.Spec
open Verif.Util (Arr FVar)
open Verif.Vector

/-- The rows of a table with these columns, all of length `n`. -/
def RowsOf {ν : Type} (rows cols : List (List ν)) (n : Nat) : Prop :=
  (∀ c ∈ cols, c.length = n) ∧ rows.length = n ∧
    ∀ i : Nat, i < n → ∃ row, rows[i]? = some row ∧ row.length = cols.length ∧
      ∀ (j : Nat) (c : List ν), cols[j]? = some c → row[j]? = c[i]?

/-- The file has a variable of this name. -/
def Present (ds : List FVar) (n : String) : Prop := ∃ v ∈ ds, v.name = n

/-- The variable has this standard name or long name. -/
def Described (n : String) (v : FVar) : Prop := v.standardName = some n ∨ v.longName = some n

/-- The first variable of the file with this standard or long name. -/
def FirstDescribed (ds : List FVar) (n : String) (v : FVar) : Prop :=
  ∃ pre post, ds = pre ++ v :: post ∧ Described n v ∧ ∀ u ∈ pre, ¬ Described n u

/-- The first of the candidates with the property. -/
def FirstOf {α : Type} (l : List α) (P : α → Prop) (a : α) : Prop :=
  ∃ pre post, l = pre ++ a :: post ∧ P a ∧ ∀ b ∈ pre, ¬ P b

/-- The last of the candidates with the property. -/
def LastSuch {α : Type} (l : List α) (P : α → Prop) (a : α) : Prop :=
  ∃ pre post, l = pre ++ a :: post ∧ P a ∧ ∀ b ∈ post, ¬ P b

/-- The points have `k` coordinates each and the array is complete. -/
def Columns {K : Type} (k : Nat) (p : Arr K) : Prop :=
  ∃ n, p.shape = [n, k] ∧ p.data.length = n * k

end Verif.Spec
