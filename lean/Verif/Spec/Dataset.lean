import Verif.Model.Dataset

/-!
# What datasets and variables should hold
-/

set_option autoImplicit false

namespace Verif.Spec
open Verif.Dataset

/-- A word of a text: letters without blanks, between blanks or the ends of the text. -/
def WordOf (w s : List Char) : Prop :=
  w ≠ [] ∧ (∀ c ∈ w, c.isWhitespace = false) ∧
    ∃ a b, s = a ++ w ++ b ∧ (∀ c, a.getLast? = some c → c.isWhitespace = true) ∧
      ∀ c, b.head? = some c → c.isWhitespace = true

/-- The topology of the grid mentions this name. -/
def Mentioned (topology : List (String × String)) (k : String) : Prop :=
  ∃ kv ∈ topology, WordOf k.toList kv.2.toList

/-- The locations known to the program. -/
def KnownLocation (l : String) : Prop :=
  l = "center" ∨ l = "edge1" ∨ l = "edge2" ∨ l = "node" ∨ l = "face" ∨ l = "edge" ∨ l = "boundary"

/-- Where a variable is: where it says, if that is a known location, else where it fits. -/
def LocatedAt (infer : NcVar → Except Err (Option String)) (v : NcVar) (l : String) : Prop :=
  (v.location = some l ∧ KnownLocation l) ∨
    ((∀ x, v.location = some x → ¬ KnownLocation x) ∧ infer v = .ok (some l))

/-- The value of an attribute. -/
def HasAttr {A : Type} (as : List (String × A)) (k : String) (a : A) : Prop :=
  ∃ pre post, as = pre ++ (k, a) :: post ∧ ∀ e ∈ pre, e.1 ≠ k

/-- The names of the horizontal dimensions. -/
def spatial (structured : Bool) : List String := if structured then ["lon", "lat"] else ["ele"]

/-- The order of data with or without a time and a depth. -/
def orderOf (structured time depth : Bool) : List String :=
  (if time then ["time"] else []) ++ (if depth then ["depth"] else []) ++ spatial structured

end Verif.Spec
