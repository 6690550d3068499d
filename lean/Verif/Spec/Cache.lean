import Verif.Model.Cache

/-!
What callers may rely on, said without the cache: the number of results kept, and what a query
should show.
-/

set_option autoImplicit false

namespace Verif.Cache

/-- The sizes stated in the property. -/
def limit : Which → Nat
  | .variable => 5
  | .vector => 9
  | .ugrid => 6
  | .sgrid => 7
  | .item => 3

/-- The data an object has after a history: the last assigned. -/
def dataAfter {Q δ : Type} (d : δ) : List (Op Q δ) → δ
  | [] => d
  | .setData d' :: h => dataAfter d' h
  | .ask _ _ :: h => dataAfter d h

/-- Queries of a history that go through the cache. -/
def asked {Q δ : Type} : List (Op Q δ) → List Q
  | [] => []
  | .setData _ :: h => asked h
  | .ask q true :: h => q :: asked h
  | .ask _ false :: h => asked h

/-- The data were never assigned. -/
def neverSet {Q δ : Type} : List (Op Q δ) → Prop
  | [] => True
  | .setData _ :: _ => False
  | .ask _ _ :: h => neverSet h

end Verif.Cache
