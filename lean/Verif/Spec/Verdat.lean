import Verif.Spec.UTopo

/-!
# Chains of boundary segments
-/

set_option autoImplicit false

namespace Verif.Spec

/-- Consecutive pairs of a list. -/
def pairs : List Int → List (Int × Int)
  | a :: b :: t => (a, b) :: pairs (b :: t)
  | _ => []

/-- Consecutive pairs of a closed loop: the last point is followed by the first. -/
def loopPairs : List Int → List (Int × Int)
  | [] => []
  | a :: t => pairs (a :: t ++ [a])

/-- A segment without its direction. -/
def undirected (s : Int × Int) : Int × Int := (min s.1 s.2, max s.1 s.2)

/-- The segments lead around loops: each joins two nodes, every node that starts one ends one, and
no node starts two or ends two. -/
structure Oriented (segs : List (Int × Int)) : Prop where
  proper : ∀ s ∈ segs, s.1 ≠ s.2
  starts : (segs.map Prod.fst).Nodup
  balanced : (segs.map Prod.fst).Perm (segs.map Prod.snd)

end Verif.Spec
