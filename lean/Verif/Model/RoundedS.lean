import Verif.Model.SInterp

/-!
# Interpolation in a cell of a structured grid, with every floating-point operation rounded

The code of `Model/SInterp.lean` with each operation on floating-point numbers passed through `rnd`;
`sq` is the square root of the machine, already rounded. With the identity for `rnd` this is the exact
model (see the theorem beside the properties). Overflow and underflow are not modelled.
-/

set_option autoImplicit false

namespace Verif.RoundedS
open Verif.SInterp (Coeffs)

section
variable {K : Type*} [Field K] [LinearOrder K]

/-- `np.dot(AI, poly)`, `gridded/pysgrid/sgrid.py:561-579`. The entries of `AI` are 0, 1 and -1, so that
the products are exact; the sums are taken from the left. Simplifies: `np.dot` may add in another
order. -/
def coeffsR (rnd : K → K) (v : K × K × K × K) : Coeffs K :=
  ⟨v.1, rnd (v.2.2.2 - v.1), rnd (v.2.1 - v.1), rnd (rnd (rnd (v.1 - v.2.1) + v.2.2.1) - v.2.2.2)⟩

/-- `aa`, `gridded/pysgrid/sgrid.py:1327`. -/
def aaR (rnd : K → K) (a b : Coeffs K) : K := rnd (rnd (a.c4 * b.c3) - rnd (a.c3 * b.c4))

/-- `bb`, `gridded/pysgrid/sgrid.py:1328`, from the left. -/
def bbR (rnd : K → K) (x y : K) (a b : Coeffs K) : K :=
  rnd (rnd (rnd (rnd (rnd (rnd (a.c4 * b.c1) - rnd (a.c1 * b.c4)) + rnd (a.c2 * b.c3)) - rnd (a.c3 * b.c2))
    + rnd (x * b.c4)) - rnd (y * a.c4))

/-- `cc`, `gridded/pysgrid/sgrid.py:1329`, from the left. -/
def ccR (rnd : K → K) (x y : K) (a b : Coeffs K) : K :=
  rnd (rnd (rnd (rnd (a.c2 * b.c1) - rnd (a.c1 * b.c2)) + rnd (x * b.c2)) - rnd (y * a.c2))

/-- The numerator of `l`, `gridded/pysgrid/sgrid.py:1313, 1316, 1338`. -/
def numR (rnd : K → K) (x : K) (a : Coeffs K) (m : K) : K := rnd (rnd (x - a.c1) - rnd (a.c3 * m))

/-- The denominator of `l`. -/
def denR (rnd : K → K) (a : Coeffs K) (m : K) : K := rnd (a.c2 + rnd (a.c4 * m))

/-- A rounded quotient, `none` if it is not finite. -/
def quotR (rnd : K → K) (num den : K) : Option K := if den = 0 then none else some (rnd (num / den))

/-- The test `l1 < 0 or l1 > 1`, as `SInterp.quotOutside`. -/
def quotOutsideR (rnd : K → K) (num den : K) : Bool :=
  if den = 0 then decide (num ≠ 0) else decide (rnd (num / den) < 0) || decide (1 < rnd (num / den))

/-- The discriminant `k`, `gridded/pysgrid/sgrid.py:1308`. -/
def discR (rnd : K → K) (aa bb cc : K) : K := rnd (rnd (bb * bb) - rnd (rnd (4 * aa) * cc))

/-- `x_to_l`, `gridded/pysgrid/sgrid.py:1283-1342`, for one point. The pair is `(l, m)`. Twice a number
that is not 0 does not round to 0. -/
def xToLR (rnd sq : K → K) (x y : K) (a b : Coeffs K) : Option (K × K) :=
  let aa := aaR rnd a b
  let bb := bbR rnd x y a b
  let cc := ccR rnd x y a b
  if aa = 0 then
    match quotR rnd (-cc) bb with
    | none => none
    | some m => (quotR rnd (numR rnd x a m) (denR rnd a m)).map (fun l => (l, m))
  else
    let k := discR rnd aa bb cc
    if k < 0 then none
    else
      let det := sq k
      let m1 := rnd (rnd (-bb - det) / rnd (2 * aa))
      let m2 := rnd (rnd (-bb + det) / rnd (2 * aa))
      let t := quotOutsideR rnd (numR rnd x a m1) (denR rnd a m1) || (decide (m1 < 0) || decide (1 < m1))
      let m := if t then m2 else m1
      (quotR rnd (numR rnd x a m) (denR rnd a m)).map (fun l => (l, m))

/-- `indices + (l, m)`, then `- ind`, `gridded/pysgrid/sgrid.py:1276, 1124`. -/
def offsetR (rnd : K → K) (i l : K) : K := rnd (rnd (i + l) - i)

/-- The four node weights, `gridded/pysgrid/sgrid.py:1234-1237`. -/
def weightsR (rnd : K → K) (l m : K) : K × K × K × K :=
  (rnd (rnd (rnd (1 - l) - m) + rnd (l * m)), rnd (m - rnd (l * m)), rnd (l * m), rnd (l - rnd (l * m)))

/-- `np.allclose(aa + ab + ac + ad, 1)`, `gridded/pysgrid/sgrid.py:1239`, with the tolerances of
numpy. -/
def closeR (rnd : K → K) (w : K × K × K × K) : Bool :=
  decide (|rnd (rnd (rnd (w.1 + w.2.1) + w.2.2.1) + w.2.2.2) - 1| ≤ 1 / 10 ^ 8 + 1 / 10 ^ 5)

/-- `np.ma.sum(vals * alphas, axis=1)`, `gridded/pysgrid/sgrid.py:1241-1244`, for one point without
masked values: four products, added from the left. -/
def sum4R (rnd : K → K) (v w : K × K × K × K) : K :=
  rnd (rnd (rnd (rnd (v.1 * w.1) + rnd (v.2.1 * w.2.1)) + rnd (v.2.2.1 * w.2.2.1)) +
    rnd (v.2.2.2 * w.2.2.2))

/-- The value at `p` of data on the nodes, for a point found in the cell with index `ij`, corners
`px`, `py` and node values `v` in the order of `get_variable_by_index`,
`gridded/pysgrid/sgrid.py:1117-1124, 1228-1244`. The look-ups are in `Model/SInterp.lean`. -/
def cellValueR (rnd sq : K → K) (ij : K × K) (px py v : K × K × K × K) (p : K × K) : Except Err K :=
  match xToLR rnd sq p.1 p.2 (coeffsR rnd px) (coeffsR rnd py) with
  | none => .error .assertionError
  | some lm =>
    let w := weightsR rnd (offsetR rnd ij.1 lm.1) (offsetR rnd ij.2 lm.2)
    if closeR rnd w then .ok (sum4R rnd v w) else .error .assertionError

end

end Verif.RoundedS
