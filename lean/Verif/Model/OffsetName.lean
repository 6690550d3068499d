import Mathlib.Algebra.Order.Field.Basic
import Mathlib.Data.Rat.Floor
import Mathlib.Algebra.Order.Ring.Rat

/-!
# `offset_as_iso_string`, `gridded/time.py:29-45`

Strings are lists of characters. Each floating-point operation is passed through `rnd`; `int(...)`
of a non-negative number is the floor.
-/

set_option autoImplicit false

namespace Verif.OffsetName

/-- Decimal digits of a natural number, as Python's `format` prints an `int`. `fuel` bounds the
number of digits. -/
def decDigits : Nat → Nat → List Char
  | 0, _ => []
  | fuel + 1, n =>
    if n < 10 then [Char.ofNat (48 + n)]
    else decDigits fuel (n / 10) ++ [Char.ofNat (48 + n % 10)]

/-- `f"{n:0>2}"`: pad with zeros on the left to width 2. -/
def pad2 (n : Nat) : List Char :=
  let d := decDigits (n + 1) n
  List.replicate (2 - d.length) '0' ++ d

/-- `offset_as_iso_string` for a number, `gridded/time.py:41-45`. -/
def isoString (rnd : ℚ → ℚ) (o : ℚ) : List Char :=
  let sign := if o < 0 then '-' else '+'
  let hours : Int := ⌊|o|⌋
  let minutes : Int := ⌊rnd (rnd (|o| - hours) * 60)⌋
  sign :: (pad2 hours.toNat ++ ':' :: pad2 minutes.toNat)

end Verif.OffsetName
