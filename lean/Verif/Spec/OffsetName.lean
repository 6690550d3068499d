/-!
# Reading an ISO offset such as `+03:30`

A decoder written independently of the program's printer.
-/

set_option autoImplicit false

namespace Verif.Spec

/-- Value of a string of decimal digits. -/
def decValue (l : List Char) : Nat := l.foldl (fun acc c => acc * 10 + (c.toNat - 48)) 0

/-- Every character is a decimal digit. -/
def AllDigits (l : List Char) : Prop := ∀ c ∈ l, 48 ≤ c.toNat ∧ c.toNat ≤ 57

/-- `s` is a sign, at least two hour digits, a colon and exactly two minute digits below 60, and
denotes `m` minutes. -/
def DenotesMinutes (s : List Char) (m : Int) : Prop :=
  ∃ (sgn : Int) (c : Char) (h mm : List Char),
    s = c :: (h ++ ':' :: mm) ∧ ((c = '+' ∧ sgn = 1) ∨ (c = '-' ∧ sgn = -1)) ∧
    AllDigits h ∧ AllDigits mm ∧ 2 ≤ h.length ∧ mm.length = 2 ∧ decValue mm < 60 ∧
    m = sgn * (60 * decValue h + decValue mm)

end Verif.Spec
