import Mathlib.Order.Defs.LinearOrder

/-!
# numpy / Python primitives

Transcriptions of the library primitives the program calls. These are part of the trusted base:
they follow the numpy and Python documentation (and, for the two searches, the loop of numpy's
C source), not code in `/repo`.
-/

set_option autoImplicit false

namespace Verif

/-- Python exceptions the modelled code can raise, as values. -/
inductive Err where
  | indexError
  | keyError
  | valueError
  | typeError
  | attributeError
  | unboundLocal
  | timeSeriesError
  | outOfTimeRange
  | notImplemented
  | zeroDivision
  | runtimeError
  | assertionError
  deriving DecidableEq, Repr

namespace Np

/-- The binary search loop of `npy_binsearch`: the least index in `[lo, hi]` at which `p` stops
holding, provided `p` holds on an initial part only. The loop runs `fuel` times at most; callers
pass the array length, which is enough because the interval shrinks on every turn. -/
def bsearch (p : Nat → Bool) : Nat → Nat → Nat → Nat
  | 0, lo, _ => lo
  | fuel + 1, lo, hi =>
    if lo < hi then
      let mid := lo + (hi - lo) / 2
      if p mid then bsearch p fuel (mid + 1) hi else bsearch p fuel lo mid
    else lo

section order
variable {α : Type*} [LinearOrder α]

/-- `np.searchsorted(a, v)` (side `'left'`): insertion point before equal elements. -/
def searchsortedLeft (a : List α) (v : α) : Nat :=
  bsearch (fun i => match a[i]? with
    | some x => decide (x < v)
    | none => false) a.length 0 a.length

/-- `np.searchsorted(a, v, side='right')`: insertion point after equal elements. -/
def searchsortedRight (a : List α) (v : α) : Nat :=
  bsearch (fun i => match a[i]? with
    | some x => decide (x ≤ v)
    | none => false) a.length 0 a.length

/-- Each element is at most the next. -/
def nondecreasing : List α → Bool
  | a :: b :: t => decide (a ≤ b) && nondecreasing (b :: t)
  | _ => true

/-- Each element is at least the next. -/
def nonincreasing : List α → Bool
  | a :: b :: t => decide (b ≤ a) && nonincreasing (b :: t)
  | _ => true

/-- `np.digitize(x, bins, right)`: numpy implements it by `searchsorted` with the side swapped,
on the reversed array when the bins decrease, and raises `ValueError` for bins that are not
monotone. -/
def digitize (x : α) (bins : List α) (right : Bool) : Except Err Nat :=
  let ss := fun (b : List α) => if right then searchsortedLeft b x else searchsortedRight b x
  if nondecreasing bins then .ok (ss bins)
  else if nonincreasing bins then .ok (bins.length - ss bins.reverse)
  else .error .valueError

/-- Insert into a sorted list, before the first element that is not smaller. -/
def insertSorted (x : α) : List α → List α
  | [] => [x]
  | y :: ys => if x ≤ y then x :: y :: ys else y :: insertSorted x ys

/-- `np.sort`: any sorting algorithm gives the same result on a linear order; this is insertion
sort. -/
def sort : List α → List α
  | [] => []
  | x :: xs => insertSorted x (sort xs)

/-- Remove adjacent repeats. -/
def dedupAdj : List α → List α
  | a :: b :: t => if a = b then dedupAdj (b :: t) else a :: dedupAdj (b :: t)
  | l => l

/-- `np.unique`: the sorted array without repeats. -/
def unique (l : List α) : List α := dedupAdj (sort l)

end order

/-- Python sequence indexing `l[i]`: negative indices count from the end, anything else out of
range raises `IndexError`. -/
def pyGet {α : Type*} (l : List α) (i : Int) : Except Err α :=
  if 0 ≤ i then
    match l[i.toNat]? with
    | some x => .ok x
    | none => .error .indexError
  else
    if (-i).toNat ≤ l.length then
      match l[l.length - (-i).toNat]? with
      | some x => .ok x
      | none => .error .indexError
    else .error .indexError

end Np
end Verif
