import Verif.Model.Verdat
import Mathlib.Algebra.Field.Rat
import Mathlib.Algebra.Order.Ring.Rat
import Mathlib.Data.Rat.Floor

/-!
# Verdat files as text, `gridded/io/verdat.py`

The same functions as in `Model/Verdat.lean`, but writing and reading characters. A text is the list of
its characters; lines end with a line feed. Numbers are rationals with a sign (doubles have a negative
zero), NaN or infinite.
-/

set_option autoImplicit false

namespace Verif.VerdatText
open Verif Verif.Verdat
open Verif.DepthM (mapE)

/-- A double: finite with sign and size, NaN or infinite. -/
inductive Num where
  | fin (neg : Bool) (mag : ℚ)
  | nan
  | inf (neg : Bool)
  deriving DecidableEq, Repr

/-- `x == 0.0`, lines 40: the negative zero is equal to it too. -/
def Num.isZero : Num → Bool
  | .fin _ q => decide (q = 0)
  | _ => false

/-! ## Writing: the format codes of line 110 -/

/-- The digits of a number, most significant first. -/
def digitsAux : Nat → Nat → List Nat → List Nat
  | 0, _, acc => acc
  | f + 1, n, acc => if n < 10 then n :: acc else digitsAux f (n / 10) (n % 10 :: acc)

def digits (n : Nat) : List Nat := digitsAux (n + 1) n []

/-- The last `p` digits. -/
def lowDigits : Nat → Nat → List Nat
  | 0, _ => []
  | p + 1, n => lowDigits p (n / 10) ++ [n % 10]

def digitChar (d : Nat) : Char := Char.ofNat (48 + d)

/-- A whole number in decimal. -/
def decimal (n : Nat) : List Char := (digits n).map digitChar

/-- Spaces in front up to width `w`. -/
def padLeft (w : Nat) (t : List Char) : List Char := List.replicate (w - t.length) ' ' ++ t

/-- The nearest whole number, ties to even, of a number that is not negative. -/
def halfEven (q : ℚ) : Nat :=
  let n := q.floor.toNat
  let r := q - n
  if r < 1 / 2 then n else if 1 / 2 < r then n + 1 else if n % 2 = 0 then n else n + 1

/-- `n / 10^p` with `p` decimals. -/
def fixed (p n : Nat) : List Char :=
  decimal (n / 10 ^ p) ++ '.' :: (lowDigits p n).map digitChar

def minusSign (neg : Bool) : List Char := if neg then ['-'] else []

/-- `{:w.pf}`. -/
def fmtF (w p : Nat) : Num → List Char
  | .fin neg q => padLeft w (minusSign neg ++ fixed p (halfEven (q * 10 ^ p)))
  | .nan => padLeft w ['n', 'a', 'n']
  | .inf neg => padLeft w (minusSign neg ++ ['i', 'n', 'f'])

/-- `{:wd}`. -/
def fmtD (w n : Nat) : List Char := padLeft w (decimal n)

/-- `f_string.format(i, lon, lat, depth)`, line 110, without the line feed. -/
def rowText (i : Nat) (v : Num × Num × Num) : List Char :=
  fmtD 4 i ++ [',', ' '] ++ fmtF 10 6 v.1 ++ [',', ' '] ++ fmtF 10 6 v.2.1 ++ [',', ' '] ++ fmtF 8 3 v.2.2

/-- `nodes[p, 0], nodes[p, 1], depth[p]`, lines 123-125, 133. -/
def valuesAt (nodes : List (Num × Num)) (depths : List Num) (p : Int) : Except Err (Num × Num × Num) :=
  match Np.pyGet nodes p, Np.pyGet depths p with
  | .ok (x, y), .ok z => .ok (x, y, z)
  | _, _ => .error .indexError

/-- Lines with line feeds. -/
def joinLines (ls : List (List Char)) : List Char := ls.flatMap fun l => l ++ ['\n']

/-- `save_verdat`, lines 103-142, when the boundaries are set; `named` is false for `depth_var=None`.
What has been written before an exception is not modelled. -/
def saveText (named : Bool) (d : Data Num) : Option (Except Err (List Char)) :=
  let depths := if named then d.depths else d.nodes.map fun _ => Num.fin false 1
  match (if named then unitsMap d.units else .ok "") with
  | .error e => some (.error e)
  | .ok u => match orderSegs d.segs with
    | none => none
    | some (.error e) => some (.error e)
    | some (.ok (bounds, _)) =>
      match mapE (valuesAt d.nodes depths) (fileOrder d.nodes.length bounds) with
      | .error e => some (.error e)
      | .ok rows => some (.ok (joinLines (
          [['D', 'O', 'G', 'S', ' '] ++ u.toList] ++
          rows.zipIdx.map (fun r => rowText (r.2 + 1) r.1) ++
          [rowText 0 (.fin false 0, .fin false 0, .fin false 0)] ++
          [decimal bounds.length] ++
          (ends 0 bounds).map decimal)))

/-! ## Reading -/

/-- The pieces between the separators `c`. -/
def splitAt (c : Char) : List Char → List (List Char)
  | [] => [[]]
  | x :: t => if x = c then [] :: splitAt c t else
      match splitAt c t with
      | l :: ls => (x :: l) :: ls
      | [] => [[x]]

/-- The lines of a file; the last line need not have a line feed. -/
def linesOf (text : List Char) : List (List Char) :=
  let ls := splitAt '\n' text
  if ls.getLast? = some [] then ls.dropLast else ls

/-- White space in ASCII; Python strips other spaces too. -/
def isSpace (c : Char) : Bool :=
  c == ' ' || c == '\t' || c == '\n' || c == '\r' || c == '\x0b' || c == '\x0c'

/-- `str.strip()`. -/
def strip (t : List Char) : List Char :=
  ((t.dropWhile isSpace).reverse.dropWhile isSpace).reverse

/-- The value of a digit. -/
def digitVal (c : Char) : Nat := c.toNat - 48

def isDigit (c : Char) : Bool := decide (48 ≤ c.toNat) && decide (c.toNat ≤ 57)

/-- The number a list of digits stands for. -/
def ofDigits (l : List Char) : Nat := l.foldl (fun a c => 10 * a + digitVal c) 0

/-- A sign in front. -/
def takeSign : List Char → Bool × List Char
  | '-' :: t => (true, t)
  | '+' :: t => (false, t)
  | t => (false, t)

/-- The exponent of a number: nothing, or `e` and a whole number. -/
def expOf : List Char → Option Int
  | [] => some 0
  | c :: t =>
    if c = 'e' ∨ c = 'E' then
      let s := takeSign t
      if s.2 ≠ [] ∧ s.2.all isDigit then
        some (if s.1 then - (ofDigits s.2 : Int) else (ofDigits s.2 : Int))
      else none
    else none

/-- `float(text)` for one field, line 39. Not modelled: underscores between digits. `rnd` is the
conversion of the decimal to a double. -/
def parseFloat (rnd : ℚ → ℚ) (text : List Char) : Except Err Num :=
  let s := takeSign (strip text)
  let word := s.2.map Char.toLower
  if word = ['n', 'a', 'n'] then .ok .nan
  else if word = ['i', 'n', 'f'] ∨ word = ['i', 'n', 'f', 'i', 'n', 'i', 't', 'y'] then .ok (.inf s.1)
  else
    let ip := s.2.takeWhile isDigit
    let r := s.2.dropWhile isDigit
    let fp := match r with
      | '.' :: t => t.takeWhile isDigit
      | _ => []
    let r' := match r with
      | '.' :: t => t.dropWhile isDigit
      | t => t
    if ip = [] ∧ fp = [] then .error .valueError
    else match expOf r' with
      | none => .error .valueError
      | some x => .ok (.fin s.1 (rnd ((ofDigits (ip ++ fp) : ℚ) / 10 ^ fp.length * (10 : ℚ) ^ x)))

/-- `int(text)`, lines 47 and 60. Not modelled: underscores. -/
def parseInt (text : List Char) : Except Err Int :=
  let s := takeSign (strip text)
  if s.2 ≠ [] ∧ s.2.all isDigit then
    .ok (if s.1 then - (ofDigits s.2 : Int) else (ofDigits s.2 : Int))
  else .error .valueError

/-- The point loop, lines 38-44. -/
def readRowsT (rnd : ℚ → ℚ) : List (List Char) → Except Err (List (Num × Num × Num) × List (List Char))
  | [] => .ok ([], [])
  | l :: t => match mapE (parseFloat rnd) (splitAt ',' l) with
    | .error e => .error e
    | .ok [i, x, y, z] =>
      if i.isZero && x.isZero && y.isZero && z.isZero then .ok ([], t)
      else match readRowsT rnd t with
        | .error e => .error e
        | .ok (rs, t') => .ok ((x, y, z) :: rs, t')
    | .ok _ => .error .valueError

/-- One loop, lines 61-66. `i` is the loop variable left by the loop before, if there was one. -/
def loopT (i : Option Int) (start stop : Int) : Except Err (List (Int × Int) × Int) :=
  let k := (stop - 1 - start).toNat
  match (if k = 0 then i else some (start + (k : Int) - 1)) with
  | none => .error .unboundLocal
  | some i => .ok ((List.range k).map (fun j : Nat => (start + (j : Int), start + (j : Int) + 1)) ++
      [(i + 1, start)], i)

/-- The boundary loop, lines 59-67; beyond the end of the file the line is empty. -/
def readBoundsT : Nat → Option Int → Int → List (List Char) → Except Err (List (Int × Int))
  | 0, _, _, _ => .ok []
  | k + 1, i, start, ls => match parseInt (ls.headD []) with
    | .error e => .error e
    | .ok stop => match loopT i start stop with
      | .error e => .error e
      | .ok (b, i') => match readBoundsT k (some i') stop ls.tail with
        | .error e => .error e
        | .ok bs => .ok (b ++ bs)

/-- The words of a line. -/
def words (l : List Char) : List (List Char) :=
  (l.splitBy (fun a b => isSpace a == isSpace b)).filter fun w => !w.any isSpace

/-- `load_verdat`, lines 28-77: points, depths, units and boundary segments of the dataset. -/
def loadText (rnd : ℚ → ℚ) (text : List Char) : Except Err (Data Num) :=
  let ls := linesOf text
  match readRowsT rnd ls.tail with
  | .error e => .error e
  | .ok (rs, t) =>
    let line := strip (t.headD [])
    let count : Except Err Int := match parseInt line with
      | .ok n => .ok n
      | .error e => if line = [] then .ok 0 else .error e
    match count with
    | .error e => .error e
    | .ok n => match readBoundsT n.toNat none 0 t.tail with
      | .error e => .error e
      | .ok segs => .ok
          { nodes := rs.map (fun r => (r.1, r.2.1)),
            depths := rs.map (fun r => r.2.2),
            units := String.ofList ((((words (ls.headD []))[1]?).getD []).map Char.toLower),
            segs := segs }

end Verif.VerdatText
