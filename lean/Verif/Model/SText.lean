import Verif.Model.Np

/-!
# Text attributes of structured grid files (`gridded/pysgrid/read_netcdf.py:43-160`)

Strings are lists of characters. The regular expressions used are such that each repeated class
cannot match the character that must follow it, so that the greedy match is the only one and
backtracking never changes the result; letters and digits are the ASCII ones the patterns name.
-/

set_option autoImplicit false

namespace Verif.SText
open Verif

/-- `[a-zA-Z0-9_]`. -/
def identChar (c : Char) : Bool := c.isAlphanum || c == '_'

/-- `[a-zA-Z_]`. -/
def wordChar (c : Char) : Bool := c.isAlpha || c == '_'

/-- `[a-z_]`. -/
def lowerChar (c : Char) : Bool := c.isLower || c == '_'

/-- A literal part of a pattern. -/
def lit : List Char → List Char → Option (List Char)
  | [], s => some s
  | _ :: _, [] => none
  | a :: l, c :: s => if a = c then lit l s else none

/-- A class repeated once or more: what it takes and what is left. -/
def many1 (q : Char → Bool) (s : List Char) : Option (List Char × List Char) :=
  if s.takeWhile q = [] then none else some (s.takeWhile q, s.dropWhile q)

/-- `re.findall` for a pattern that does not match the empty string: from left to right, without
overlaps. Every turn takes at least one character, so that the length of the text is enough fuel. -/
def findAll {β : Type} (m : List Char → Option (β × List Char)) : Nat → List Char → List β
  | 0, _ => []
  | _ + 1, [] => []
  | f + 1, c :: t => match m (c :: t) with
    | some (b, r) => b :: findAll m f r
    | none => findAll m f t

/-- `str.strip()` (spaces only occur here). -/
def strip (s : List Char) : List Char :=
  ((s.dropWhile Char.isWhitespace).reverse.dropWhile Char.isWhitespace).reverse

/-- `s.split(":")[0]`. -/
def beforeColon (s : List Char) : List Char := s.takeWhile (· != ':')

/-- `s.split(":")[1]`, an `IndexError` without a colon. -/
def afterColon (s : List Char) : Except Err (List Char) :=
  match s.dropWhile (· != ':') with
  | [] => .error .indexError
  | _ :: t => .ok (t.takeWhile (· != ':'))

/-! ## Paddings -/

/-- A `GridPadding` without the name of the topology variable. -/
structure Decl where
  faceDim : List Char
  nodeDim : List Char
  padding : List Char
  deriving DecidableEq, Repr

/-- The pattern `([a-zA-Z0-9_]+:) ([a-zA-Z0-9_]+) (\(padding: [a-zA-Z]+\))` at the start of a text
(`read_netcdf.py:63`): the three groups and what is left. -/
def matchPadding (s : List Char) : Option ((List Char × List Char × List Char) × List Char) :=
  match many1 identChar s with
  | none => none
  | some (a, s1) =>
    match lit ": ".toList s1 with
    | none => none
    | some s2 =>
      match many1 identChar s2 with
      | none => none
      | some (b, s3) =>
        match lit " (padding: ".toList s3 with
        | none => none
        | some s4 =>
          match many1 Char.isAlpha s4 with
          | none => none
          | some (c, s5) =>
            match lit ")".toList s5 with
            | none => none
            | some s6 => some ((a ++ [':'], b, "(padding: ".toList ++ c ++ [')']), s6)

/-- The body of the loop (`read_netcdf.py:66-77`). -/
def declOf (g : List Char × List Char × List Char) : Except Err Decl :=
  match afterColon (g.2.2.filter (fun c => !(c == '(' || c == ')'))) with
  | .error e => .error e
  | .ok w => .ok ⟨beforeColon g.1, g.2.1, strip w⟩

/-- The loop over the matches. -/
def declsOf : List (List Char × List Char × List Char) → Except Err (List Decl)
  | [] => .ok []
  | g :: gs => match declOf g with
    | .error e => .error e
    | .ok d => match declsOf gs with
      | .error e => .error e
      | .ok ds => .ok (d :: ds)

/-- `parse_padding` (`read_netcdf.py:43-85`). -/
def parsePadding (s : List Char) : Except Err (List Decl) :=
  match declsOf (findAll matchPadding s.length s) with
  | .error e => .error e
  | .ok [] => .error .valueError
  | .ok ds => .ok ds

/-! ## Axes -/

/-- The pattern `([a-zA-Z]: [a-zA-Z_]+)` at the start of a text (`read_netcdf.py:89`). -/
def matchAxis (s : List Char) : Option (List Char × List Char) :=
  match s with
  | [] => none
  | c :: t =>
    if c.isAlpha then
      match lit ": ".toList t with
      | none => none
      | some s2 => match many1 wordChar s2 with
        | none => none
        | some (w, r) => some (c :: ": ".toList ++ w, r)
    else none

/-- The three axes. -/
structure Axes where
  x : Option (List Char) := none
  y : Option (List Char) := none
  z : Option (List Char) := none
  deriving DecidableEq, Repr

/-- The body of the loop (`read_netcdf.py:94-103`). -/
def axisStep (acc : Axes) (m : List Char) : Except Err Axes :=
  match afterColon m with
  | .error e => .error e
  | .ok v =>
    let name := (strip (beforeColon m)).map Char.toLower
    if name = "x".toList then .ok { acc with x := some (strip v) }
    else if name = "y".toList then .ok { acc with y := some (strip v) }
    else if name = "z".toList then .ok { acc with z := some (strip v) }
    else .ok acc

/-- The loop over the matches. -/
def axisLoop : Axes → List (List Char) → Except Err Axes
  | acc, [] => .ok acc
  | acc, m :: ms => match axisStep acc m with
    | .error e => .error e
    | .ok a => axisLoop a ms

/-- `parse_axes` (`read_netcdf.py:88-104`). -/
def parseAxes (s : List Char) : Except Err Axes := axisLoop {} (findAll matchAxis s.length s)

/-! ## Directions in standard names -/

/-- `_[xyz]_` at the start of a text: the letter and what is left. -/
def dirAt : List Char → Option (Char × List Char)
  | '_' :: c :: '_' :: t => if c = 'x' ∨ c = 'y' ∨ c = 'z' then some (c, t) else none
  | _ => none

/-- Whether `_[xyz]_[a-z_]+` matches at the start of a text. -/
def dirThenWord (s : List Char) : Bool :=
  match dirAt s with
  | some (_, d :: _) => lowerChar d
  | _ => false

/-- Whether `[a-z_]*_[xyz]_[a-z_]+` matches at the start of a text. -/
def tailMatches : List Char → Bool
  | [] => false
  | c :: t => dirThenWord (c :: t) || (lowerChar c && tailMatches t)

/-- Whether `[a-z_]+_[xyz]_[a-z_]+` matches at the start of a text (`re.match`,
`read_netcdf.py:108-109`). -/
def nameMatches : List Char → Bool
  | [] => false
  | c :: t => lowerChar c && tailMatches t

/-- `re.search("_[xyz]_", ...)` (`read_netcdf.py:111-112`): the first place. -/
def searchDir : List Char → Option Char
  | [] => none
  | c :: t => match dirAt (c :: t) with
    | some (d, _) => some d
    | none => searchDir t

/-- `parse_vector_axis` (`read_netcdf.py:107-116`): `search` looks at the whole name; it cannot fail
after `match`, which the attribute error stands for. -/
def parseVectorAxis (s : List Char) : Except Err (Option Char) :=
  if nameMatches s then
    match searchDir s with
    | some c => .ok (some c.toUpper)
    | none => .error .attributeError
  else .ok none

/-! ## Node coordinates -/

/-- Whether a text occurs in another. -/
def contains (l : List Char) : List Char → Bool
  | [] => l.isEmpty
  | c :: s => (lit l (c :: s)).isSome || contains l s

/-- A variable of a file. -/
structure FVar where
  name : List Char
  dims : List (List Char)
  standardName : Option (List Char) := none
  deriving DecidableEq, Repr

/-- Whether one of some words occurs in the name or in the standard name, in lower case
(`read_netcdf.py:149-154`). -/
def named (words : List (List Char)) (v : FVar) : Bool :=
  words.any (fun w => contains w (v.name.map Char.toLower)) ||
    words.any (fun w => contains w ((v.standardName.getD []).map Char.toLower))

/-- `X_COORDINATES` and `Y_COORDINATES` (`lookup.py:27-29`). -/
def xWords : List (List Char) := ["x".toList, "lon".toList, "longitude".toList]
def yWords : List (List Char) := ["y".toList, "lat".toList, "latitude".toList]

/-- `set(a) == set(b)`. -/
def sameSet (a b : List (List Char)) : Bool := a.all (b.contains ·) && b.all (a.contains ·)

/-- The loop of `find_node_coordinates` (`read_netcdf.py:140-157`). -/
def findLoop (nodeDims : List (List Char)) : Option (List Char) → Option (List Char) → List FVar →
    Option (List Char) × Option (List Char)
  | x, y, [] => (x, y)
  | x, y, v :: vs =>
    let hit := sameSet v.dims nodeDims
    let x' := if hit && named xWords v then some v.name else x
    let y' := if hit && !named xWords v && named yWords v then some v.name else y
    if x'.isSome && y'.isSome then (x', y') else findLoop nodeDims x' y' vs

/-- `find_node_coordinates` (`read_netcdf.py:129-161`), after the split of `node_dimensions`. -/
def findNodeCoordinates (nodeDims : List (List Char)) (vars : List FVar) :
    Option (List Char × List Char) :=
  match findLoop nodeDims none none vars with
  | (some x, some y) => some (x, y)
  | _ => none

end Verif.SText
