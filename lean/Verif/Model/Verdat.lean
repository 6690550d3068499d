import Verif.Model.Depth

/-!
# Verdat files, `gridded/io/verdat.py`

A file is modelled as its lines: numbers have been written and read. The two float formats of a data
row (`10.6f`, `8.3f`) are parameters: the number that is read back from the printed text.
-/

set_option autoImplicit false

namespace Verif.Verdat
open Verif
open Verif.DepthM (mapE)

/-! ## `order_boundary_segments`, lines 145-197

The program keeps the segments sorted in descending order and works from the back; here the list is
kept the other way round and worked from the front. -/

/-- Python's order of two-element lists. -/
def segLe (a b : Int × Int) : Bool := decide (a.1 < b.1) || (decide (a.1 = b.1) && decide (a.2 ≤ b.2))

def insertSeg (x : Int × Int) : List (Int × Int) → List (Int × Int)
  | [] => [x]
  | y :: ys => if segLe x y then x :: y :: ys else y :: insertSeg x ys

/-- `bound_segs.sort(reverse=True)`, line 156, seen from the back. -/
def sortSegs : List (Int × Int) → List (Int × Int)
  | [] => []
  | x :: xs => insertSeg x (sortSegs xs)

/-- A chain under construction: first point, points between, last point. -/
structure Chain where
  first : Int
  mid : List Int
  last : Int
  deriving DecidableEq, Repr

/-- `bound` as the list it is. -/
def Chain.toList (c : Chain) : List Int := c.first :: (c.mid ++ [c.last])

/-- The if-chain of lines 171-184 for one segment: `none` is `continue`. `bound.insert(p1)`
(line 178) lacks an argument and raises `TypeError`. -/
def extend (c : Chain) (s : Int × Int) : Option (Except Err Chain) :=
  if s.1 = c.last then some (.ok { c with mid := c.mid ++ [c.last], last := s.2 })
  else if s.2 = c.last then some (.ok { c with mid := c.mid ++ [c.last], last := s.1 })
  else if s.1 = c.first then some (.error .typeError)
  else if s.2 = c.first then some (.ok { c with first := s.1, mid := c.first :: c.mid })
  else none

/-- The `for` loop, lines 169-184: the first segment that extends the chain is taken out. -/
def findSeg (c : Chain) : List (Int × Int) → Option (Except Err (Chain × List (Int × Int)))
  | [] => none
  | s :: t => match extend c s with
    | some (.ok c') => some (.ok (c', t))
    | some (.error e) => some (.error e)
    | none => match findSeg c t with
      | some (.ok (c', r)) => some (.ok (c', s :: r))
      | some (.error e) => some (.error e)
      | none => none

/-- How a chain ended. -/
inductive Done where
  | closed (bound : List Int)
  | opened (bound : List Int)
  deriving DecidableEq, Repr

/-- The `while not done` loop, lines 167-196. It takes a segment out on every turn but the last;
`fuel` bounds the turns, and `none` means it was not enough (the theorems show it is). -/
def grow : Nat → Chain → List (Int × Int) → Option (Except Err (Done × List (Int × Int)))
  | 0, _, _ => none
  | fuel + 1, c, rest => match findSeg c rest with
    | none => some (.ok (.opened c.toList, rest))
    | some (.error e) => some (.error e)
    | some (.ok (c', rest')) =>
      if c'.first = c'.last then some (.ok (.closed (c'.first :: c'.mid), rest'))
      else grow fuel c' rest'

/-- The outer loop, lines 162-196. -/
def chains : Nat → List (Int × Int) → Option (Except Err (List (List Int) × List (List Int)))
  | _, [] => some (.ok ([], []))
  | 0, _ :: _ => none
  | fuel + 1, s :: rest => match grow (rest.length + 1) { first := s.1, mid := [], last := s.2 } rest with
    | none => none
    | some (.error e) => some (.error e)
    | some (.ok (d, rest')) => match chains fuel rest' with
      | none => none
      | some (.error e) => some (.error e)
      | some (.ok (cl, op)) => match d with
        | .closed b => some (.ok (b :: cl, op))
        | .opened b => some (.ok (cl, b :: op))

/-- `order_boundary_segments(bound_segs)`: the closed and the open chains. -/
def orderSegs (segs : List (Int × Int)) :
    Option (Except Err (List (List Int) × List (List Int))) :=
  chains segs.length (sortSegs segs)

/-! ## Saving and loading -/

section
variable {K : Type*}

/-- A line after the header: four numbers, or one. -/
inductive Line (K : Type*) where
  | row (ind : Int) (lon lat depth : K)
  | num (n : Int)
  deriving DecidableEq, Repr

/-- A file: the unit word of the header line (`none` if missing), and the other lines. -/
structure File (K : Type*) where
  units : Option String
  lines : List (Line K)
  deriving DecidableEq, Repr

/-- What `save_verdat` takes from a dataset: node coordinates, depths, depth units and boundary
segments. -/
structure Data (K : Type*) where
  nodes : List (K × K)
  depths : List K
  units : String
  segs : List (Int × Int)
  deriving DecidableEq, Repr

/-- `UNITS_MAP[...]`, lines 18-21, 109 (after `strip().lower()`). -/
def unitsMap (u : String) : Except Err String :=
  if u ∈ ["foot", "ft", "feet"] then .ok "FEET"
  else if u ∈ ["meter", "m", "meters", "metre"] then .ok "METERS"
  else .error .keyError

/-- One data row, lines 125-128 and 135: `fc` and `fd` are the float formats. -/
def rowOf (fc fd : K → K) (d : Data K) (i : Nat) (p : Int) : Except Err (Line K) :=
  match Np.pyGet d.nodes p, Np.pyGet d.depths p with
  | .ok (x, y), .ok z => .ok (.row i (fc x) (fc y) (fd z))
  | _, _ => .error .indexError

/-- Node numbers in the order they are written: boundary points, then the rest, lines 123-136. -/
def fileOrder (n : Nat) (bounds : List (List Int)) : List Int :=
  bounds.flatten ++ ((List.range n).map (fun j : Nat => (j : Int))).filter (fun j => j ∉ bounds.flatten)

/-- Running totals of the loop lengths, lines 139-142. -/
def ends (i : Nat) : List (List Int) → List Nat
  | [] => []
  | b :: bs => (i + b.length) :: ends (i + b.length) bs

/-- `save_verdat`, lines 103-142, when the boundaries are set. Open chains are not written. `zero`
is the number 0. -/
def save [Zero K] (fc fd : K → K) (d : Data K) : Option (Except Err (File K)) :=
  match unitsMap d.units with
  | .error e => some (.error e)
  | .ok u => match orderSegs d.segs with
    | none => none
    | some (.error e) => some (.error e)
    | some (.ok (bounds, _)) =>
      match mapE (fun pi : Int × Nat => rowOf fc fd d (pi.2 + 1) pi.1)
          (fileOrder d.nodes.length bounds).zipIdx with
      | .error e => some (.error e)
      | .ok rows => some (.ok
          { units := some u,
            lines := rows ++ [.row 0 (fc 0) (fc 0) (fd 0)] ++ [.num bounds.length] ++
              (ends 0 bounds).map (fun n => .num n) })

variable [DecidableEq K] [Zero K]

/-- The point loop, lines 38-44: stops at a row of zeros or at the end of the file; a line with one
number cannot be unpacked. -/
def readRows : List (Line K) → Except Err (List (K × K × K) × List (Line K))
  | [] => .ok ([], [])
  | .num _ :: _ => .error .valueError
  | .row i x y z :: t =>
    if i = 0 ∧ x = 0 ∧ y = 0 ∧ z = 0 then .ok ([], t)
    else match readRows t with
      | .error e => .error e
      | .ok (rs, t') => .ok ((x, y, z) :: rs, t')

/-- The segments of one loop, lines 62-65. `i` left by an earlier loop is used if the range is
empty; that does not happen for a loop of two points or more, and is an error value here. -/
def loopSegs (start stop : Nat) : Except Err (List (Int × Int)) :=
  if start + 1 < stop then
    .ok (((List.range (stop - 1 - start)).map (fun k : Nat => ((start : Int) + k, (start : Int) + k + 1))) ++
      [((stop - 1 : Int), (start : Int))])
  else .error .unboundLocal

/-- The boundary loop, lines 60-67, for `k` loops. A missing or non-integer line raises. -/
def readBounds : Nat → Nat → List (Line K) → Except Err (List (Int × Int))
  | 0, _, _ => .ok []
  | _ + 1, _, [] => .error .valueError
  | _ + 1, _, .row _ _ _ _ :: _ => .error .valueError
  | k + 1, start, .num n :: t => match loopSegs start n.toNat with
    | .error e => .error e
    | .ok b => match readBounds k n.toNat t with
      | .error e => .error e
      | .ok bs => .ok (b ++ bs)

/-- `load_verdat`, lines 28-77. `lower` of the two unit words. -/
def load (f : File K) : Except Err (Data K) :=
  match readRows f.lines with
  | .error e => .error e
  | .ok (rs, t) =>
    let bs : Except Err (List (Int × Int)) := match t with
      | [] => .ok []
      | .num k :: t' => readBounds k.toNat 0 t'
      | .row _ _ _ _ :: _ => .error .valueError
    match bs with
    | .error e => .error e
    | .ok segs => .ok
        { nodes := rs.map (fun r => (r.1, r.2.1)),
          depths := rs.map (fun r => r.2.2),
          units := (match f.units with | some u => u.toLower | none => ""),
          segs := segs }

end

end Verif.Verdat
