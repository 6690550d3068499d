import Verif.Model.Np

/-!
# Indexing in structured grids

The index arithmetic of `SGrid` (`gridded/pysgrid/sgrid.py`): paddings and the slices they stand
for, the location inferred from a shape, reading values at cell indices, cell numbers, windows and
nearest-neighbour lookup. A two dimensional array is a list of rows.
-/

set_option autoImplicit false

namespace Verif.SIndex
open Verif

/-- The value of one entry of a padding pair: the four words of the SGRID conventions, `None`, or
any other string. -/
inductive Pad where
  | none
  | low
  | high
  | both
  | absent
  | other
  deriving DecidableEq, Repr

/-- The four places data can live. -/
inductive Loc where
  | node
  | center
  | edge1
  | edge2
  deriving DecidableEq, Repr

/-- The name lists of `sgrid.py:19-22`. -/
def nodeNames : List String := ["node", "nodes", "psi", "vertex", "vertices", "point", "points"]
/-- `sgrid.py:20` -/
def centerNames : List String := ["center", "centers", "face", "faces", "cell", "cells"]
/-- `sgrid.py:21` -/
def edge1Names : List String := ["edge1", "u"]
/-- `sgrid.py:22` -/
def edge2Names : List String := ["edge2", "v"]

/-- Which place a location name stands for: the order of tests of `get_padding_by_location`
(`sgrid.py:704-715`). -/
def locOf (s : String) : Option Loc :=
  if s ∈ nodeNames then some .node
  else if s ∈ centerNames then some .center
  else if s ∈ edge1Names then some .edge1
  else if s ∈ edge2Names then some .edge2
  else none

/-- The branch taken for a location name by `interpolate_var_to_points` (`sgrid.py:1153-1232`). -/
def interpBranch (s : String) : Option Loc :=
  if s ∈ centerNames then some .center
  else if s ∈ edge1Names then some .edge1
  else if s ∈ edge2Names then some .edge2
  else if s ∈ nodeNames then some .node
  else none

/-- The branch taken by `get_efficient_slice` (`sgrid.py:601-611`). -/
def sliceBranch (s : String) : Option Loc :=
  if s ∈ edge1Names then some .edge1
  else if s ∈ edge2Names then some .edge2
  else if s ∈ nodeNames then some .node
  else if s ∈ centerNames then some .center
  else none

/-! ## Slices and paddings -/

/-- Python: the position a slice bound stands for in a sequence of `n` elements. -/
def bound (n : Nat) (i : Int) : Nat :=
  if i < 0 then (i + n).toNat else min i.toNat n

/-- Python `xs[lo:hi]`. -/
def pySlice {α : Type*} (lo hi : Option Int) (xs : List α) : List α :=
  let a := match lo with
    | some i => bound xs.length i
    | Option.none => 0
  let b := match hi with
    | some i => bound xs.length i
    | Option.none => xs.length
  (xs.take b).drop a

/-- `get_padding_slices`, one dimension (`sgrid.py:722-740`): offsets start at 0 and a 0 at the end
becomes `None`; an unknown word gives `None` and 0. -/
def padSlice (p : Pad) : Option Int × Option Int :=
  let (lo, hi) : Int × Int := match p with
    | .none => (0, 0)
    | .absent => (0, 0)
    | .high => (0, -1)
    | .low => (1, 0)
    | .both => (1, -1)
    | .other => (0, 0)
  (if lo != 0 then some lo else Option.none, if hi != 0 then some hi else Option.none)

/-- `xs[get_padding_slices((p, ..))]` along one dimension. -/
def trim {α : Type*} (p : Pad) (xs : List α) : List α := pySlice (padSlice p).1 (padSlice p).2 xs

/-- `A[get_padding_slices((p, q))]` on a two dimensional array. -/
def trim2 {α : Type*} (p : Pad × Pad) (A : List (List α)) : List (List α) :=
  (trim p.1 A).map (trim p.2)

/-- The loop body of `apply_padding_to_idxs` for one dimension (`sgrid.py:695-701`). -/
def shift (p : Pad) (i : Int) : Except Err Int :=
  match p with
  | .none => .ok i
  | .high => .ok i
  | .absent => .ok i
  | .both => .ok (i + 1)
  | .low => .ok (i + 1)
  | .other => .error .valueError

/-- `apply_padding_to_idxs` on one index pair (`sgrid.py:690-702`). The caller passes a copy, so
the assignment in place is not seen outside. -/
def applyPadding (p : Pad × Pad) (ij : Int × Int) : Except Err (Int × Int) :=
  match shift p.1 ij.1 with
  | .error e => .error e
  | .ok i =>
    match shift p.2 ij.2 with
    | .error e => .error e
    | .ok j => .ok (i, j)

/-- The class attribute `SGrid.padding_slices` (`sgrid.py:26`), used by
`determine_variable_slicing`; `None` and other words are not keys. -/
def tableSlice (p : Pad) : Except Err (Option Int × Option Int) :=
  match p with
  | .both => .ok (some 1, some (-1))
  | .none => .ok (Option.none, Option.none)
  | .low => .ok (some 1, Option.none)
  | .high => .ok (Option.none, some 1)
  | .absent => .error .keyError
  | .other => .error .keyError

/-! ## Paddings of a grid -/

/-- A padding declared in a file (`GridPadding`, `pysgrid/utils.py:11-19`) without the mesh
name. -/
structure Decl where
  faceDim : String
  nodeDim : String
  padding : Pad
  deriving DecidableEq, Repr

/-- What `_face_padding` and its likes hold: nothing (`None`, an empty list), a pair of words, or
declarations from a file. -/
inductive Given where
  | nothing
  | pair (p q : Pad)
  | decls (ds : List Decl)
  deriving DecidableEq, Repr

/-- The parts of a structured grid that paddings and locations are computed from. -/
structure Shapes where
  node : Nat × Nat
  center : Option (Nat × Nat) := Option.none
  edge1 : Option (Nat × Nat) := Option.none
  edge2 : Option (Nat × Nat) := Option.none
  nodePad : Given := .nothing
  facePad : Given := .nothing
  edge1Pad : Given := .nothing
  edge2Pad : Given := .nothing
  verticalPad : Given := .nothing

/-- `("low", "both", "none")[diff]` (`sgrid.py:326`); Python accepts the indices −3 to 2. -/
def inferPad (face node : Nat) : Except Err Pad :=
  Np.pyGet [Pad.low, Pad.both, Pad.none] ((face : Int) - node)

/-- `face_padding` (`sgrid.py:316-333`), also called `center_padding`. -/
def facePadding (g : Shapes) : Except Err (Pad × Pad) :=
  match g.facePad with
  | .pair p q => .ok (p, q)
  | .decls (d :: e :: _) => .ok (d.padding, e.padding)
  | .decls [_] => .error .indexError
  | _ =>
    match g.center with
    | Option.none => .ok (.absent, .absent)
    | some c =>
      match inferPad c.1 g.node.1 with
      | .error e => .error e
      | .ok p =>
        match inferPad c.2 g.node.2 with
        | .error e => .error e
        | .ok q => .ok (p, q)

/-- `edge1_padding` (`sgrid.py:347-356`). -/
def edge1Padding (g : Shapes) : Except Err (Pad × Pad) :=
  match g.edge1Pad with
  | .pair p q => .ok (p, q)
  | .decls (d :: _) => .ok (d.padding, .absent)
  | _ => (facePadding g).map (fun p => (p.1, .absent))

/-- `edge2_padding` (`sgrid.py:362-371`). -/
def edge2Padding (g : Shapes) : Except Err (Pad × Pad) :=
  match g.edge2Pad with
  | .pair p q => .ok (p, q)
  | .decls (d :: _) => .ok (.absent, d.padding)
  | _ => (facePadding g).map (fun p => (.absent, p.2))

/-- `vertical_padding` (`sgrid.py:377-386`): never `None`. -/
def verticalPadding (g : Shapes) : Except Err (Option (Pad × Pad)) :=
  match g.verticalPad with
  | .pair p q => .ok (some (p, q))
  | .decls (d :: _) => .ok (some (.absent, d.padding))
  | _ => (facePadding g).map (fun p => some (.absent, p.2))

/-- `node_padding` (`sgrid.py:306-310`). Declarations are returned as they are; no caller passes
them, and they are reported here as a type error. -/
def nodePadding (g : Shapes) : Except Err (Pad × Pad) :=
  match g.nodePad with
  | .pair p q => .ok (p, q)
  | .decls (_ :: _) => .error .typeError
  | _ => .ok (.absent, .absent)

/-- `get_padding_by_location` (`sgrid.py:704-715`) for a recognised location. -/
def paddingAt (g : Shapes) : Loc → Except Err (Pad × Pad)
  | .node => nodePadding g
  | .center => facePadding g
  | .edge1 => edge1Padding g
  | .edge2 => edge2Padding g

/-- `get_padding_by_location` (`sgrid.py:704-715`) for any name; `None` for one that is not known. -/
def paddingNamed (g : Shapes) (s : String) : Except Err (Option (Pad × Pad)) :=
  match locOf s with
  | none => .ok none
  | some l => (paddingAt g l).map some

/-- `infer_location` (`sgrid.py:389-412`) on the shape of the data. -/
def inferLocation (g : Shapes) (shape : List Nat) : Option Loc :=
  match shape.reverse with
  | c :: r :: _ =>
    let d : Int × Int := ((r : Int) - g.node.1, (c : Int) - g.node.2)
    if (d = (1, 1) ∨ d = (-1, -1)) ∧ g.center.isSome then some .center
    else if d = (1, 0) ∧ g.edge1.isSome then some .edge1
    else if d = (0, 1) ∧ g.edge2.isSome then some .edge2
    else if d = (0, 0) then some .node
    else Option.none
  | _ => Option.none

/-! ## Slicing of file variables -/

/-- The declarations behind a padding attribute; a pair of words is a tuple of strings, on which
the later attribute access `.face_dim` fails (with a list added to the tuple it is a `TypeError`;
both are reported as `AttributeError`). -/
def declsOf : Given → Except Err (List Decl)
  | .decls ds => .ok ds
  | .pair _ _ => .error .attributeError
  | .nothing => .error .typeError

/-- `get_all_edge_padding` for one edge: an absent list adds nothing. -/
def edgeDecls : Given → Except Err (List Decl)
  | .nothing => .ok []
  | x => declsOf x

/-- `all_padding` (`sgrid.py:255-274`): face declarations, then those of the edges, then the
vertical ones. `face_padding` and `vertical_padding` are never `None`, so a missing list is added
as `None`: `TypeError`. -/
def allPadding (g : Shapes) : Except Err (List Decl) :=
  match facePadding g with
  | .error e => .error e
  | .ok _ =>
    match declsOf g.facePad with
    | .error e => .error e
    | .ok f =>
      match edgeDecls g.edge1Pad with
      | .error e => .error e
      | .ok e1 =>
        match edgeDecls g.edge2Pad with
        | .error e => .error e
        | .ok e2 =>
          match verticalPadding g with
          | .error e => .error e
          | .ok Option.none => .ok (f ++ e1 ++ e2)
          | .ok (some _) =>
            match declsOf g.verticalPad with
            | .error e => .error e
            | .ok v => .ok (f ++ e1 ++ e2 ++ v)

/-- The loop of `determine_variable_slicing` (`pysgrid/utils.py:106-119`): for each dimension of
the variable the first declaration with that face dimension decides, no declaration means `[:]`. -/
def dimSlices (padding : List Decl) : List String → Except Err (List (Option Int × Option Int))
  | [] => .ok []
  | d :: ds =>
    let here : Except Err (Option Int × Option Int) := match padding.find? (fun x => x.faceDim == d) with
      | Option.none => .ok (Option.none, Option.none)
      | some x => tableSlice x.padding
    match here with
    | .error e => .error e
    | .ok s =>
      match dimSlices padding ds with
      | .error e => .error e
      | .ok rest => .ok (s :: rest)

/-- `determine_variable_slicing(sgrid, variable, method="center")` (`pysgrid/utils.py:74-120`). -/
def variableSlicing (g : Shapes) (nodeDims varDims : List String) :
    Except Err (List (Option Int × Option Int)) :=
  if varDims.any (fun d => nodeDims.contains d) then
    match declsOf g.facePad with
    | .error e => .error e
    | .ok ds => dimSlices ds varDims
  else
    match allPadding g with
    | .error e => .error e
    | .ok ds => dimSlices ds varDims

/-! ## Values at indices -/

/-- `mode="clip"` of `np.ravel_multi_index`. -/
def clip (n : Nat) (i : Int) : Int := max 0 (min i ((n : Int) - 1))

/-- Number of columns of an array. -/
def ncols {α : Type*} (A : List (List α)) : Nat := (A.headD []).length

/-- `np.ravel_multi_index(index.T, var.shape, mode="clip")` for one index pair. -/
def ravel {α : Type*} (A : List (List α)) (ij : Int × Int) : Int :=
  clip A.length ij.1 * ncols A + clip (ncols A) ij.2

/-- `get_variable_at_index` (`sgrid.py:777-790`) at one index pair: `np.take` on the flattened
array. Masks travel with the values. The argument is a masked array. -/
def atIndex {α : Type*} (A : List (List α)) (ij : Int × Int) : Except Err α :=
  Np.pyGet A.flatten (ravel A ij)

/-- `get_variable_by_index` (`sgrid.py:742-775`) at one index pair: the values at the flat
positions `raw`, `raw + ncols`, `raw + ncols + 1`, `raw + 1`. -/
def byIndex {α : Type*} (A : List (List α)) (ij : Int × Int) : Except Err (α × α × α × α) :=
  let raw := ravel A ij
  let c : Int := ncols A
  match Np.pyGet A.flatten raw, Np.pyGet A.flatten (raw + c), Np.pyGet A.flatten (raw + c + 1),
      Np.pyGet A.flatten (raw + c + 1 - c) with
  | .ok v0, .ok v1, .ok v2, .ok v3 => .ok (v0, v1, v2, v3)
  | _, _, _, _ => .error .indexError

/-! ## Cell numbers and windows -/

/-- The end of `locate_faces` (`sgrid.py:655-664`) for one flat cell number of a grid with `cols`
columns of nodes; Python's `%` and `//` round down. -/
def cellOf (cols : Nat) (idx : Int) : Int × Int :=
  let x := Int.fmod idx ((cols : Int) - 1)
  let y := Int.fdiv idx ((cols : Int) - 1)
  if y = -1 then (-1, -1) else (y, x)

/-- `astype("uint32")` of an index. -/
def u32 (i : Int) : Nat := (i % 4294967296).toNat

/-- Least element of a non-empty list, as `.min()`. -/
def minN : List Nat → Nat
  | [] => 0
  | [a] => a
  | a :: b :: t => min a (minN (b :: t))

/-- Greatest element of a non-empty list, as `.max()`. -/
def maxN : List Nat → Nat
  | [] => 0
  | [a] => a
  | a :: b :: t => max a (maxN (b :: t))

/-- A window: `slice(lo, hi)` for the first and for the second dimension. -/
structure Window where
  lo0 : Nat
  hi0 : Nat
  lo1 : Nat
  hi1 : Nat
  deriving DecidableEq, Repr

/-- `get_efficient_slice` (`sgrid.py:584-615`) for given indices and a recognised location;
`.min()` of an empty array raises `ValueError`. The sums are exact (in `uint32` they wrap, at the
index −1 only). -/
def efficientSlice (inds : List (Int × Int)) (loc : Option Loc) : Except Err Window :=
  match inds with
  | [] => .error .valueError
  | _ :: _ =>
    let xs := inds.map (fun p => u32 p.1)
    let ys := inds.map (fun p => u32 p.2)
    let w : Window := ⟨minN xs, maxN xs + 1, minN ys, maxN ys + 1⟩
    match loc with
    | some .edge1 => .ok { w with hi0 := w.hi0 + 1 }
    | some .edge2 => .ok { w with hi1 := w.hi1 + 1 }
    | some .node => .ok { w with hi0 := w.hi0 + 1, hi1 := w.hi1 + 1 }
    | some .center => .ok w
    | Option.none => .error .valueError

/-- `variable[yslice, xslice]`. -/
def window {α : Type*} (w : Window) (A : List (List α)) : List (List α) :=
  (pySlice (some (w.lo0 : Int)) (some (w.hi0 : Int)) A).map
    (pySlice (some (w.lo1 : Int)) (some (w.hi1 : Int)))

/-! ## Nearest neighbours -/

/-- `locate_nearest` (`sgrid.py:677-688`): `trees` are the grids whose tree has been built
(`self._kd_trees` starts empty and is indexed without a default), `near` is the flat number the
tree answers, `cols` the columns of that grid's coordinate array. -/
def locateNearest (trees : List Loc) (loc : Loc) (cols : Nat) (near : Nat) :
    Except Err (Int × Int) :=
  if loc ∈ trees then .ok (((near / cols : Nat) : Int), ((near % cols : Nat) : Int))
  else .error .keyError

/-- `nearest_var_to_points` (`sgrid.py:913-949`), the value at the index pair `ij` of one of the
points, `inds` being the index pairs of all of them. `inferred` is `infer_location(variable)`: the
variable is cut to the window only when that is not `None`, the index is shifted in any case.
`masked` tells whether the variable is a masked array; `get_variable_at_index` reads `var.mask`. -/
def nearestAt {α : Type*} (A : List (List α)) (loc : Loc) (inferred : Option Loc) (masked : Bool)
    (inds : List (Int × Int)) (ij : Int × Int) : Except Err α :=
  match efficientSlice inds (some loc) with
  | .error e => .error e
  | .ok w =>
    let V := if inferred.isSome then window w A else A
    match atIndex V (ij.1 - w.lo0, ij.2 - w.lo1) with
    | .error e => .error e
    | .ok v => if masked then .ok v else .error .attributeError

/-- `nearest_var_to_points` from the flat numbers the tree answers: all values, or the first
error. -/
def nearestVar {α : Type*} (trees : List Loc) (A : List (List α)) (loc : Loc)
    (inferred : Option Loc) (masked : Bool) (cols : Nat) (near : List Nat) :
    Except Err (List α) :=
  match near.mapM (locateNearest trees loc cols) with
  | .error e => .error e
  | .ok inds => inds.mapM (nearestAt A loc inferred masked inds)

end Verif.SIndex
