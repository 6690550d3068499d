import Verif.Model.SIndex

/-!
# The search tree of a structured grid

`SGrid.build_celltree` (`gridded/pysgrid/sgrid.py:808-911`) and `SGrid.locate_faces`
(`sgrid.py:617-672`). The tree itself (`cell_tree2d.CellTree`) is an outside library; what is
modelled is the node list and the face list handed to it and the translation of its answers.

Simplifications. A node is a pair of coordinates of any type; that its longitude and latitude arrays
have the same mask is assumed. Masks are already decoded to booleans, True meaning land
(`convert_mask_to_numpy_mask` is modelled in `Verif.Model.Masks`).
-/

set_option autoImplicit false

namespace Verif.SCelltree
open Verif Verif.SIndex

/-- The part of the grid used to build the tree: `rows` by `cols` nodes in row-major order, each
with its coordinate mask; `maskedCoords` tells whether the coordinates are masked arrays. -/
structure Grid (P : Type) where
  rows : Nat
  cols : Nat
  nodes : List P
  coordMask : List Bool
  maskedCoords : Bool
  nodeMask : Bool
  centerMask : Option (List (List Bool))
  centerPad : Pad × Pad

/-- What `CellTree` of the library is built from, and the translation of its answers (`_cell_tree_mask`). -/
structure CellTree (P : Type) where
  nodes : List P
  faces : List (List Int)
  reversal : Option (List Int)

/-- `np.ma.compressed` of an array whose entries to keep are marked. -/
def compress {α : Type*} : List α → List Bool → List α
  | x :: xs, b :: bs => if b then x :: compress xs bs else compress xs bs
  | _, _ => []

/-- The cell in row `i` and column `j` is water: it exists and is not masked. -/
def water (mask : List (List Bool)) (i j : Nat) : Bool :=
  match mask[i]? with
  | some r => (match r[j]? with
    | some b => !b
    | none => false)
  | none => false

/-- Whether the node in row `i` and column `j` is taken by some water cell: the four shifted
additions of `sgrid.py:858-862`, before the final negation. -/
def taken (mask : List (List Bool)) (i j : Nat) : Bool :=
  water mask i j || (0 < j && water mask i (j - 1)) || (0 < i && 0 < j && water mask (i - 1) (j - 1))
    || (0 < i && water mask (i - 1) j)

/-- `~node_mask` flattened. -/
def takenFlat (rows cols : Nat) (mask : List (List Bool)) : List Bool :=
  (List.range (rows * cols)).map (fun k => taken mask (k / cols) (k % cols))

/-- `masked_faces_idxs` at the flat position `k` (`sgrid.py:866-869`): kept nodes are numbered in
order, the others have −1. -/
def number (keep : List Bool) (k : Nat) : Int :=
  match keep[k]? with
  | some true => (((keep.take k).count true : Nat) : Int)
  | _ => -1

/-- One row of `lin_faces` (`sgrid.py:870-876`) for the cell with flat number `q`: the corners
(i, j), (i, j+1), (i+1, j+1), (i+1, j), or four times −1 for a masked cell. -/
def faceRow (cols : Nat) (keep cellMask : List Bool) (q : Nat) : List Int :=
  let i := q / (cols - 1)
  let j := q % (cols - 1)
  if cellMask[q]? == some true then [-1, -1, -1, -1]
  else [number keep (i * cols + j), number keep (i * cols + (j + 1)),
    number keep ((i + 1) * cols + (j + 1)), number keep ((i + 1) * cols + j)]

/-- `.reshape(-1, 4)`; a length that is not a multiple of four raises `ValueError`. -/
def reshape4 : List Int → Except Err (List (List Int))
  | [] => .ok []
  | a :: b :: c :: d :: t =>
    match reshape4 t with
    | .ok rest => .ok ([a, b, c, d] :: rest)
    | .error e => .error e
  | _ => .error .valueError

/-- `build_celltree(use_mask)` (`sgrid.py:808-911`). -/
def build {P : Type} (g : Grid P) (useMask : Bool) : Except Err (CellTree P) :=
  if useMask && (g.nodeMask || g.centerMask.isSome) then
    -- `cell_mask` is bound only if some entry of the center mask is true
    match g.centerMask with
    | none => .error .unboundLocal
    | some m =>
      if m.flatten.any id then
        let cm := trim2 g.centerPad m
        let flat := cm.flatten
        -- the size check, and the broadcasting of the additions below
        if cm.length = g.rows - 1 ∧ cm.all (fun r => r.length == g.cols - 1) then
          let keep := takenFlat g.rows g.cols cm
          let rows := (List.range ((g.rows - 1) * (g.cols - 1))).map (faceRow g.cols keep flat)
          match reshape4 (rows.flatten.filter (fun x => decide (0 ≤ x))) with
          | .error e => .error e
          | .ok faces =>
            let rev := ((List.range flat.length).filter (fun q => !(flat[q]? == some true))).map
              (fun q : Nat => (q : Int))
            .ok ⟨compress g.nodes keep, faces, some (rev ++ [-1])⟩
        else .error .valueError
      else .error .unboundLocal
  else
    let faces := ((List.range (g.rows - 1)).map (fun y =>
      (List.range (g.cols - 1)).map (fun x =>
        [((x + y * g.cols : Nat) : Int), ((x + 1 + y * g.cols : Nat) : Int),
          ((x + g.cols + 1 + y * g.cols : Nat) : Int), ((x + g.cols + y * g.cols : Nat) : Int)]))).flatten
    let nodes := if g.maskedCoords && useMask then compress g.nodes (g.coordMask.map (fun b => !b))
      else g.nodes
    .ok ⟨nodes, faces, none⟩

/-- The translation of one answer of the tree (`sgrid.py:652-664`): through the reversal array,
which Python indexes from the end for −1, then to a row and column. -/
def translate {P : Type} (t : CellTree P) (cols : Nat) (answer : Int) : Except Err (Int × Int) :=
  match t.reversal with
  | none => .ok (cellOf cols answer)
  | some rev =>
    match Np.pyGet rev answer with
    | .error e => .error e
    | .ok idx => .ok (cellOf cols idx)

/-- `np.ma.masked_less(ind, 0)` on one index pair, when several points are asked for
(`sgrid.py:666-672`): a masked pair is `none`. -/
def maskMiss (ij : Int × Int) : Option (Int × Int) :=
  if ij.1 < 0 ∨ ij.2 < 0 then none else some ij

/-- `locate_faces` (`sgrid.py:617-672`) for a list of points, with the tree's answers given by
`search`, which sees the nodes and faces it was built from. -/
def locateFaces {P Q : Type} (search : List P → List (List Int) → Q → Int) (g : Grid P)
    (useMask : Bool) (pts : List Q) : Except Err (List (Option (Int × Int))) :=
  match build g useMask with
  | .error e => .error e
  | .ok t => pts.mapM (fun p => (translate t g.cols (search t.nodes t.faces p)).map maskMiss)

/-- The tree used by a query (`sgrid.py:646-648`): the one built by an earlier query if there is
one, whatever that query's `use_mask` was. -/
def treeFor {P : Type} (g : Grid P) (state : Option (CellTree P)) (useMask : Bool) :
    Except Err (CellTree P) :=
  match state with
  | some t => .ok t
  | none => build g useMask

/-- A sequence of queries on one grid, each with its own `use_mask` and its own points; a query that
raises leaves the tree unset. -/
def queries {P Q : Type} (search : List P → List (List Int) → Q → Int) (g : Grid P) :
    Option (CellTree P) → List (Bool × List Q) → List (Except Err (List (Option (Int × Int))))
  | _, [] => []
  | state, (useMask, pts) :: rest =>
    match treeFor g state useMask with
    | .error e => .error e :: queries search g state rest
    | .ok t =>
      pts.mapM (fun p => (translate t g.cols (search t.nodes t.faces p)).map maskMiss)
        :: queries search g (some t) rest

end Verif.SCelltree
