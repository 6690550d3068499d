import Verif.Model.Cache
import Verif.Model.SCelltree
import Verif.Model.SInterp

/-!
# A structured grid object and what it keeps between calls

`SGrid.locate_faces`, `geo_to_logical` and `interpolate_var_to_points`
(`gridded/pysgrid/sgrid.py:617-672, 1034-1252, 1254-1281`) with the cell tree (`_cell_tree`), the
coefficients (`_l_coeffs`, `_m_coeffs`) and the two memories (`_cell_ind_memo_dict`,
`_log_ind_memo_dict`), keyed by the points alone. What the calls compute is modelled in
`Verif.Model.SCelltree` and `Verif.Model.SInterp`; here these computations are parameters. The key
(a hash of the bytes of the points) is the list of points; a hash given by the caller and the flag
`_copy`, which changes no values, are left out.
-/

set_option autoImplicit false

namespace Verif.SMemory
open Verif.DepthM (mapE)

/-- The computations. `G` is the contents of the grid (coordinates, masks, paddings), `T` a tree,
`P` a point, `L` logical coordinates, `D` data, `V` a value; a cell is its row and column, `none` if
masked. -/
structure Parts (G T P L D V : Type) where
  /-- `build_celltree(use_mask)`, `sgrid.py:808-911`. -/
  build : G → Bool → Except Err T
  /-- The answer of the tree for a point as a row and column, by the shape the grid has now,
  `sgrid.py:652-664`. -/
  find : T → G → P → Except Err (Int × Int)
  /-- Logical coordinates of a point in a cell, by the coefficients of the grid,
  `sgrid.py:1272-1276`. -/
  logical : G → P → Option (Int × Int) → Except Err L
  /-- `interpolate_var_to_points` for located points, `sgrid.py:1118-1252`, by the grid as it is now
  and the grid the coefficients are from. -/
  values : G → G → D → List (P × Option (Int × Int)) → Except Err (List V)
  /-- A masked value. -/
  masked : V

/-- The object. `coeffs` is the grid the coefficients were computed from. -/
structure Obj (G T P L : Type) where
  grid : G
  tree : Option T
  coeffs : Option G
  cells : List (List P × List (Option (Int × Int)))
  logicals : List (List P × List L)

/-- A new object, `sgrid.py:142-151`. -/
def new {G T P L : Type} (g : G) : Obj G T P L :=
  { grid := g, tree := none, coeffs := none, cells := [], logicals := [] }

/-- `np.ma.masked_less(ind, 0)` on one pair, `sgrid.py:669`. -/
def maskMiss (ij : Int × Int) : Option (Int × Int) :=
  if ij.1 < 0 ∨ ij.2 < 0 then none else some ij

section
variable {G T P L D V : Type} [DecidableEq P] (F : Parts G T P L D V)

/-- The tree used, lines 650-652: the one there is, or a new one. -/
def treeOf (o : Obj G T P L) (useMask : Bool) : Except Err T :=
  match o.tree with
  | some t => .ok t
  | none => F.build o.grid useMask

/-- The raw index pairs, lines 650-664: the tree is kept. -/
def search (o : Obj G T P L) (pts : List P) (useMask : Bool) :
    Obj G T P L × Except Err (List (Int × Int)) :=
  match treeOf F o useMask with
  | .error e => (o, .error e)
  | .ok t => ({ o with tree := some t }, mapE (F.find t o.grid) pts)

/-- `locate_faces` for an array of points. -/
def locate (o : Obj G T P L) (pts : List P) (memo useMask : Bool) :
    Obj G T P L × Except Err (List (Option (Int × Int))) :=
  match (if memo then Cache.lookup o.cells pts else none) with
  | some r => (o, .ok r)
  | none =>
    let s := search F o pts useMask
    match s.2 with
    | .error e => (s.1, .error e)
    | .ok is =>
      let r := is.map maskMiss
      (if memo then { s.1 with cells := Cache.store .sgrid s.1.cells pts r } else s.1, .ok r)

/-- The answer for one point: a pair, or what the memory holds. -/
inductive Answer where
  | one (ij : Int × Int)
  | many (r : List (Option (Int × Int)))
  deriving DecidableEq, Repr

/-- `locate_faces` for a single point (a one-dimensional array), lines 637-668: the memory is read
but not written, and what it holds is returned as it is. -/
def locateOne (o : Obj G T P L) (p : P) (memo useMask : Bool) : Obj G T P L × Except Err Answer :=
  match (if memo then Cache.lookup o.cells [p] else none) with
  | some r => (o, .ok (.many r))
  | none =>
    let s := search F o [p] useMask
    (s.1, match s.2 with
      | .error e => .error e
      | .ok (ij :: _) => .ok (.one ij)
      | .ok [] => .error .indexError)

/-- Points with their cells. Cells of another number than the points are refused (numpy broadcasting
of a single one is left out). -/
def pair (pts : List P) (cells : List (Option (Int × Int))) :
    Except Err (List (P × Option (Int × Int))) :=
  if pts.length = cells.length then .ok (pts.zip cells) else .error .valueError

/-- `geo_to_logical`, `sgrid.py:1259-1281`: the coefficients are computed on first use and kept. -/
def geoToLogical (o : Obj G T P L) (pts : List P) (inds : Option (List (Option (Int × Int))))
    (memo : Bool) : Obj G T P L × Except Err (List L) :=
  match (if memo then Cache.lookup o.logicals pts else none) with
  | some r => (o, .ok r)
  | none =>
    let o1 : Obj G T P L := { o with coeffs := some (o.coeffs.getD o.grid) }
    let found : Obj G T P L × Except Err (List (Option (Int × Int))) := match inds with
      | some is => (o1, .ok is)
      | none => locate F o1 pts memo true
    match found.2 with
    | .error e => (found.1, .error e)
    | .ok is =>
      match pair pts is with
      | .error e => (found.1, .error e)
      | .ok l => match mapE (fun q => F.logical (found.1.coeffs.getD found.1.grid) q.1 q.2) l with
        | .error e => (found.1, .error e)
        | .ok r =>
          (if memo then { found.1 with logicals := Cache.store .sgrid found.1.logicals pts r }
            else found.1, .ok r)

/-- `interpolate_var_to_points`, `sgrid.py:1100-1252`, for cells found by the grid: if all points are
off the grid the values are masked; else the coefficients are computed on first use and kept. The
memory of `geo_to_logical` is not used (line 1121). -/
def interpolate (o : Obj G T P L) (data : D) (pts : List P) (memo : Bool) :
    Obj G T P L × Except Err (List V) :=
  let found := locate F o pts memo true
  match found.2 with
  | .error e => (found.1, .error e)
  | .ok is =>
    if is.all (·.isNone) then (found.1, .ok (pts.map fun _ => F.masked))
    else
      let o1 : Obj G T P L := { found.1 with coeffs := some (found.1.coeffs.getD found.1.grid) }
      match pair pts is with
      | .error e => (o1, .error e)
      | .ok l => (o1, F.values o1.grid (o1.coeffs.getD o1.grid) data l)

/-- What a user does. Coordinates, masks and paddings are plain attributes: assigning them touches
nothing else. -/
inductive Op (G P D : Type) where
  | setGrid (g : G)
  | locate (pts : List P) (memo useMask : Bool)
  | locateOne (p : P) (memo useMask : Bool)
  | logical (pts : List P) (inds : Option (List (Option (Int × Int)))) (memo : Bool)
  | interpolate (data : D) (pts : List P) (memo : Bool)

/-- What a call returns. -/
inductive Out (L V : Type) where
  | nothing
  | cells (r : Except Err (List (Option (Int × Int))))
  | single (r : Except Err Answer)
  | logicals (r : Except Err (List L))
  | values (r : Except Err (List V))
  deriving DecidableEq

/-- One call. -/
def act (o : Obj G T P L) : Op G P D → Obj G T P L × Out L V
  | .setGrid g => ({ o with grid := g }, .nothing)
  | .locate pts memo useMask => let r := locate F o pts memo useMask; (r.1, .cells r.2)
  | .locateOne p memo useMask => let r := locateOne F o p memo useMask; (r.1, .single r.2)
  | .logical pts inds memo => let r := geoToLogical F o pts inds memo; (r.1, .logicals r.2)
  | .interpolate data pts memo => let r := interpolate F o data pts memo; (r.1, .values r.2)

/-- The object after some calls. -/
def after (o : Obj G T P L) (h : List (Op G P D)) : Obj G T P L :=
  h.foldl (fun o c => (act F o c).1) o

end

/-! ## The computations of the program -/

section
variable {K : Type} [Field K] [LinearOrder K]

/-- The contents of a grid: for the tree, and for interpolation. -/
structure Contents (K : Type) where
  tree : SCelltree.Grid (K × K)
  interp : SInterp.Grid K

/-- The computations as modelled in `Verif.Model.SCelltree` and `Verif.Model.SInterp`; `search` is
the tree library, `sqrt` the square root. Data are an array and its location. -/
def parts (search : List (K × K) → List (List Int) → K × K → Int) (sqrt : K → K) :
    Parts (Contents K) (SCelltree.CellTree (K × K)) (K × K) (Option (K × K))
      (Option SIndex.Loc × List (List (SInterp.MV K))) (Option K) where
  build g useMask := SCelltree.build g.tree useMask
  find t g p := SCelltree.translate t g.tree.cols (search t.nodes t.faces p)
  logical c p cell := match cell with
    | none => .ok none
    | some ij => SInterp.geoToLogical sqrt c.interp p ij
  values g c d l :=
    SInterp.interpolate sqrt { g.interp with lon := c.interp.lon, lat := c.interp.lat } d.1 false d.2 l
  masked := none

end

end Verif.SMemory
