import Verif.Model.Depth

/-!
# Plotting (`gridded/plotting/mpl_plotting.py`)

What is drawn is modelled as data: lines, triangles and artists on the axes. Colours, styles and texts
are left out. Arrays of two dimensions are lists of rows.
-/

set_option autoImplicit false

namespace Verif.Plot
open Verif
open Verif.DepthM (mapE argmin)

section
variable {K : Type} [Field K] [LinearOrder K]

/-- What the helper uses of a grid: node coordinates, `faces`, `nv` and `center_lon`/`center_lat` where
the grid has them. -/
structure PGrid (K : Type) where
  lons : List K
  lats : List K
  faces : Option (List (List Int))
  nv : Option (List (List Int)) := none
  centers : Option (List K × List K) := none

/-- `a.shape[1]`. -/
def width (a : List (List Int)) : Nat := match a with
  | [] => 0
  | r :: _ => r.length

/-- `a.T`. -/
def transpose (a : List (List Int)) : List (List Int) :=
  (List.range (width a)).map fun j => a.map fun r => r.getD j 0

/-- `np.where(lons > 180, lons - 360, lons)` for one longitude (`mpl_plotting.py:266, 292, 323-327,
401-403`). -/
def shown (x : K) : K := if 180 < x then x - 360 else x

/-- `a.min()`; `ValueError` on an empty array. -/
def least {α : Type} [Min α] : List α → Except Err α
  | [] => .error .valueError
  | x :: xs => .ok (xs.foldl min x)

/-- `a.max()`. -/
def greatest {α : Type} [Max α] : List α → Except Err α
  | [] => .error .valueError
  | x :: xs => .ok (xs.foldl max x)

/-- `GridGeoGenerator.get_triangle_faces` (`mpl_plotting.py:217-249`). -/
def triangleFaces (g : PGrid K) : Except Err (List (List Int)) :=
  match g.faces with
  | some f => .ok f
  | none => match g.nv with
    | none => .error .attributeError
    | some nv =>
      let f := if nv.length = 3 ∧ width nv ≠ 3 then transpose nv else nv
      match least f.flatten with
      | .error e => .error e
      | .ok m => .ok (if m = 1 then f.map (fun r => r.map fun x => x - 1) else f)

/-- The order of `np.unique(..., axis=0)`. -/
def pairLt (a b : Int × Int) : Bool := a.1 < b.1 || (a.1 == b.1 && a.2 < b.2)

/-- Insertion into a sorted list without repetitions. -/
def insertPair (x : Int × Int) : List (Int × Int) → List (Int × Int)
  | [] => [x]
  | y :: ys => if x = y then y :: ys else if pairLt x y then x :: y :: ys else y :: insertPair x ys

/-- `np.unique(pairs, axis=0)`: the rows in order, without repetitions. -/
def uniquePairs (l : List (Int × Int)) : List (Int × Int) := l.foldr insertPair []

/-- `edge_pairs.sort(axis=1)` for one row. -/
def sortPair (e : Int × Int) : Int × Int := if e.1 ≤ e.2 then e else (e.2, e.1)

/-- `faces[:, [i, j]]`. -/
def columns (f : List (List Int)) (i j : Nat) : Except Err (List (Int × Int)) :=
  mapE (fun r => match r[i]?, r[j]? with
    | some a, some b => .ok (a, b)
    | _, _ => .error .indexError) f

/-- The point of a node as drawn. -/
def nodeAt (g : PGrid K) (i : Int) : Except Err (K × K) :=
  match Np.pyGet g.lons i with
  | .error e => .error e
  | .ok x => match Np.pyGet g.lats i with
    | .error e => .error e
    | .ok y => .ok (shown x, y)

/-- The unique edges of `gen_grid_lines_U` (`mpl_plotting.py:288-304`). -/
def gridEdges (g : PGrid K) : Except Err (List (Int × Int)) :=
  match triangleFaces g with
  | .error e => .error e
  | .ok f => match columns f 0 1, columns f 1 2, columns f 2 0 with
    | .ok a, .ok b, .ok c => .ok (uniquePairs ((a ++ b ++ c).map sortPair))
    | _, _, _ => .error .indexError

/-- `GridGeoGenerator.gen_grid_lines_U` (`mpl_plotting.py:275-312`). -/
def gridLines (g : PGrid K) : Except Err (List ((K × K) × (K × K))) :=
  match gridEdges g with
  | .error e => .error e
  | .ok es => mapE (fun e => match nodeAt g e.1 with
    | .error e => .error e
    | .ok p => match nodeAt g e.2 with
      | .error e => .error e
      | .ok q => .ok (p, q)) es

/-- A bounding box: west, east, south, north. -/
structure Extent (K : Type) where
  west : K
  east : K
  south : K
  north : K

/-- `GridGeoGenerator.get_max_extent` (`mpl_plotting.py:314-341`). -/
def maxExtent (g : PGrid K) (margin : K) : Except Err (Extent K) :=
  let lons := g.lons.map shown
  match least lons, greatest lons, least g.lats, greatest g.lats with
  | .ok w, .ok e, .ok s, .ok n => .ok ⟨w - (e - w) * margin, e + (e - w) * margin,
      s - (n - s) * margin, n + (n - s) * margin⟩
  | _, _, _, _ => .error .valueError

/-! ## Queries -/

/-- The dictionary `fvcom_index_query` returns. -/
structure Sel (K : Type) where
  nele : Int
  nodes : List Int
  lons : List K
  lats : List K
  click : K × K

/-- `mpl_plotting.py:355-358`: grids stored from 0 to 360 are searched there. -/
def searchLon (low lon : K) : K := if 0 ≤ low ∧ lon < 0 then lon + 360 else lon

/-- The nearest centre (`mpl_plotting.py:375-391`). -/
def nearest (c : List K × List K) (click : K × K) : Except Err Nat :=
  argmin (List.zipWith (fun x y => (shown x - click.1) ^ 2 + (y - click.2) ^ 2) c.1 c.2)

/-- `GridGeoGenerator.fvcom_index_query` (`mpl_plotting.py:343-412`). `locate` is `grid.locate_faces`
for one point; unstructured grids have no `locate_triangles`. -/
def query (locate : K × K → Int) (g : PGrid K) (click : K × K) : Except Err (Option (Sel K)) :=
  match least g.lons with
  | .error e => .error e
  | .ok low =>
    let i := locate (searchLon low click.1, click.2)
    let found : Except Err (Option Int) :=
      if i = -1 then match g.centers with
        | none => .ok none
        | some c => (nearest c click).map fun k => some (k : Int)
      else .ok (some i)
    match found with
    | .error e => .error e
    | .ok none => .ok none
    | .ok (some k) => match triangleFaces g with
      | .error e => .error e
      | .ok f => match Np.pyGet f k with
        | .error e => .error e
        | .ok nodes => match mapE (Np.pyGet g.lons) nodes with
          | .error e => .error e
          | .ok xs => match mapE (Np.pyGet g.lats) nodes with
            | .error e => .error e
            | .ok ys => .ok (some ⟨k, nodes, xs.map shown, ys, click⟩)

/-! ## The viewer -/

/-- A row of the log. -/
structure Row (K : Type) where
  nele : Int
  center : K × K
  nodes : List (Int × (K × K))

/-- What is on the axes besides the mesh. -/
inductive Artist (K : Type) where
  | triangle (corners : List (K × K))
  | nodes (pts : List (K × K))
  | badge (node : Int) (at_ : K × K)
  | callout (nele : Int) (at_ : K × K)
  | center (at_ : K × K)

/-- The viewer: rows of the log after the header, and what is on the axes: the two overlays, the
annotations, and the artists it keeps no reference to. -/
structure View (K : Type) where
  csv : List (Row K) := []
  triangle : Option (Artist K) := none
  scatter : Option (Artist K) := none
  annotations : List (Artist K) := []
  others : List (Artist K) := []

/-- `np.mean`. -/
def mean (l : List K) : K := l.sum / (l.length : K)

/-- `draw_query_result` (`mpl_plotting.py:506-653`): the overlays are replaced, the row is written, the
annotations are replaced, and a marker is put at the centre. A face that has not three nodes raises
`ValueError` when its nodes are unpacked. -/
def draw (v : View K) (s : Sel K) : View K × Except Err Unit :=
  let pts := s.lons.zip s.lats
  let v1 : View K := { v with triangle := some (.triangle pts), scatter := some (.nodes pts), annotations := [] }
  match s.nodes, pts with
  | [a, b, c], [p, q, r] =>
    let mid := (mean s.lons, mean s.lats)
    ({ v1 with
        csv := v.csv ++ [⟨s.nele, mid, [(a, p), (b, q), (c, r)]⟩]
        annotations := [.badge a p, .badge b q, .badge c r, .callout s.nele s.click]
        others := v.others ++ [.center mid] }, .ok ())
  | _, _ => (v1, .error .valueError)

/-- A mouse click: its button, and its place if it is on the axes. -/
structure Click (K : Type) where
  button : Nat
  place : Option (K × K)

/-- `on_click` (`mpl_plotting.py:486-504`). Exceptions of callbacks are reported by the library and end
there. -/
def onClick (locate : K × K → Int) (g : PGrid K) (v : View K) (c : Click K) : View K :=
  match c.button, c.place with
  | 1, some p => match query locate g p with
    | .ok (some s) => (draw v s).1
    | _ => v
  | _, _ => v

/-- A session (`mpl_plotting.py:418-484`): the log is started afresh. -/
def session (locate : K × K → Int) (g : PGrid K) (cs : List (Click K)) : View K :=
  cs.foldl (onClick locate g) {}

/-! ## Plain grids -/

/-- The triangulation drawn by `plot_ugrid` (`mpl_plotting.py:49-58`); `Triangulation` takes three
columns. Numbers at nodes and faces are left out. -/
def ugridTriangles (faces : List (List Int)) : Except Err (List (List Int)) :=
  let f := if faces.length = 3 then transpose faces else faces
  if width f = 3 then .ok f else .error .valueError

/-- The boundary lines of `plot_ugrid` (`mpl_plotting.py:99-109`). -/
def boundaryLines (lons lats : List K) (bounds : List (Int × Int)) :
    Except Err (List ((K × K) × (K × K))) :=
  mapE (fun b => match Np.pyGet lons b.1, Np.pyGet lats b.1, Np.pyGet lons b.2, Np.pyGet lats b.2 with
    | .ok x, .ok y, .ok z, .ok w => .ok ((x, y), (z, w))
    | _, _, _, _ => .error .indexError) bounds

/-- The lines of `plot_sgrid` (`mpl_plotting.py:138-148`): each row of nodes, then each column; nodes
are given by a function and the shape. -/
def sgridLines (rows cols : Nat) (node : Nat → Nat → K × K) : List (List (K × K)) :=
  ((List.range rows).map fun i => (List.range cols).map fun j => node i j) ++
    (List.range cols).map fun j => (List.range rows).map fun i => node i j

end

end Verif.Plot
