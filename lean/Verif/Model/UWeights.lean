import Verif.Model.Locate

/-!
# Interpolation on an unstructured grid object with its memory

`UGrid.interpolation_alphas`, `UGrid.interpolate_var_to_points` and `UGrid.index_of`
(`gridded/pyugrid/ugrid.py:654-793`): two memories keyed by the points alone (`_ind_memo_dict`,
`_alpha_memo_dict`), the cell tree, and the flags `_copy` and `_memo`. The key (a hash of the bytes
of the points) is the list of points; a hash given by the caller is not modelled.
-/

set_option autoImplicit false

namespace Verif.UWeights
open Verif.UGeom
open Verif.DepthM (mapE)

section
variable {K : Type} [Field K] [LinearOrder K]

/-- The three weights of a point; `none` is a number that is not finite. -/
abbrev W (K : Type) := Option K × Option K × Option K

/-- The object: mesh, tree and index memory (`Locate.Grid`), and `_alpha_memo_dict`. -/
structure Grid (K : Type) where
  loc : Locate.Grid K
  weights : List (List (K × K) × List (W K))

/-- A grid as it is made, `ugrid.py:152-156` (both memories empty, no tree). -/
def new (m : Mesh K) : Grid K := { loc := { mesh := m, tree := none, memo := [] }, weights := [] }

/-- Two arrays of rows combined by numpy broadcasting: equal numbers of rows, or one row against
any number. -/
def rows {α β : Type} (as : List α) (bs : List β) : Except Err (List (α × β)) :=
  if as.length = bs.length then .ok (as.zip bs)
  else match as, bs with
    | [a], bs => .ok (bs.map fun b => (a, b))
    | as, [b] => .ok (as.map fun a => (a, b))
    | _, _ => .error .valueError

/-- The weights of one point in face `ind`, `ugrid.py:690-707`. A face that is not a triangle cannot
be unpacked. -/
def weigh (m : Mesh K) (ind : Int) (pt : K × K) : Except Err (W K) :=
  match Np.pyGet m.faces ind with
  | .error e => .error e
  | .ok [a, b, c] =>
    match Np.pyGet m.nodes a, Np.pyGet m.nodes b, Np.pyGet m.nodes c with
    | .ok p, .ok q, .ok r => .ok (alphas ind p q r pt)
    | _, _, _ => .error .indexError
  | .ok _ => .error .valueError

/-- The weights of all points, `ugrid.py:690-707`. Face numbers and points are broadcast; the
boolean index of line 707 has as many rows as there are face numbers, so one face number for several
points is refused there. -/
def weighAll (m : Mesh K) (inds : List Int) (pts : List (K × K)) : Except Err (List (W K)) :=
  match rows inds pts with
  | .error e => .error e
  | .ok l => match mapE (fun q => weigh m q.1 q.2) l with
    | .error e => .error e
    | .ok ws => if ws.length = inds.length then .ok ws else .error .indexError

/-- `interpolation_alphas`, `ugrid.py:667-712`. The flags reach `locate_faces` in the other order
(line 689 passes `_copy, _memo` where `_memo, _copy` is expected). -/
def interpolationAlphas (celltree : Mesh K → List (K × K) → List Int) (eps : K) (g : Grid K)
    (pts : List (K × K)) (inds : Option (List Int)) (copy memo : Bool) :
    Grid K × Except Err (List (W K)) :=
  match (if memo then Cache.lookup g.weights pts else none) with
  | some w => (g, .ok w)
  | none =>
    let found : Locate.Grid K × Except Err (List Int) := match inds with
      | some is => (g.loc, .ok is)
      | none => Locate.locate celltree eps g.loc pts .celltree copy
    let g1 : Grid K := { g with loc := found.1 }
    match found.2 with
    | .error e => (g1, .error e)
    | .ok is => match weighAll g1.loc.mesh is pts with
      | .error e => (g1, .error e)
      | .ok w =>
        (if memo then { g1 with weights := Cache.store .ugrid g1.weights pts w } else g1, .ok w)

/-- The values of the three nodes of face `ind`, times zero for index -1, `ugrid.py:787,790`. -/
def corners (m : Mesh K) (data : List (Option K)) (ind : Int) :
    Except Err (Option K × Option K × Option K) :=
  match Np.pyGet m.faces ind with
  | .error e => .error e
  | .ok [a, b, c] =>
    match Np.pyGet data a, Np.pyGet data b, Np.pyGet data c with
    | .ok u, .ok v, .ok w =>
      let z := fun x : Option K => if ind = -1 then fmul x (some 0) else x
      .ok (z u, z v, z w)
    | _, _, _ => .error .indexError
  | .ok _ => .error .valueError

/-- The weighted sum of a row, `ugrid.py:791`. -/
def dot (v w : W K) : Option K :=
  fadd (fadd (fmul v.1 w.1) (fmul v.2.1 w.2.1)) (fmul v.2.2 w.2.2)

/-- `interpolate_var_to_points` for data with a known location, one value per node or face,
`ugrid.py:775-793`. Again the flags reach `locate_faces` in the other order (line 779). -/
def interpolateVar (celltree : Mesh K → List (K × K) → List Int) (eps : K) (g : Grid K) (loc : Loc)
    (data : List (Option K)) (pts : List (K × K)) (copy memo : Bool) :
    Grid K × Except Err (Option (List (Option K))) :=
  let found := Locate.locate celltree eps g.loc pts .celltree copy
  let g1 : Grid K := { g with loc := found.1 }
  match found.2 with
  | .error e => (g1, .error e)
  | .ok is => match loc with
    | .face => (g1, match mapE (interpFace data) is with
        | .error e => .error e
        | .ok vs => .ok (some vs))
    | .node =>
      let r := interpolationAlphas celltree eps g1 pts (some is) copy memo
      (r.1, match r.2 with
        | .error e => .error e
        | .ok ws => match mapE (corners r.1.loc.mesh data) is with
          | .error e => .error e
          | .ok vs => match rows vs ws with
            | .error e => .error e
            | .ok l => .ok (some (l.map fun q => dot q.1 q.2)))
    | .boundary => (g1, .ok none)

/-- What a user does with a grid. -/
inductive Op (K : Type) where
  | setMesh (m : Mesh K)
  | locate (pts : List (K × K)) (μ : Locate.Method) (memo : Bool)
  | weigh (pts : List (K × K)) (inds : Option (List Int)) (copy memo : Bool)
  | interpolate (loc : Loc) (data : List (Option K)) (pts : List (K × K)) (copy memo : Bool)

/-- What a call returns. -/
inductive Out (K : Type) where
  | nothing
  | faces (r : Except Err (List Int))
  | weights (r : Except Err (List (W K)))
  | values (r : Except Err (Option (List (Option K))))
  deriving DecidableEq

/-- One call. Assigning nodes or faces leaves memories and tree as they are
(`ugrid.py:278-330`). -/
def act (celltree : Mesh K → List (K × K) → List Int) (eps : K) (g : Grid K) : Op K → Grid K × Out K
  | .setMesh m => ({ g with loc := { g.loc with mesh := m } }, .nothing)
  | .locate pts μ memo =>
    let r := Locate.locate celltree eps g.loc pts μ memo
    ({ g with loc := r.1 }, .faces r.2)
  | .weigh pts inds copy memo =>
    let r := interpolationAlphas celltree eps g pts inds copy memo
    (r.1, .weights r.2)
  | .interpolate loc data pts copy memo =>
    let r := interpolateVar celltree eps g loc data pts copy memo
    (r.1, .values r.2)

/-- The grid after some calls. -/
def after (celltree : Mesh K → List (K × K) → List Int) (eps : K) (g : Grid K) (h : List (Op K)) :
    Grid K :=
  h.foldl (fun g o => (act celltree eps g o).1) g

end

/-! ## `index_of` -/

/-- A call with keyword arguments: a keyword the function does not have is a `TypeError`. -/
def callWith {α : Type} (params kws : List String) (body : Except Err α) : Except Err α :=
  if kws.all (fun k => decide (k ∈ params)) then body else .error .typeError

/-- The parameters of `UGrid.locate_faces`, `ugrid.py:587`. -/
def ugridLocateParams : List String := ["points", "method", "_memo", "_copy", "_hash"]

/-- The parameters of `SGrid.locate_faces`, `gridded/pysgrid/sgrid.py:617`. -/
def sgridLocateParams : List String := ["points", "_memo", "_copy", "_hash", "use_mask"]

/-- `UGrid.index_of`, `ugrid.py:654-655`; `found` is what `locate_faces` gives. -/
def ugridIndexOf {α : Type} (found : Except Err α) : Except Err α :=
  callWith ugridLocateParams ["points", "method", "_memo", "_copy", "_hash", "use_mask"] found

/-- `SGrid.index_of`, `sgrid.py:674-675`. -/
def sgridIndexOf {α : Type} (found : Except Err α) : Except Err α :=
  callWith sgridLocateParams ["points", "_memo", "_copy", "_hash", "use_mask"] found

/-! ## Data without a stated location -/

/-- What holds the values: a plain array (attributes cannot be set), a masked array or another
object whose attributes can be set, here with the location it carries. -/
inductive Holder where
  | plain
  | open' (location : Option (Option Loc))
  deriving DecidableEq, Repr

/-- The sizes of a mesh: numbers of nodes, faces and boundaries (`None` if not there). -/
structure Sizes where
  nodes : Nat
  faces : Option Nat
  boundaries : Option Nat
  deriving DecidableEq, Repr

/-- `infer_location`, `ugrid.py:444-454`, for an array with last dimension `size` (`none`: no
dimension). -/
def inferLocation (s : Sizes) (size : Option Nat) : Option Loc :=
  match size with
  | none => none
  | some n =>
    if n = s.nodes then some .node
    else if s.faces = some n then some .face
    else if s.boundaries = some n then some .boundary
    else none

/-- How `interpolate_var_to_points` settles the location, `ugrid.py:756-766`: that of the data if
they have one, else the one given, else inferred and written onto the data (`AttributeError` for a
plain array). Returns the data as they are afterwards. -/
def settle (s : Sizes) (h : Holder) (size : Option Nat) (given : Option Loc) :
    Holder × Except Err Loc :=
  let location : Option Loc := match h with
    | .open' (some l) => l
    | _ => given
  match location with
  | some l => (h, .ok l)
  | none =>
    let l := inferLocation s size
    match h with
    | .plain => (h, .error .attributeError)
    | .open' _ => (.open' (some l), match l with
      | some l => .ok l
      | none => .error .valueError)

end Verif.UWeights
