import Verif.Model.At

/-!
# Sigma depths within `Variable.at`, `gridded/depth.py:628-723, 812-947`

The bathymetry and the free surface are variables themselves; they are evaluated at the points asked
for and at the time asked for, whatever time index the data are read at. Arithmetic is exact.

Left out: the result caches of the two variables (`Model/Cache.lean`), data on layers, and entries of
the bathymetry or free surface that are NaN or masked (an error here).
-/

set_option autoImplicit false

namespace Verif.At
open Verif.TimeM Verif.DepthM

/-- What an array has for a mask: a plain array has none, a masked array either the scalar `nomask`
or an array. -/
inductive MaskForm where
  | plain
  | nomask
  | full
  deriving DecidableEq, Repr

/-- The mask of the result of arithmetic on two arrays. -/
def MaskForm.combine : MaskForm → MaskForm → MaskForm
  | .full, _ => .full
  | _, .full => .full
  | .nomask, _ => .nomask
  | _, .nomask => .nomask
  | .plain, .plain => .plain

/-- `depth_profiles.mask[:, 0]`, `gridded/depth.py:701`: a plain array has no `mask`, the scalar
cannot be indexed. -/
def MaskForm.column : MaskForm → Except Err Unit
  | .plain => .error .attributeError
  | .nomask => .error .indexError
  | .full => .ok ()

section
variable {K P σ : Type} [Field K] [LinearOrder K]

/-- The numbers of a result; see the file comment for NaN and masked entries. -/
def numbers (r : Except Err (List (Cell K))) : Except Err (List K) :=
  match r with
  | .error e => .error e
  | .ok cs => mapE (fun c : Cell K => match c.value with
      | some v => if c.masked then .error .notImplemented else .ok v
      | none => .error .notImplemented) cs

/-- `FVCOM_Depth`, `gridded/depth.py:894-947`: bathymetry on the nodes, free surface at the nodes by
time, the sigma levels at the nodes (one slice per level), the sigma list of the first node, the number
of layers, and the mask forms of the three arrays. -/
structure FvcomObj (K σ : Type) where
  bathymetry : σ
  zeta : List σ
  siglev : List σ
  node0 : List K
  numLayers : Nat
  forms : MaskForm × MaskForm × MaskForm

/-- The mask form of the depth profiles; interpolation on an unstructured grid and in time keeps the
form of the data (`take`, `sum` and arithmetic with plain weights, `pyugrid/ugrid.py:785-792`). -/
def FvcomObj.form (o : FvcomObj K σ) : MaskForm :=
  o.forms.1.combine (o.forms.2.1.combine o.forms.2.2)

/-- One point with its depth, bathymetry, free surface, mask and sigma list. -/
def fvcomRows (z : P → K) (pts : List P) (hs zs : List K) (sig : List (List K)) :
    List (K × K × K × Bool × List K) :=
  pts.zipIdx.map fun q => (z q.1, hs.getD q.2 0, zs.getD q.2 0, false, sig.map fun r => r.getD q.2 0)

/-- `S_Depth.interpolation_alphas` (`depth.py:628-723`) with the profiles of `FVCOM_Depth`
(`depth.py:812-830, 930-947`): the free surface is evaluated first, then sigma, then the bathymetry.
The mask of the profiles is read (line 701) after the depths are binned, unless there is one level
only. -/
def fvcomSys (xy : σ → List P → Except Err (List (Cell K))) (z : P → K) (times : List Int)
    (o : FvcomObj K σ) (sbc bbc : BC) (t : Int) (e : Bool) : DepthSys K P where
  numLayers := o.numLayers
  alphas := fun pts =>
    if o.node0.length = 1 then .ok (surfaceOnly 0 pts.length)
    else match numbers (timeStage times (fun i => withSlice xy (Np.pyGet o.zeta i) pts) t e),
        mapE (fun s => numbers (xy s pts)) o.siglev, numbers (xy o.bathymetry pts) with
      | .ok zs, .ok sig, .ok hs =>
        let rows := fvcomRows z pts hs zs sig
        match mapE (fun r : K × K × K × Bool × List K =>
            Np.digitize r.1 (fvcomProfile r.2.1 r.2.2.1 r.2.2.2.2) false) rows with
        | .error x => .error x
        | .ok _ => match o.form.column with
          | .error x => .error x
          | .ok () => fvcomAlphas (fun x => x) o.node0 o.numLayers sbc bbc rows
      | .error x, _, _ => .error x
      | _, .error x, _ => .error x
      | _, _, .error x => .error x

/-- `ROMS_Depth`, `gridded/depth.py:833-892`: bathymetry, free surface by time, transform, critical
depth, the s levels with their stretching, and the number of layers. On a structured grid
interpolation gives arrays with a mask array (`pysgrid/sgrid.py:1114-1151`: the located cells are a
masked array). -/
structure RomsObj (K σ : Type) where
  bathymetry : σ
  zeta : List σ
  vtransform : Nat
  hc : K
  levels : List (K × K)
  numLayers : Nat

/-- `S_Depth.interpolation_alphas` (`depth.py:628-723`) with the profiles of `ROMS_Depth`
(`depth.py:812-830, 875-891`). -/
def romsSys (xy : σ → List P → Except Err (List (Cell K))) (z : P → K) (times : List Int)
    (o : RomsObj K σ) (sbc bbc : BC) (t : Int) (e : Bool) : DepthSys K P where
  numLayers := o.numLayers
  alphas := fun pts =>
    match numbers (timeStage times (fun i => withSlice xy (Np.pyGet o.zeta i) pts) t e),
        numbers (xy o.bathymetry pts) with
      | .ok zs, .ok hs => romsAlphas (fun x => x) o.vtransform o.hc o.levels o.numLayers sbc bbc
          (pts.zipIdx.map fun q => (z q.1, hs.getD q.2 0, zs.getD q.2 0, false))
      | .error x, _ => .error x
      | _, .error x => .error x

end

end Verif.At
