import Verif.Model.GridType
import Verif.Spec.Util

/-!
# What files mean: names of variables and kinds of grid
-/

set_option autoImplicit false

namespace Verif.Spec
open Verif.Util (Arr)
open Verif.GridType (File FileVar Kind)

/-- The names of each kind of grid. -/
def kindNames : Kind → List String
  | .S => ["sgrid", "pygrid_s", "staggered", "curvilinear", "roms"]
  | .U => ["ugrid", "pygrid_u", "triangular", "unstructured"]
  | .R => ["rgrid", "regular", "rectangular", "rectilinear"]

/-- The usual names of node longitude and latitude, in order of preference. -/
def usualNodes : List (String × String) :=
  [("node_lon", "node_lat"), ("lon", "lat"), ("lon_psi", "lat_psi"), ("longitude", "latitude")]

/-- The usual names of a variable with both coordinates of every node. -/
def usualCombined : List String := ["nodes", "node"]

/-- The usual names of the faces. -/
def usualFaces : List String := ["faces", "tris", "nv", "ele", "nele"]

/-- Optional parts of a structured grid: longitude and latitude of its centers or edges, their usual
names in files in order of preference, and the mask with its name in files. -/
structure OptionalPart where
  lon : String
  lat : String
  names : List (String × String)
  mask : String
  maskName : String

/-- The centers, and the edges in either direction. -/
def optionalParts : List OptionalPart :=
  [⟨"center_lon", "center_lat",
      [("center_lon", "center_lat"), ("lon_rho", "lat_rho"), ("lonc", "latc")],
      "center_mask", "mask_rho"⟩,
    ⟨"edge1_lon", "edge1_lat", [("edge1_lon", "edge1_lat"), ("lon_u", "lat_u")],
      "edge1_mask", "mask_u"⟩,
    ⟨"edge2_lon", "edge2_lat", [("edge2_lon", "edge2_lat"), ("lon_v", "lat_v")],
      "edge2_mask", "mask_v"⟩]

section
variable {K : Type}

/-- The file has a variable of this name in some case. -/
def Has (f : File K) (n : String) : Prop := ∃ v ∈ f.vars, v.name.toLower = n

/-- `v` is the variable of this name in some case; if there are several, the last. -/
def Named (f : File K) (n : String) (v : FileVar K) : Prop :=
  ∃ pre post, f.vars = pre ++ v :: post ∧ v.name.toLower = n ∧ ∀ u ∈ post, u.name.toLower ≠ n

/-- The first pair of names that are both in the file. -/
def FirstPair (f : File K) (names : List (String × String)) (n1 n2 : String) : Prop :=
  ∃ pre post, names = pre ++ (n1, n2) :: post ∧ Has f n1 ∧ Has f n2 ∧
    ∀ p ∈ pre, ¬ (Has f p.1 ∧ Has f p.2)

/-- The first name that is in the file. -/
def FirstName (f : File K) (names : List String) (n : String) : Prop :=
  ∃ pre post, names = pre ++ n :: post ∧ Has f n ∧ ∀ p ∈ pre, ¬ Has f p

/-- The variable says it describes a topology. -/
def IsTopology (v : FileVar K) : Prop :=
  ∃ r, v.cfRole = some r ∧ ∃ pre post : List Char, r.toList = pre ++ "topology".toList ++ post

/-- Corner `j` of triangle `i`. -/
def corner (tris : List (Nat × Nat × Nat)) (i j : Nat) : Nat :=
  match tris[i]? with
  | some t => [t.1, t.2.1, t.2.2][j]?.getD 0
  | none => 0

/-- The array holds these triangles, one per row, with indices from `base`. -/
def Rows (a : Arr K) [NatCast K] [Add K] (base : K) (tris : List (Nat × Nat × Nat)) : Prop :=
  Holds a tris.length 3 (fun i j => (corner tris i j : K) + base)

/-- The same, one per column. -/
def Cols (a : Arr K) [NatCast K] [Add K] (base : K) (tris : List (Nat × Nat × Nat)) : Prop :=
  Holds a 3 tris.length (fun j i => (corner tris i j : K) + base)

/-- The array holds points, longitude and latitude in turn. -/
def Interleaved (a lon lat : List K) : Prop :=
  a.length = 2 * lon.length ∧ lat.length = lon.length ∧
    ∀ i : Nat, i < lon.length → a[2 * i]? = lon[i]? ∧ a[2 * i + 1]? = lat[i]?

end

end Verif.Spec
