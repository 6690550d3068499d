import Verif.Model.SFile

/-!
# What files of structured grids should give
-/

set_option autoImplicit false

namespace Verif.Spec
open Verif Verif.SFile

variable {α : Type}

/-- The variable says it describes a grid. -/
def SaysTopology (v : NVar α) : Prop :=
  v.attrs.lookup "cf_role".toList = some "grid_topology".toList

/-- A word occurs in a text. -/
def Occurs (w s : List Char) : Prop := ∃ pre post, s = pre ++ w ++ post

/-- No two variables of the file have the same name. -/
def DistinctNames (f : File α) : Prop := (f.vars.map NVar.name).Nodup

/-- The faces are declared by these, two at least. -/
def FacesDeclared (p : Pads) (fs : List SText.Decl) : Prop := p.face = some fs ∧ 2 ≤ fs.length

/-- The dimension is declared among these. -/
def DeclaredIn (ds : List SText.Decl) (d : Txt) : Prop := ∃ x ∈ ds, x.faceDim = d

/-- The dimension is declared for one of the kinds of edges. -/
def EdgeDeclared (p : Pads) (d : Txt) : Prop :=
  (∃ ds, p.edge1 = some ds ∧ DeclaredIn ds d) ∨ (∃ ds, p.edge2 = some ds ∧ DeclaredIn ds d)

/-- The variable shares a dimension with the nodes. -/
def OnNodeDims (p : Pads) (dims : List Txt) : Prop := ∃ d ∈ dims, d ∈ p.nodeDims

/-- The dimension, of a variable with these dimensions, has a declared padding: one of the faces, or
one of the edges for variables that share nothing with the nodes. -/
def DimPadded (p : Pads) (fs : List SText.Decl) (dims : List Txt) (d : Txt) : Prop :=
  DeclaredIn fs d ∨ (¬ OnNodeDims p dims ∧ EdgeDeclared p d)

/-- A variable of the file is called this and is one of longitudes. -/
def IsLonName (f : File α) (n : Txt) : Prop :=
  ∃ w ∈ f.vars, w.name = n ∧ (Occurs "lon".toList (n.map Char.toLower) ∨
    Occurs "longitude".toList (((w.attrs.lookup "standard_name".toList).getD []).map Char.toLower) ∨
    Occurs "longitude".toList (((w.attrs.lookup "description".toList).getD []).map Char.toLower))

/-- A variable of the file is called this and is one of latitudes. -/
def IsLatName (f : File α) (n : Txt) : Prop :=
  ∃ w ∈ f.vars, w.name = n ∧ (Occurs "lat".toList (n.map Char.toLower) ∨
    Occurs "latitude".toList (((w.attrs.lookup "standard_name".toList).getD []).map Char.toLower) ∨
    Occurs "latitude".toList (((w.attrs.lookup "description".toList).getD []).map Char.toLower))

/-- One of these words occurs in the name or the standard name of the variable, in lower case. -/
def SaysWord (words : List String) (w : NVar α) : Prop :=
  ∃ word ∈ words, Occurs word.toList (w.name.map Char.toLower) ∨
    ∃ s, w.attrs.lookup "standard_name".toList = some s ∧ Occurs word.toList (s.map Char.toLower)

/-- The variable may be a coordinate of `v` for which it names none: another one with dimensions, all
of them among those of `v`. -/
def MayLocate (v w : NVar α) : Prop := w.name ≠ v.name ∧ w.dims ≠ [] ∧ ∀ d ∈ w.dims, d ∈ v.dims

/-- By its words it is one of longitudes. -/
def SaysX (w : NVar α) : Prop := SaysWord ["x", "lon", "longitude"] w

/-- By its words it is one of latitudes, and not one of longitudes. -/
def SaysY (w : NVar α) : Prop := SaysWord ["y", "lat", "latitude"] w ∧ ¬ SaysX w

/-- The variable calls itself a mask. -/
def CalledMask (v : NVar α) : Prop :=
  Occurs "mask".toList v.name ∨
    ∃ s, v.attrs.lookup "long_name".toList = some s ∧ Occurs "mask".toList s

/-- The sizes of the dimensions of a variable. -/
def sizes (f : File α) (v : NVar α) : List Nat := v.dims.map (fun d => (f.dims.lookup d).getD 0)

/-- The name of the first variable that calls itself a mask and has the size of `lon`, or nothing. -/
def FirstMask (f : File α) (lon : NVar α) (m : Option Txt) : Prop :=
  (∃ pre w post, f.vars = pre ++ w :: post ∧ m = some w.name ∧ sizes f lon ≠ [] ∧ CalledMask w ∧
      sizes f w = sizes f lon ∧ ∀ u ∈ pre, ¬ (CalledMask u ∧ sizes f u = sizes f lon)) ∨
    (m = none ∧ (sizes f lon = [] ∨ ∀ w ∈ f.vars, ¬ (CalledMask w ∧ sizes f w = sizes f lon)))

/-- The mask held for a location: the variable called `key`, if there is one; otherwise the first for
the longitudes named, and none where no two coordinates are. -/
def MaskHeld (f : File α) (key : String) (names : Option (List Txt)) (m : Option Txt) : Prop :=
  ((∃ v ∈ f.vars, v.name = key.toList) → m = some key.toList) ∧
    ((∀ v ∈ f.vars, v.name ≠ key.toList) → ((∀ x y, names ≠ some [x, y]) → m = none) ∧
      ∀ x ∈ f.vars, ∀ y, names = some [x.name, y] → FirstMask f x m)

/-- The file says how to read it: one variable describes a grid of two dimensions, names the node
dimensions and two padded face dimensions, and gives the coordinates of nodes. -/
def SaysHow (f : File α) : Prop :=
  ∃ t ∈ f.vars, SaysTopology t ∧ (∀ v ∈ f.vars, SaysTopology v → v.name = t.name) ∧
    t.topDim = some (.ok 2) ∧ t.dims = [] ∧
    (∃ s, t.attrs.lookup "node_dimensions".toList = some s) ∧
    (∃ s ds, t.attrs.lookup "face_dimensions".toList = some s ∧ SText.parsePadding s = .ok ds ∧
      ds.length = 2) ∧
    (∃ x y, t.attrs.lookup "node_coordinates".toList = some (x ++ ' ' :: y) ∧
      (∃ v ∈ f.vars, v.name = x) ∧ (∃ v ∈ f.vars, v.name = y) ∧ ' ' ∉ x ∧ ' ' ∉ y)

/-- The arrays are those of the two variables named, longitude first, or there are none. -/
def HeldFrom (f : File α) (names : Option (List Txt)) (lon lat : Option α) : Prop :=
  (names = none ∧ lon = none ∧ lat = none) ∨
    ∃ vx ∈ f.vars, ∃ vy ∈ f.vars, names = some [vx.name, vy.name] ∧ lon = some vx.data ∧
      lat = some vy.data

/-- Names the grid uses for its own arrays. -/
def arrayNames : List Txt :=
  ["node_lon".toList, "node_lat".toList, "center_lon".toList, "center_lat".toList,
    "edge1_lon".toList, "edge1_lat".toList, "edge2_lon".toList, "edge2_lat".toList]

/-- The description names two variables of the file for a location. -/
def NamesTwo (f : File α) (t : NVar α) (key : String) (vx vy : NVar α) : Prop :=
  t.attrs.lookup key.toList = some (vx.name ++ ' ' :: vy.name) ∧ vx ∈ f.vars ∧ vy ∈ f.vars ∧
    ' ' ∉ vx.name ∧ ' ' ∉ vy.name

/-- The description declares these dimensions. -/
def DeclaresDims (t : NVar α) (key : String) (ds : List SText.Decl) : Prop :=
  ∃ s, t.attrs.lookup key.toList = some s ∧ SText.parsePadding s = .ok ds

/-- The four words for paddings. -/
def PaddingWord (w : Txt) : Prop :=
  w = "both".toList ∨ w = "none".toList ∨ w = "low".toList ∨ w = "high".toList

/-- What is sliced off, start and end, for a padding as the table of the grid has it. -/
def TableSlice (w : Txt) (r : Option Int × Option Int) : Prop :=
  (w = "both".toList ∧ r = (some 1, some (-1))) ∨ (w = "none".toList ∧ r = (none, none)) ∨
    (w = "low".toList ∧ r = (some 1, none)) ∨ (w = "high".toList ∧ r = (none, some 1))

/-- What a file is asked for so that its grid survives being saved. -/
structure Survives (f : File α) (g : SObj α) (cx cy nx ny : NVar α) : Prop where
  distinct : DistinctNames f
  hcx : cx ∈ f.vars
  hcy : cy ∈ f.vars
  hnx : nx ∈ f.vars
  hny : ny ∈ f.vars
  face : g.faceCoords = some [cx.name, cy.name]
  node : g.nodeCoords = some [nx.name, ny.name]
  apart : [cx.name, cy.name, nx.name, ny.name, g.topVar, "angle".toList].Nodup
  bare : ∀ v ∈ f.vars, v.name = g.topVar → v.dims = []
  spaces : ∀ v ∈ f.vars, ' ' ∉ v.name
  free : ∀ v ∈ f.vars, v.name ∉ "angles".toList :: arrayNames

/-- Two variables are the same but for where they are; the second names the grid anew. -/
def SameVariable (top : Txt) (s s' : SVar) : Prop :=
  s'.name = s.name ∧ s'.dims = s.dims ∧ s'.centerAxis = s.centerAxis ∧ s'.nodeAxis = s.nodeAxis ∧
    s'.slices = s.slices ∧ s'.axes = s.axes ∧ s'.standardName = s.standardName ∧
    s'.vectorAxis = s.vectorAxis ∧ s'.coordinates = s.coordinates ∧
    s'.grid = s.grid.map (fun _ => top)

end Verif.Spec
