import Verif.Model.UVars
import Mathlib.Data.List.Forall2

/-!
# Meshes in files, groups of variables
-/

set_option autoImplicit false

namespace Verif.Spec
open Verif.UVars (MeshAttrs File Src GOp)

/-- A mesh variable: its role is `mesh_topology`, blanks around it aside, and its dimension 1 or 2. -/
def IsMeshVar (v : MeshAttrs) : Prop :=
  (∃ a b : List Char, (∀ c ∈ a, c.isWhitespace = true) ∧ (∀ c ∈ b, c.isWhitespace = true) ∧
    v.cfRole = some (some (a ++ "mesh_topology".toList ++ b))) ∧
  (v.dimension = some (.ok 1) ∨ v.dimension = some (.ok 2))

/-- A mesh of that name is in the file. -/
def MeshNamed (f : File) (n : String) : Prop := ∃ v, (n, v) ∈ f ∧ IsMeshVar v

/-- The only mesh. -/
def OnlyMesh (f : File) (n : String) : Prop := MeshNamed f n ∧ ∀ m, MeshNamed f m → m = n

/-- The sources in a group after a history: those it was made of, and each one added that has the
shape of the first and a new name. -/
def contents {ι ν : Type} (shape : List Nat) : List (Src ι ν) → List (GOp ι ν) → List (Src ι ν)
  | srcs, [] => srcs
  | srcs, .read _ :: ops => contents shape srcs ops
  | srcs, .add v :: ops =>
    if v.shape = shape ∧ v.name ∉ srcs.map Src.name then contents shape (srcs ++ [v]) ops
    else contents shape srcs ops

/-- The columns read from sources. -/
def ColumnsOf {ι ν : Type} (srcs : List (Src ι ν)) (i : ι) (cs : List ν) : Prop :=
  List.Forall₂ (fun (s : Src ι ν) c => s.get i = .ok c) srcs cs

end Verif.Spec
