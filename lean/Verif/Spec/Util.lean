import Verif.Model.Util

/-!
# What searches, point arrays and masks mean

Nothing here uses the functions of the model, only its data types.
-/

set_option autoImplicit false

namespace Verif.Spec
open Verif.Util (FVar Arr)

/-! ## Searches -/

/-- `v` is the first variable of the file with property `P`. -/
def FirstVar (ds : List FVar) (P : FVar → Prop) (v : FVar) : Prop :=
  ∃ pre post, ds = pre ++ v :: post ∧ P v ∧ ∀ u ∈ pre, ¬ P u

/-- The variable a description stands for: the first with this long name and, if no variable has
it, the first with this standard name. -/
def LongHit (ds : List FVar) (q : String) (v : FVar) : Prop :=
  FirstVar ds (fun u => u.longName = some q) v ∨
    ((∀ u ∈ ds, u.longName ≠ some q) ∧ FirstVar ds (fun u => u.standardName = some q) v)

/-- The variable a name stands for. -/
def NameHit (ds : List FVar) (q : String) (v : FVar) : Prop :=
  FirstVar ds (fun u => u.name = q) v

/-- The first candidate that stands for a variable stands for `v`. -/
def Best (hit : String → FVar → Prop) (qs : List String) (v : FVar) : Prop :=
  ∃ pre q post, qs = pre ++ q :: post ∧ hit q v ∧ ∀ q' ∈ pre, ∀ u, ¬ hit q' u

/-- The first of several ways to find a variable that finds any finds `v`. -/
def FirstWay (ways : List (FVar → Prop)) (v : FVar) : Prop :=
  ∃ pre w post, ways = pre ++ w :: post ∧ w v ∧ ∀ w' ∈ pre, ∀ u, ¬ w' u

/-- The candidates a table lists for a key. -/
def candidates (table : List (String × List String)) (k : String) : List String :=
  (table.filter (fun kv => kv.1 = k)).flatMap Prod.snd

/-- The ways to find the variable for a key in one file: by description, then by name. -/
def ways (defaults cf : List (String × List String)) (k : String) (ds : List FVar) :
    List (FVar → Prop) :=
  [Best (LongHit ds) (candidates cf k), Best (NameHit ds) (candidates defaults k)]

/-- Some candidate for the key is the description or the name of some variable of the file. -/
def Somewhere (defaults cf : List (String × List String)) (k : String) (ds : List FVar) : Prop :=
  (∃ q ∈ candidates cf k, ∃ v ∈ ds, v.longName = some q ∨ v.standardName = some q) ∨
    ∃ q ∈ candidates defaults k, ∃ v ∈ ds, v.name = q

/-! ## Points -/

/-- The array has `r` rows and `c` columns, axes of length one aside, and the entries `f`. -/
def Holds {K : Type*} (a : Arr K) (r c : Nat) (f : Nat → Nat → K) : Prop :=
  a.shape = [r, c] ∧ a.data.length = r * c ∧
    ∀ i j : Nat, i < r → j < c → a.data[i * c + j]? = some (f i j)

/-- `b` is `a` with additional axes of length one. -/
def WithUnitAxes {K : Type*} (a b : Arr K) : Prop :=
  a.data = b.data ∧ a.shape.filter (· ≠ 1) = b.shape.filter (· ≠ 1)

/-! ## Masks -/

/-- The text mentions the word, in upper or lower case. -/
def Mentions (word s : String) : Prop :=
  ∃ pre post : List Char, s.toList.map Char.toLower = pre ++ word.toList ++ post

/-- The meaning documented for a value: that at its last occurrence. -/
def Documented {α : Type*} (values : List α) (meanings : List String) (x : α) (m : String) : Prop :=
  ∃ i : Nat, values[i]? = some x ∧ meanings[i]? = some m ∧
    ∀ i' : Nat, i < i' → i' < meanings.length → values[i']? ≠ some x

/-- A cell is water: its value is documented, as water or lake. -/
def WaterCell {α : Type*} (values : List α) (meanings : List String) (x : α) : Prop :=
  ∃ m, Documented values meanings x m ∧ (Mentions "water" m ∨ Mentions "lake" m)

end Verif.Spec
