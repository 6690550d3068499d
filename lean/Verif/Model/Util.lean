import Verif.Model.Cache
import Verif.Model.SText

/-!
# Utilities (`gridded/utilities.py`): points, masks and searches for variables
-/

set_option autoImplicit false

namespace Verif.Util
open Verif Verif.Cache

/-! ## Points -/

/-- An array: its shape and its entries in row-major order. -/
structure Arr (K : Type*) where
  shape : List Nat
  data : List K
  deriving DecidableEq, Repr

section
variable {K : Type*}

/-- `np.squeeze`: axes of length one are dropped. -/
def squeeze (a : Arr K) : Arr K := ⟨a.shape.filter (fun n => n ≠ 1), a.data⟩

/-- The entries of the transpose of an array with `r` rows and `c` columns. -/
def transposeData (r c : Nat) (data : List K) : List K :=
  (List.range c).flatMap (fun j => (List.range r).filterMap (fun i => data[i * c + j]?))

/-- `_reorganize_spatial_data` (`utilities.py:194-263`) on a numeric array. The transpose of an
array of three dimensions or more, which callers do not pass, is left out. -/
def reorganize (a : Arr K) : Except Err (Arr K) :=
  let p := squeeze a
  match p.shape with
  | [] => .error .indexError
  | [n] => if n = 2 ∨ n = 3 then .ok ⟨[1, n], p.data⟩ else .error .valueError
  | r :: c :: rest =>
    if rest = [] ∧ (r = 2 ∨ r = 3) ∧ (c = 2 ∨ c = 3) then .ok p
    else if 3 < r ∧ 3 < c then .error .valueError
    else if c < r then .ok p
    else if rest = [] then .ok ⟨[c, r], transposeData r c p.data⟩
    else .error .notImplemented

end

/-! ## Masks -/

/-- The attribute `flag_values`: a sequence, a text (its words), or a single number. -/
inductive FlagValues (α : Type*) where
  | seq (vs : List α)
  | text (words : List String)
  | single (v : α)

/-- What kind of mask a variable is. -/
inductive MaskKind (α : Type*) where
  | flags (values : FlagValues α) (meanings : List String)
  | options
  | plain

section
variable {α : Type*} [DecidableEq α]

/-- `"water" in s.lower() or "lake" in s.lower()` (`utilities.py:53`). -/
def isWater (s : String) : Bool :=
  SText.contains "water".toList (s.toList.map Char.toLower) ||
    SText.contains "lake".toList (s.toList.map Char.toLower)

/-- `np.asarray(words, dtype=...)`: all words or none. -/
def coerce (parse : String → Option α) : List String → Option (List α)
  | [] => some []
  | w :: ws => match parse w, coerce parse ws with
    | some v, some vs => some (v :: vs)
    | _, _ => none

/-- `dict(zip(keys, values))`. -/
def dictOf {β : Type*} (kvs : List (α × β)) : List (α × β) :=
  kvs.foldl (fun d kv => assign d kv.1 kv.2) []

/-- `for k, v in tfmap.items(): ret_mask[mask_data == k] = v`, starting from ones, for one cell. -/
def applyMap (d : List (α × Bool)) (x : α) : Bool :=
  d.foldl (fun m kv => if x = kv.1 then kv.2 else m) true

/-- `convert_mask_to_numpy_mask` (`utilities.py:20-69`). `zero` and `one` are the numbers 0 and 1 of
the type of the data, `parse` the conversion of text to it. Words that cannot be converted equal no
datum. Masked data are left out. -/
def convertMask (zero one : α) (parse : String → Option α) (kind : MaskKind α) (data : List α) :
    Except Err (List Bool) :=
  match kind with
  | .flags values meanings =>
    let mm := meanings.map (fun s => !isWater s)
    match values with
    | .seq vs => .ok (data.map (applyMap (dictOf (vs.zip mm))))
    | .text ws => match coerce parse ws with
      | some vs => .ok (data.map (applyMap (dictOf (vs.zip mm))))
      | none => .ok (data.map (fun _ => true))
    | .single _ => .error .typeError
  | .options => .ok (data.map (applyMap (dictOf ([zero, one].zip [true, false]))))
  | .plain => .ok (data.map (fun x => decide (x ≠ zero)))

end

/-! ## Searching for variables -/

/-- A variable: its name and two of its attributes. -/
structure FVar where
  name : String
  longName : Option String := none
  standardName : Option String := none
  deriving DecidableEq, Repr

/-- `ds.get_variables_by_attributes(long_name=q)` and `(standard_name=q)`, concatenated. -/
def byAttr (ds : List FVar) (q : String) : List FVar :=
  ds.filter (fun v => v.longName == some q) ++ ds.filter (fun v => v.standardName == some q)

/-- The inner loop of `search_dataset_for_variables_by_longname` (`utilities.py:526-531`). -/
def firstLong (ds : List FVar) : List String → Option FVar
  | [] => none
  | q :: qs => match byAttr ds q with
    | v :: _ => some v
    | [] => firstLong ds qs

/-- The inner loop of `search_dataset_for_variables_by_varname` (`utilities.py:550-553`). -/
def firstName (ds : List FVar) : List String → Option FVar
  | [] => none
  | q :: qs => match ds.find? (fun v => v.name == q) with
    | some v => some v
    | none => firstName ds qs

/-- The outer loop of both searches: every key gets an entry (`utilities.py:524-534,548-556`). -/
def searchAll (find : List String → Option FVar) (table : List (String × List String)) :
    List (String × Option FVar) :=
  table.map (fun kv => (kv.1, find kv.2))

/-- `merge_var_search_dicts` (`utilities.py:559-576`). -/
def merge (d1 d2 : List (String × Option FVar)) : List (String × Option FVar) :=
  d2.foldl (fun result kv =>
    match lookup d1 kv.1 with
    | none => assign result kv.1 kv.2
    | some _ => match lookup result kv.1 with
      | some none => assign result kv.1 kv.2
      | _ => result) d1

/-- `search_netcdf_vars` (`utilities.py:463-477`). `dg` is `none` if the grid file is the data file
itself. -/
def search (defaults cf : List (String × List String)) (ds : List FVar) (dg : Option (List FVar)) :
    List (String × Option FVar) :=
  let found := merge (searchAll (firstLong ds) cf) (searchAll (firstName ds) defaults)
  match dg with
  | none => found
  | some g => merge found (merge (searchAll (firstLong g) cf) (searchAll (firstName g) defaults))

/-- `can_create_class` (`utilities.py:480-483`). -/
def canCreate (defaults cf : List (String × List String)) (ds : List FVar)
    (dg : Option (List FVar)) : Bool :=
  (search defaults cf ds dg).all (fun kv => kv.2.isSome)

end Verif.Util
