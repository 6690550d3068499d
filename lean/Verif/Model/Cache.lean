import Verif.Model.Np

/-!
# Result caches

An `OrderedDict` is the list of its items in insertion order. Assigning to an existing key keeps
its place. Keys, values and the evaluation behind the cache are arbitrary.
-/

set_option autoImplicit false

namespace Verif.Cache

section dict
variable {κ ν : Type*} [DecidableEq κ]

/-- `D[k]` if `k in D`. -/
def lookup (d : List (κ × ν)) (k : κ) : Option ν :=
  match d with
  | [] => none
  | (k', v) :: t => if k' = k then some v else lookup t k

/-- `D[k] = v`. -/
def assign (d : List (κ × ν)) (k : κ) (v : ν) : List (κ × ν) :=
  match d with
  | [] => [(k, v)]
  | (k', v') :: t => if k' = k then (k', v) :: t else (k', v') :: assign t k v

/-- Drop the oldest entry first if there are more than `cap`, then assign:
`Variable._memoize_result` (`gridded/variable.py:438-440`, cap 4),
`VectorVariable._memoize_result` (`gridded/variable.py:1189-1191`, cap 8),
`SGrid._add_memo` (`gridded/pysgrid/sgrid.py:530-532`, cap 6). -/
def storePopFirst (cap : Nat) (d : List (κ × ν)) (k : κ) (v : ν) : List (κ × ν) :=
  assign (if cap < d.length then d.tail else d) k v

/-- Assign, then drop the oldest entry if there are more than `cap`:
`UGrid._add_memo` (`gridded/pyugrid/ugrid.py:574-576`, cap 6),
`SGridVariable.__getitem__` (`gridded/pysgrid/variables.py:178-180`, cap 3),
`UVar.__getitem__` (`gridded/pyugrid/uvar.py:132-135`, cap 3). -/
def storePopAfter (cap : Nat) (d : List (κ × ν)) (k : κ) (v : ν) : List (κ × ν) :=
  let d' := assign d k v
  if cap < d'.length then d'.tail else d'

/-- The caches of the program. -/
inductive Which where
  | variable
  | vector
  | ugrid
  | sgrid
  | item
  deriving DecidableEq, Repr

/-- Storing into each of them, with the constants of the program. -/
def store : Which → List (κ × ν) → κ → ν → List (κ × ν)
  | .variable => storePopFirst 4
  | .vector => storePopFirst 8
  | .sgrid => storePopFirst 6
  | .ugrid => storePopAfter 6
  | .item => storePopAfter 3

end dict

/-! ## Cached evaluation

`gridded/variable.py:602-627` (`Variable.at`), `1251-1280` (`VectorVariable.at`),
`gridded/pysgrid/variables.py:171-181` and `gridded/pyugrid/uvar.py:128-136` (item access):
look the key up, otherwise evaluate and store. An evaluation that raises stores nothing. -/

section cached
variable {κ Q δ ν : Type} [DecidableEq κ]

/-- A variable: its current data and its cache. -/
structure Obj (κ δ ν : Type) where
  data : δ
  memo : List (κ × ν)

/-- One query; `mem` is the `_mem` flag (always true for item access). -/
def query (w : Which) (key : Q → κ) (eval : δ → Q → Except Err ν) (o : Obj κ δ ν) (q : Q)
    (mem : Bool) : Obj κ δ ν × Except Err ν :=
  match (if mem then lookup o.memo (key q) else none) with
  | some v => (o, .ok v)
  | none => match eval o.data q with
    | .error e => (o, .error e)
    | .ok v => (if mem then { o with memo := store w o.memo (key q) v } else o, .ok v)

/-- What a user does: ask, or assign new data (`gridded/variable.py:378-393`,
`gridded/pyugrid/uvar.py:89-91`: the cache is left as it is). -/
inductive Op (Q δ : Type) where
  | ask (q : Q) (mem : Bool)
  | setData (d : δ)

def step (w : Which) (key : Q → κ) (eval : δ → Q → Except Err ν) (o : Obj κ δ ν) :
    Op Q δ → Obj κ δ ν
  | .ask q mem => (query w key eval o q mem).1
  | .setData d => { o with data := d }

/-- A history, starting from an object with an empty cache. -/
def run (w : Which) (key : Q → κ) (eval : δ → Q → Except Err ν) (d : δ) (h : List (Op Q δ)) :
    Obj κ δ ν :=
  h.foldl (step w key eval) { data := d, memo := [] }

end cached

/-! ## Returned arrays

Arrays live in a heap; a masked array has data, mask and a write flag that protects the data only
(`setflags(write=False)` acts on the data buffer, the mask is a separate array). -/

/-- An array object. -/
structure Arr (V : Type) where
  data : List V
  mask : List Bool
  writable : Bool
  deriving DecidableEq, Repr

/-- The heap and a cache of references into it. -/
structure Heap (κ V : Type) where
  arrs : List (Arr V)
  memo : List (κ × Nat)

/-- What the caller does: query, write an element of a returned array, set an element of its mask
(`a[i] = np.ma.masked`, `a.mask[i] = b`). -/
inductive HOp (κ V : Type) where
  | ask (k : κ)
  | write (r i : Nat) (v : V)
  | writeMask (r i : Nat) (b : Bool)

section heap
variable {κ V : Type} [DecidableEq κ]

/-- A query of a cache that hands out the stored array itself, made read-only:
`Variable.at` (`gridded/variable.py:432-449, 606-627` with `_copy=False`), `UGrid._add_memo` and
`SGrid._add_memo` with `_copy=False`. Returns the reference. -/
def askShared (w : Which) (eval : κ → List V × List Bool) (h : Heap κ V) (k : κ) : Heap κ V × Nat :=
  match lookup h.memo k with
  | some r => (h, r)
  | none =>
    let a := eval k
    ({ arrs := h.arrs ++ [{ data := a.1, mask := a.2, writable := false }],
       memo := store w h.memo k h.arrs.length }, h.arrs.length)

/-- A query of a cache that stores a copy and hands out copies: `VectorVariable.at`
(`gridded/variable.py:1183-1201, 1251-1280` with `_copy=True`). The first call returns the value
itself, which is not the stored copy. -/
def askCopied (w : Which) (eval : κ → List V × List Bool) (h : Heap κ V) (k : κ) : Heap κ V × Nat :=
  match lookup h.memo k with
  | some r => match h.arrs[r]? with
    | some a => ({ h with arrs := h.arrs ++ [{ a with writable := true }] }, h.arrs.length)
    | none => (h, r)
  | none =>
    let a := eval k
    ({ arrs := h.arrs ++ [{ data := a.1, mask := a.2, writable := true },
                          { data := a.1, mask := a.2, writable := false }],
       memo := store w h.memo k (h.arrs.length + 1) }, h.arrs.length)

/-- A query of an item cache: the stored array itself is handed out and stays writable
(`gridded/pysgrid/variables.py:165-181`, `gridded/pyugrid/uvar.py:124-136`), for an item whose
`__getitem__` makes a copy (fancy indexing). -/
def askItem (w : Which) (eval : κ → List V × List Bool) (h : Heap κ V) (k : κ) : Heap κ V × Nat :=
  match lookup h.memo k with
  | some r => (h, r)
  | none =>
    let a := eval k
    ({ arrs := h.arrs ++ [{ data := a.1, mask := a.2, writable := true }],
       memo := store w h.memo k h.arrs.length }, h.arrs.length)

/-- `a[i] = v`: raises `ValueError` (here: does nothing) on a read-only array. -/
def writeData (h : Heap κ V) (r i : Nat) (v : V) : Heap κ V :=
  match h.arrs[r]? with
  | some a => if a.writable then { h with arrs := h.arrs.set r { a with data := a.data.set i v } } else h
  | none => h

/-- `a[i] = np.ma.masked` or `a.mask[i] = b`. -/
def writeMask (h : Heap κ V) (r i : Nat) (b : Bool) : Heap κ V :=
  match h.arrs[r]? with
  | some a => { h with arrs := h.arrs.set r { a with mask := a.mask.set i b } }
  | none => h

/-- State of a caller: the heap and the references obtained so far. -/
structure Caller (κ V : Type) where
  heap : Heap κ V
  held : List Nat

/-- One action; writes go to arrays the caller holds. -/
def cstep (ask : Heap κ V → κ → Heap κ V × Nat) (c : Caller κ V) : HOp κ V → Caller κ V
  | .ask k => let r := ask c.heap k; { heap := r.1, held := r.2 :: c.held }
  | .write r i v => if r ∈ c.held then { c with heap := writeData c.heap r i v } else c
  | .writeMask r i b => if r ∈ c.held then { c with heap := writeMask c.heap r i b } else c

def crun (ask : Heap κ V → κ → Heap κ V × Nat) (h : List (HOp κ V)) : Caller κ V :=
  h.foldl (cstep ask) { heap := { arrs := [], memo := [] }, held := [] }

/-- What a query shows: data and mask of the array it returns. -/
def shown (ask : Heap κ V → κ → Heap κ V × Nat) (c : Caller κ V) (k : κ) :
    Option (List V × List Bool) :=
  let r := ask c.heap k
  match r.1.arrs[r.2]? with
  | some a => some (a.data, a.mask)
  | none => none

end heap

end Verif.Cache
