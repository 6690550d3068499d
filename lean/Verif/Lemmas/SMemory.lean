import Verif.Model.SMemory
import Verif.Lemmas.Cache
import Mathlib.Tactic.Common

set_option autoImplicit false

namespace Verif.SMemory
open Verif.DepthM (mapE)

variable {G T P L D V : Type} [DecidableEq P] (F : Parts G T P L D V)

/-- What locating gives without memory. -/
def rawOf (g : G) (pts : List P) : Except Err (List (Int × Int)) :=
  match F.build g true with
  | .error e => .error e
  | .ok t => mapE (F.find t g) pts

def cellsOf (g : G) (pts : List P) : Except Err (List (Option (Int × Int))) :=
  match rawOf F g pts with
  | .error e => .error e
  | .ok is => .ok (is.map maskMiss)

/-- Logical coordinates in given cells, without memory. -/
def inCells (g : G) (pts : List P) (is : List (Option (Int × Int))) : Except Err (List L) :=
  match pair pts is with
  | .error e => .error e
  | .ok l => mapE (fun q => F.logical g q.1 q.2) l

def logicalsOf (g : G) (pts : List P) : Except Err (List L) :=
  match cellsOf F g pts with
  | .error e => .error e
  | .ok is => inCells F g pts is

def valuesOf (g : G) (data : D) (pts : List P) : Except Err (List V) :=
  match cellsOf F g pts with
  | .error e => .error e
  | .ok is =>
    if is.all (·.isNone) then .ok (pts.map fun _ => F.masked)
    else match pair pts is with
      | .error e => .error e
      | .ok l => F.values g g data l

/-- The object knows nothing but the grid `g`; what is remembered of logical coordinates is left
open. -/
structure Faithful (g : G) (o : Obj G T P L) : Prop where
  grid : o.grid = g
  tree : ∀ t, o.tree = some t → F.build g true = .ok t
  coeffs : ∀ c, o.coeffs = some c → c = g
  cells : ∀ p ∈ o.cells, cellsOf F g p.1 = .ok p.2

omit [DecidableEq P] in
theorem faithful_new (g : G) : Faithful F g (new g) :=
  ⟨rfl, by simp [new], by simp [new], by simp [new]⟩

omit [DecidableEq P] in
theorem Faithful.getD {g : G} {o : Obj G T P L} (h : Faithful F g o) : o.coeffs.getD o.grid = g := by
  cases hc : o.coeffs with
  | none => exact h.grid
  | some c => exact h.coeffs c hc

omit [DecidableEq P] in
theorem search_faithful {g : G} {o : Obj G T P L} (h : Faithful F g o) (pts : List P) :
    (search F o pts true).2 = rawOf F g pts ∧ Faithful F g (search F o pts true).1 ∧
      (search F o pts true).1.logicals = o.logicals := by
  have ht : treeOf F o true = F.build g true := by
    unfold treeOf
    cases ht : o.tree with
    | none => simp [h.grid]
    | some t => exact (h.tree t ht).symm
  unfold search rawOf
  rw [ht]
  cases hb : F.build g true with
  | error e => exact ⟨rfl, h, rfl⟩
  | ok t =>
    refine ⟨?_, ⟨h.grid, ?_, h.coeffs, h.cells⟩, rfl⟩
    · simp only [h.grid]
    · intro t' ht'
      cases ht'
      exact hb

theorem locate_faithful {g : G} {o : Obj G T P L} (h : Faithful F g o) (pts : List P) (memo : Bool) :
    (locate F o pts memo true).2 = cellsOf F g pts ∧ Faithful F g (locate F o pts memo true).1 ∧
      (locate F o pts memo true).1.logicals = o.logicals := by
  unfold locate
  cases hL : (if memo then Cache.lookup o.cells pts else none) with
  | some r =>
    cases memo with
    | false => simp at hL
    | true =>
      simp only [if_true] at hL
      exact ⟨(h.cells _ (Cache.lookup_mem hL)).symm, h, rfl⟩
  | none =>
    obtain ⟨a, b, c⟩ := search_faithful F h pts
    dsimp only
    rw [a]
    cases hr : rawOf F g pts with
    | error e => exact ⟨by simp only [cellsOf, hr], b, c⟩
    | ok is =>
      refine ⟨by simp only [cellsOf, hr], ?_⟩
      cases memo with
      | false => exact ⟨b, c⟩
      | true =>
        refine ⟨⟨b.grid, b.tree, b.coeffs, fun p hp => ?_⟩, c⟩
        rcases Cache.mem_store .sgrid _ pts (is.map maskMiss) p hp with hp | rfl
        · exact b.cells p hp
        · simp only [cellsOf, hr]

omit [DecidableEq P] in
theorem one_raw (g : G) (p : P) (is : List (Int × Int)) (h : rawOf F g [p] = .ok is) :
    ∃ ij, is = [ij] := by
  unfold rawOf at h
  split at h
  · cases h
  · simp only [mapE] at h
    split at h
    · cases h
    · cases h; exact ⟨_, rfl⟩

theorem locateOne_off {g : G} {o : Obj G T P L} (h : Faithful F g o) (p : P) :
    (locateOne F o p false true).2 = (match rawOf F g [p] with
      | .error e => .error e
      | .ok (ij :: _) => .ok (.one ij)
      | .ok [] => .error .indexError) ∧
      Faithful F g (locateOne F o p false true).1 ∧
      (locateOne F o p false true).1.logicals = o.logicals := by
  obtain ⟨a, b, c⟩ := search_faithful F h [p]
  simp only [locateOne, Bool.false_eq_true, if_false, a]
  exact ⟨rfl, b, c⟩

theorem locateOne_faithful {g : G} {o : Obj G T P L} (h : Faithful F g o) (p : P) (memo : Bool) :
    Faithful F g (locateOne F o p memo true).1 ∧
      (locateOne F o p memo true).1.logicals = o.logicals := by
  unfold locateOne
  cases (if memo then Cache.lookup o.cells [p] else none) with
  | some r => exact ⟨h, rfl⟩
  | none => exact (search_faithful F h [p]).2

/-- What a call with the memory adds: only the answer for these points. -/
theorem logical_faithful {g : G} {o : Obj G T P L} (h : Faithful F g o) (pts : List P)
    (inds : Option (List (Option (Int × Int)))) (memo : Bool) :
    let fresh := match inds with
      | some is => inCells F g pts is
      | none => logicalsOf F g pts
    (memo = false ∨ Cache.lookup o.logicals pts = none →
      (geoToLogical F o pts inds memo).2 = fresh) ∧
    Faithful F g (geoToLogical F o pts inds memo).1 ∧
    (∀ p ∈ (geoToLogical F o pts inds memo).1.logicals,
      p ∈ o.logicals ∨ (memo = true ∧ p.1 = pts ∧ fresh = .ok p.2)) := by
  intro fresh
  unfold geoToLogical
  cases hL : (if memo then Cache.lookup o.logicals pts else none) with
  | some r =>
    cases memo with
    | false => simp at hL
    | true =>
      simp only [if_true] at hL
      refine ⟨fun hh => ?_, h, fun p hp => Or.inl hp⟩
      rcases hh with hh | hh
      · cases hh
      · rw [hL] at hh; cases hh
  | none =>
    have h1 : Faithful F g { o with coeffs := some (o.coeffs.getD o.grid) } :=
      ⟨h.grid, h.tree, fun c hc => by cases hc; exact h.getD, h.cells⟩
    have close : ∀ found : Obj G T P L × Except Err (List (Option (Int × Int))),
        Faithful F g found.1 → found.1.logicals = o.logicals →
        (match found.2 with
          | .error e => .error e
          | .ok is => inCells F g pts is) = fresh →
        let res : Obj G T P L × Except Err (List L) := match found.2 with
          | .error e => (found.1, .error e)
          | .ok is =>
            match pair pts is with
            | .error e => (found.1, .error e)
            | .ok l => match mapE (fun q => F.logical (found.1.coeffs.getD found.1.grid) q.1 q.2) l with
              | .error e => (found.1, .error e)
              | .ok r =>
                (if memo then { found.1 with logicals := Cache.store .sgrid found.1.logicals pts r }
                  else found.1, .ok r)
        res.2 = fresh ∧ Faithful F g res.1 ∧
          ∀ p ∈ res.1.logicals, p ∈ o.logicals ∨ (memo = true ∧ p.1 = pts ∧ fresh = .ok p.2) := by
      rintro ⟨o', r⟩ f1 f2 f3
      dsimp only at f1 f2 f3 ⊢
      have keep : ∀ p ∈ o'.logicals, p ∈ o.logicals ∨ (memo = true ∧ p.1 = pts ∧ fresh = .ok p.2) :=
        fun p hp => Or.inl (f2 ▸ hp)
      cases r with
      | error e => exact ⟨f3, f1, keep⟩
      | ok is =>
        dsimp only at f3 ⊢
        rw [f1.getD]
        unfold inCells at f3
        cases hp : pair pts is with
        | error e => rw [hp] at f3; exact ⟨f3, f1, keep⟩
        | ok l =>
          rw [hp] at f3
          dsimp only at f3 ⊢
          cases hm : mapE (fun q => F.logical g q.1 q.2) l with
          | error e => rw [hm] at f3; exact ⟨f3, f1, keep⟩
          | ok w =>
            rw [hm] at f3
            refine ⟨f3, ?_⟩
            cases memo with
            | false => exact ⟨f1, keep⟩
            | true =>
              refine ⟨⟨f1.grid, f1.tree, f1.coeffs, f1.cells⟩, fun p hp => ?_⟩
              rcases Cache.mem_store .sgrid _ pts w p hp with hp | rfl
              · exact keep p hp
              · exact Or.inr ⟨rfl, rfl, f3.symm⟩
    cases inds with
    | some is =>
      have := close ({ o with coeffs := some (o.coeffs.getD o.grid) }, .ok is) h1 rfl rfl
      exact ⟨fun _ => this.1, this.2⟩
    | none =>
      obtain ⟨a, b, c⟩ := locate_faithful F h1 pts memo
      have := close (locate F { o with coeffs := some (o.coeffs.getD o.grid) } pts memo true) b c
        (by rw [a]; rfl)
      exact ⟨fun _ => this.1, this.2⟩

theorem interpolate_faithful {g : G} {o : Obj G T P L} (h : Faithful F g o) (data : D)
    (pts : List P) (memo : Bool) :
    (interpolate F o data pts memo).2 = valuesOf F g data pts ∧
      Faithful F g (interpolate F o data pts memo).1 ∧
      (interpolate F o data pts memo).1.logicals = o.logicals := by
  obtain ⟨a, b, c⟩ := locate_faithful F h pts memo
  unfold interpolate valuesOf
  dsimp only
  rw [a]
  cases cellsOf F g pts with
  | error e => exact ⟨rfl, b, c⟩
  | ok is =>
    dsimp only
    split
    · exact ⟨rfl, b, c⟩
    · have h1 : Faithful F g { (locate F o pts memo true).1 with
          coeffs := some ((locate F o pts memo true).1.coeffs.getD
            (locate F o pts memo true).1.grid) } :=
        ⟨b.grid, b.tree, fun c hc => by cases hc; exact b.getD, b.cells⟩
      cases pair pts is with
      | error e => exact ⟨rfl, h1, c⟩
      | ok l =>
        refine ⟨?_, h1, c⟩
        dsimp only [Option.getD_some]
        rw [b.getD, b.grid]

end Verif.SMemory
