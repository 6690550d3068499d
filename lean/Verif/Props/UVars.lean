import Verif.Model.UVars
import Verif.Spec.UVars
import Verif.Lemmas.Cache
import Verif.Lemmas.Util
import Mathlib.Data.List.Induction
import Mathlib.Algebra.Order.Ring.Rat
import Mathlib.Algebra.Field.Rat
import Mathlib.Tactic.Tauto
import Mathlib.Data.List.TakeWhile

/-!
# Properties of meshes in files, grouped variables, attributes and saved variables: C99 to C102
-/

set_option autoImplicit false

namespace Verif
open Verif.Spec Verif.UVars

/-! ## C99: which mesh is loaded -/

section C99

theorem dropWhile_ws (a w : List Char) (ha : ∀ c ∈ a, c.isWhitespace = true)
    (hw : ∀ c, w.head? = some c → c.isWhitespace = false) :
    (a ++ w).dropWhile Char.isWhitespace = w := by
  induction a with
  | nil =>
    cases w with
    | nil => rfl
    | cons c w =>
      have := hw c rfl
      simp [List.dropWhile, this]
  | cons c a ih =>
    have := ha c (by simp)
    simp only [List.cons_append, List.dropWhile, this]
    exact ih (fun d hd => ha d (List.mem_cons_of_mem _ hd))

theorem split_ws (s : List Char) : ∃ a, (∀ c ∈ a, c.isWhitespace = true) ∧
    s = a ++ s.dropWhile Char.isWhitespace :=
  ⟨s.takeWhile Char.isWhitespace, fun _ hc => List.mem_takeWhile_imp hc,
    (List.takeWhile_append_dropWhile).symm⟩

/-- `strip` gives a word that neither begins nor ends with a blank exactly if the text is that word
between blanks. -/
theorem strip_iff (s w : List Char) (h1 : ∀ c, w.head? = some c → c.isWhitespace = false)
    (h2 : ∀ c, w.reverse.head? = some c → c.isWhitespace = false) (hw : w ≠ []) :
    SText.strip s = w ↔ ∃ a b : List Char, (∀ c ∈ a, c.isWhitespace = true) ∧
      (∀ c ∈ b, c.isWhitespace = true) ∧ s = a ++ w ++ b := by
  constructor
  · intro h
    unfold SText.strip at h
    obtain ⟨a, ha, e1⟩ := split_ws s
    obtain ⟨b, hb, e2⟩ := split_ws (s.dropWhile Char.isWhitespace).reverse
    refine ⟨a, b.reverse, ha, by simpa using hb, ?_⟩
    have e3 : s.dropWhile Char.isWhitespace = w ++ b.reverse := by
      have := congrArg List.reverse e2
      rw [List.reverse_reverse, List.reverse_append, h] at this
      exact this
    rw [List.append_assoc, ← e3]
    exact e1
  · rintro ⟨a, b, ha, hb, rfl⟩
    unfold SText.strip
    rw [List.append_assoc, dropWhile_ws a (w ++ b) ha, List.reverse_append,
      dropWhile_ws b.reverse w.reverse (by simpa using hb) h2, List.reverse_reverse]
    intro c hc
    cases w with
    | nil => exact absurd rfl hw
    | cons d w => exact h1 c hc

theorem isMeshVar_true (v : MeshAttrs) : isMeshVar v = .ok true ↔ IsMeshVar v := by
  have hs : ∀ r : List Char, SText.strip r = "mesh_topology".toList ↔ _ := fun r =>
    strip_iff r "mesh_topology".toList (by decide) (by decide) (by decide)
  unfold isMeshVar IsMeshVar
  cases hr : v.cfRole with
  | none => simp
  | some o =>
    cases o with
    | none => simp
    | some r =>
      simp only [Option.some.injEq]
      rw [← hs r]
      by_cases h : SText.strip r = "mesh_topology".toList
      · rw [if_pos h]
        cases hd : v.dimension with
        | none => simp
        | some d =>
          cases d with
          | error e => simp
          | ok d => simp [h]
      · rw [if_neg h]
        constructor
        · intro h'
          cases h'
        · rintro ⟨h', _⟩
          exact absurd h' h

/-- Dimensions can be read as numbers. -/
def Readable (f : File) : Prop := ∀ n v e, (n, v) ∈ f → v.dimension ≠ some (.error e)

theorem isMeshVar_ok (v : MeshAttrs) (h : ∀ e, v.dimension ≠ some (.error e)) :
    ∃ b, isMeshVar v = .ok b := by
  unfold isMeshVar
  split
  · exact ⟨_, rfl⟩
  · exact ⟨_, rfl⟩
  · split
    · split
      · exact ⟨_, rfl⟩
      · next e he => exact absurd he (h e)
      · exact ⟨_, rfl⟩
    · exact ⟨_, rfl⟩

theorem isValidMesh_true {f : File} (hd : (f.map Prod.fst).Nodup) (n : String) :
    isValidMesh f n = .ok true ↔ MeshNamed f n := by
  unfold isValidMesh MeshNamed
  cases hl : Cache.lookup f n with
  | none =>
    have := Cache.lookup_none.1 hl
    constructor
    · intro h
      simp at h
    · rintro ⟨v, hv, _⟩
      exact absurd (List.mem_map_of_mem hv) this
  | some v =>
    simp only
    rw [isMeshVar_true]
    constructor
    · exact fun h => ⟨v, (Cache.lookup_iff hd).1 hl, h⟩
    · rintro ⟨v', hv', h⟩
      have := (Cache.lookup_iff hd).2 hv'
      rw [hl] at this
      cases this
      exact h

theorem isValidMesh_ok {f : File} (hr : Readable f) (n : String) : ∃ b, isValidMesh f n = .ok b := by
  unfold isValidMesh
  cases hl : Cache.lookup f n with
  | none => exact ⟨_, rfl⟩
  | some v => exact isMeshVar_ok v (fun e => hr n v e (Cache.lookup_mem hl))

theorem findMeshNames_ok {f : File} (hd : (f.map Prod.fst).Nodup) (hr : Readable f) :
    ∀ ns : List String, ns.Nodup → ∃ ms, findMeshNames f ns = .ok ms ∧ ms.Nodup ∧
      ∀ m, m ∈ ms ↔ m ∈ ns ∧ MeshNamed f m
  | [], _ => ⟨[], rfl, by simp, by simp⟩
  | n :: ns, hn => by
    obtain ⟨ms, h1, h2, h3⟩ := findMeshNames_ok hd hr ns (List.nodup_cons.1 hn).2
    obtain ⟨b, hb⟩ := isValidMesh_ok hr n
    have hm := isValidMesh_true hd n
    simp only [findMeshNames, hb, h1]
    refine ⟨_, rfl, ?_, ?_⟩
    · split
      · refine List.nodup_cons.2 ⟨fun h => ?_, h2⟩
        exact (List.nodup_cons.1 hn).1 ((h3 n).1 h).1
      · exact h2
    · intro m
      cases b with
      | true =>
        have hm := hm.1 hb
        simp only [if_true, List.mem_cons, h3]
        constructor
        · rintro (rfl | ⟨h, h'⟩)
          · exact ⟨Or.inl rfl, hm⟩
          · exact ⟨Or.inr h, h'⟩
        · rintro ⟨rfl | h, h'⟩
          · exact Or.inl rfl
          · exact Or.inr ⟨h, h'⟩
      | false =>
        have hm : ¬ MeshNamed f n := fun h => by
          have := hm.2 h
          rw [hb] at this
          cases this
        simp only [Bool.false_eq_true, if_false, h3, List.mem_cons]
        constructor
        · rintro ⟨h, h'⟩
          exact ⟨Or.inr h, h'⟩
        · rintro ⟨rfl | h, h'⟩
          · exact absurd h' hm
          · exact ⟨h, h'⟩

theorem named_mem {f : File} {m : String} (h : MeshNamed f m) : m ∈ f.map Prod.fst := by
  obtain ⟨v, hv, _⟩ := h
  exact List.mem_map_of_mem hv

/-- C99 as claimed: the only mesh is loaded if none is named. -/
def C99_statement : Prop :=
  ∀ (f : File) (m : String), (f.map Prod.fst).Nodup → OnlyMesh f m → meshToLoad f none = .ok m

/-- C99 is false: another variable of that role whose dimension is not a number stops the search. -/
theorem C99_refuted : ¬ C99_statement := by
  intro h
  have := h [("a", ⟨some (some "mesh_topology".toList), some (.error .valueError)⟩),
    ("b", ⟨some (some "mesh_topology".toList), some (.ok 2)⟩)] "b" (by decide) (by
      constructor
      · exact ⟨_, List.mem_cons_of_mem _ (List.mem_cons_self ..), ⟨[], [], by simp, by simp, rfl⟩,
          Or.inr rfl⟩
      · rintro m ⟨v, hv, hm⟩
        simp only [List.mem_cons, List.not_mem_nil, or_false, Prod.mk.injEq] at hv
        rcases hv with ⟨rfl, rfl⟩ | ⟨rfl, rfl⟩
        · rcases hm.2 with h | h <;> simp at h
        · rfl)
  have hc : meshToLoad [("a", ⟨some (some "mesh_topology".toList), some (.error .valueError)⟩),
    ("b", ⟨some (some "mesh_topology".toList), some (.ok 2)⟩)] none = .error .valueError := by
    decide +kernel
  rw [hc] at this
  cases this

/-- Without a name the only mesh is loaded, and `ValueError` raised if there is none or more than
one. Missing: files with dimensions that are not numbers, for which this is false. -/
theorem C99_unnamed_partial (f : File) (hd : (f.map Prod.fst).Nodup) (hr : Readable f) :
    (∀ m, meshToLoad f none = .ok m ↔ OnlyMesh f m) ∧
    ((¬ ∃ m, OnlyMesh f m) → meshToLoad f none = .error .valueError) := by
  obtain ⟨ms, h1, h2, h3⟩ := findMeshNames_ok hd hr (f.map Prod.fst) hd
  have h3 : ∀ m, m ∈ ms ↔ MeshNamed f m := fun m =>
    ⟨fun h => ((h3 m).1 h).2, fun h => (h3 m).2 ⟨named_mem h, h⟩⟩
  unfold meshToLoad
  rw [h1]
  match ms, h2, h3 with
  | [], _, h3 =>
    refine ⟨fun m => ⟨fun h => (by cases h), fun h => ?_⟩, fun _ => rfl⟩
    exact absurd ((h3 m).2 h.1) (by simp)
  | [a], _, h3 =>
    have ho : OnlyMesh f a := ⟨(h3 a).1 (by simp), fun m hm => by simpa using (h3 m).2 hm⟩
    refine ⟨fun m => ⟨fun h => ?_, fun h => ?_⟩, fun h => absurd ⟨a, ho⟩ h⟩
    · cases h
      exact ho
    · rw [h.2 a ho.1]
  | a :: b :: ms, h2, h3 =>
    refine ⟨fun m => ⟨fun h => (by cases h), fun h => ?_⟩, fun _ => rfl⟩
    have e1 := h.2 a ((h3 a).1 (by simp))
    have e2 := h.2 b ((h3 b).1 (by simp))
    subst e1
    rw [e2] at h2
    simp at h2

/-- A mesh asked for by name is loaded whatever else is in the file. -/
theorem C99_named (f : File) (hd : (f.map Prod.fst).Nodup) (n : String) :
    (meshToLoad f (some n) = .ok n ↔ MeshNamed f n) ∧
    (∀ m, meshToLoad f (some n) = .ok m → m = n) ∧
    (¬ MeshNamed f n → (∀ v e, (n, v) ∈ f → v.dimension ≠ some (.error e)) →
      meshToLoad f (some n) = .error .valueError) := by
  have hm := isValidMesh_true hd n
  unfold meshToLoad
  rw [← hm]
  cases hv : isValidMesh f n with
  | error e =>
    refine ⟨by simp [hv], by simp [hv], fun _ hr => ?_⟩
    exfalso
    unfold isValidMesh at hv
    cases hl : Cache.lookup f n with
    | none => rw [hl] at hv; cases hv
    | some v =>
      rw [hl] at hv
      obtain ⟨b, hb⟩ := isMeshVar_ok v (fun e => hr v e (Cache.lookup_mem hl))
      simp only [hb] at hv
      cases hv
  | ok b => cases b <;> simp [hv]

/-- Non-vacuity: a file with a mesh among other variables, and one with two. -/
example : let f : File := [("lon", ⟨none, none⟩), ("mesh3d", ⟨some (some "mesh_topology".toList), some (.ok 3)⟩),
      ("mesh", ⟨some (some " mesh_topology ".toList), some (.ok 2)⟩)]
    (f.map Prod.fst).Nodup ∧ meshToLoad f none = .ok "mesh" ∧
    meshToLoad f (some "mesh3d") = .error .valueError ∧
    meshToLoad (f ++ [("m1", ⟨some (some "mesh_topology".toList), some (.ok 1)⟩)]) none =
      .error .valueError ∧
    meshToLoad (f ++ [("m1", ⟨some (some "mesh_topology".toList), some (.ok 1)⟩)]) (some "m1") =
      .ok "m1" := by
  decide +kernel

end C99

/-! ## C100: groups of variables -/

section C100
variable {ι ν : Type}

/-- C100, construction: a group is made exactly from two or more sources of one shape and a known
location. -/
theorem C100_made (loc : String) (data : List (Src ι ν)) :
    (∃ g, group loc (some data) = .ok g) ↔
      loc ∈ ["node", "edge", "face", "boundary", "none"] ∧ 2 ≤ data.length ∧
      ∀ a ∈ data, ∀ b ∈ data, a.shape = b.shape := by
  unfold group
  by_cases hl : loc ∈ ["node", "edge", "face", "boundary", "none"]
  · rw [if_pos hl]
    match data with
    | [] => simp
    | [a] => simp
    | a :: b :: ds =>
      simp only [hl, true_and]
      by_cases hs : ((a :: b :: ds).all (fun x => decide (x.shape = a.shape))) = true
      · rw [if_pos hs]
        rw [List.all_eq_true] at hs
        have hs : ∀ x ∈ a :: b :: ds, x.shape = a.shape := fun x hx => by simpa using hs x hx
        refine ⟨fun _ => ⟨by simp, fun x hx y hy => (hs x hx).trans (hs y hy).symm⟩,
          fun _ => ⟨_, rfl⟩⟩
      · rw [if_neg hs]
        constructor
        · rintro ⟨g, hg⟩
          cases hg
        · rintro ⟨_, h⟩
          refine absurd ?_ hs
          rw [List.all_eq_true]
          intro x hx
          simpa using h x hx a (by simp)
  · rw [if_neg hl]
    constructor
    · rintro ⟨g, hg⟩
      cases hg
    · rintro ⟨h, _⟩
      exact absurd h hl

/-- C100 as claimed: a group of sources has distinct names, and reading an item gives its columns
for all sources in it, in order. -/
def C100_statement : Prop :=
  ∀ (str : Nat → String) (loc : String) (data : List (Src Nat Nat)) (g : Group Nat Nat)
    (ops : List (GOp Nat Nat)) (i : Nat) (cs : List Nat), (∀ a b, str a = str b → a = b) →
    group loc (some data) = .ok g → (data.map Src.name).Nodup ∧
    ((getItem str (ops.foldl (gstep str) g) i).2 = .ok cs ↔
      ColumnsOf (contents g.shape data ops) i cs)

/-- A source for examples. -/
def exSrc (name : String) (k : Nat) : Src Nat Nat := ⟨name, [3], fun i => .ok (10 * k + i)⟩

/-- C100 is false: an item read before a variable is added is returned without it afterwards. -/
theorem C100_refuted : ¬ C100_statement := by
  intro h
  have hg : ∃ g, group "node" (some [exSrc "u" 1, exSrc "v" 2]) = .ok g := ⟨_, rfl⟩
  obtain ⟨g, hg⟩ := hg
  have h2 := ((h (fun n => String.ofList (List.replicate n 'x')) "node" [exSrc "u" 1, exSrc "v" 2] g
    [.read 0, .add (exSrc "w" 3)] 0 [10, 20] (by
      intro a b hab
      have := congrArg String.toList hab
      simpa using congrArg List.length this) hg).2).1 (by
      cases hg
      decide +kernel)
  have := h2.length_eq
  cases hg
  revert this
  decide +kernel

/-- Sources of the same name are accepted, and the last of them is read for each. -/
theorem C100_same_name : ∃ g, group "node" (some [exSrc "u" 1, exSrc "u" 2]) = .ok g ∧
    (getItem (fun _ => "") g 0).2 = .ok [20, 20] := ⟨_, rfl, by decide +kernel⟩

theorem foldl_assign_lookup (l : List (Src ι ν)) (a : List (String × Src ι ν)) (n : String) :
    n ∉ l.map Src.name →
    Cache.lookup (l.foldl (fun a x => Cache.assign a x.name x) a) n = Cache.lookup a n := by
  induction l generalizing a with
  | nil => intro _; rfl
  | cons x l ih =>
    intro h
    simp only [List.map_cons, List.mem_cons, not_or] at h
    rw [List.foldl_cons, ih _ h.2, Cache.lookup_assign_ne _ _ _ _ (Ne.symm h.1)]

theorem foldl_assign_self (l : List (Src ι ν)) (a : List (String × Src ι ν))
    (hn : (l.map Src.name).Nodup) (s : Src ι ν) (hs : s ∈ l) :
    Cache.lookup (l.foldl (fun a x => Cache.assign a x.name x) a) s.name = some s := by
  induction l generalizing a with
  | nil => cases hs
  | cons x l ih =>
    simp only [List.map_cons, List.nodup_cons] at hn
    rw [List.foldl_cons]
    rcases List.mem_cons.1 hs with rfl | hs
    · rw [foldl_assign_lookup _ _ _ hn.1, Cache.lookup_assign_self]
    · exact ih _ hn.2 hs

/-- The group holds these sources. -/
def Holds (g : Group ι ν) (srcs : List (Src ι ν)) : Prop :=
  g.members = srcs.map Src.name ∧ (srcs.map Src.name).Nodup ∧
  ∀ s ∈ srcs, Cache.lookup g.attrs s.name = some s

theorem columns_iff (g : Group ι ν) (i : ι) : ∀ (srcs : List (Src ι ν)),
    (∀ s ∈ srcs, Cache.lookup g.attrs s.name = some s) → ∀ cs,
    (columns g i (srcs.map Src.name) = .ok cs ↔ ColumnsOf srcs i cs)
  | [], _, cs => by
    simp only [columns, List.map_nil, ColumnsOf]
    constructor
    · intro h
      cases h
      exact .nil
    · intro h
      cases h
      rfl
  | s :: srcs, h, cs => by
    have ih := columns_iff g i srcs (fun x hx => h x (List.mem_cons_of_mem _ hx))
    simp only [List.map_cons, columns, h s (by simp)]
    cases hs : s.get i with
    | error e =>
      constructor
      · intro h'
        cases h'
      · intro h'
        cases h' with
        | cons h1 _ => rw [hs] at h1; cases h1
    | ok c =>
      simp only
      cases hc : columns g i (srcs.map Src.name) with
      | error e =>
        constructor
        · intro h'
          cases h'
        · intro h'
          cases h' with
          | cons _ h2 =>
            have := (ih _).2 h2
            rw [hc] at this
            cases this
      | ok cs' =>
        constructor
        · intro h'
          cases h'
          exact .cons hs ((ih _).1 hc)
        · intro h'
          cases h' with
          | cons h1 h2 =>
            have := (ih _).2 h2
            rw [hc] at this
            cases this
            rw [hs] at h1
            cases h1
            rfl

/-- Cached items are what the sources give. -/
def CacheTrue (str : ι → String) (g : Group ι ν) : Prop :=
  ∀ i cs, Cache.lookup g.cache (str i) = some cs → columns g i g.members = .ok cs

theorem lookup_tail_nodup {κ ν : Type} [DecidableEq κ] (d : List (κ × ν)) (k : κ) (v : ν)
    (hn : (d.map Prod.fst).Nodup) (h : Cache.lookup d.tail k = some v) : Cache.lookup d k = some v := by
  cases d with
  | nil => exact h
  | cons p t =>
    obtain ⟨a, b⟩ := p
    simp only [List.map_cons, List.nodup_cons] at hn
    simp only [List.tail_cons] at h
    have : k ∈ t.map Prod.fst := List.mem_map_of_mem (Cache.lookup_mem h)
    have hne : a ≠ k := fun e => hn.1 (e ▸ this)
    simp only [Cache.lookup, if_neg hne]
    exact h

theorem assign_keys {κ ν : Type} [DecidableEq κ] (d : List (κ × ν)) (k : κ) (v : ν) :
    (Cache.assign d k v).map Prod.fst = if k ∈ d.map Prod.fst then d.map Prod.fst
      else d.map Prod.fst ++ [k] := by
  induction d with
  | nil => simp [Cache.assign]
  | cons p t ih =>
    obtain ⟨a, b⟩ := p
    simp only [Cache.assign]
    by_cases h : a = k
    · simp [h]
    · rw [if_neg h]
      simp only [List.map_cons, List.mem_cons, ih]
      by_cases h' : k ∈ t.map Prod.fst
      · simp [h']
      · simp [h', Ne.symm h]

theorem assign_nodup {κ ν : Type} [DecidableEq κ] (d : List (κ × ν)) (k : κ) (v : ν)
    (hn : (d.map Prod.fst).Nodup) : ((Cache.assign d k v).map Prod.fst).Nodup := by
  rw [assign_keys]
  split
  · exact hn
  · next h =>
    rw [List.nodup_append]
    refine ⟨hn, by simp, ?_⟩
    rintro a ha b hb rfl
    rw [List.mem_singleton] at hb
    exact h (hb ▸ ha)

theorem getItem_keeps (str : ι → String) (hstr : ∀ a b, str a = str b → a = b) (g : Group ι ν)
    (i : ι) (hc : CacheTrue str g) (hn : (g.cache.map Prod.fst).Nodup) :
    (getItem str g i).2 = columns g i g.members ∧
    ((getItem str g i).1.members = g.members ∧ (getItem str g i).1.attrs = g.attrs ∧
      (getItem str g i).1.shape = g.shape) ∧
    CacheTrue str (getItem str g i).1 ∧ ((getItem str g i).1.cache.map Prod.fst).Nodup := by
  unfold getItem
  cases hl : Cache.lookup g.cache (str i) with
  | some cs => exact ⟨(hc i cs hl).symm, ⟨rfl, rfl, rfl⟩, hc, hn⟩
  | none =>
    cases hcol : columns g i g.members with
    | error e => exact ⟨rfl, ⟨rfl, rfl, rfl⟩, hc, hn⟩
    | ok cs =>
      have hcols : ∀ (c' : List (String × List ν)) j ns,
          columns { g with cache := c' } j ns = columns g j ns := by
        intro c' j ns
        induction ns with
        | nil => rfl
        | cons n ns ih => simp only [columns, ih]
      have hnod : ((Cache.assign g.cache (str i) cs).map Prod.fst).Nodup := assign_nodup _ _ _ hn
      refine ⟨rfl, ⟨rfl, rfl, rfl⟩, ?_, ?_⟩
      · intro j ds hj
        simp only [hcols]
        have hj' : Cache.lookup (Cache.assign g.cache (str i) cs) (str j) = some ds := by
          simp only [Cache.store, Cache.storePopAfter] at hj
          split at hj
          · exact lookup_tail_nodup _ _ _ hnod hj
          · exact hj
        by_cases hij : str i = str j
        · have := hstr _ _ hij
          subst this
          rw [Cache.lookup_assign_self] at hj'
          cases hj'
          exact hcol
        · rw [Cache.lookup_assign_ne _ _ _ _ hij] at hj'
          exact hc j ds hj'
      · simp only [Cache.store, Cache.storePopAfter]
        split
        · rw [List.map_tail]
          exact hnod.sublist (List.tail_sublist _)
        · exact hnod

theorem adds_hold (str : ι → String) (vs : List (Src ι ν)) :
    ∀ (g : Group ι ν) (srcs : List (Src ι ν)), Holds g srcs → g.cache = [] →
    ∃ g', (vs.map GOp.add).foldl (gstep str) g = g' ∧
      Holds g' (contents g.shape srcs (vs.map GOp.add)) ∧ g'.cache = [] := by
  induction vs with
  | nil => exact fun g srcs h hc => ⟨g, rfl, h, hc⟩
  | cons v vs ih =>
    intro g srcs h hc
    obtain ⟨h1, h2, h3⟩ := h
    simp only [List.map_cons, List.foldl_cons, contents, gstep, addVar]
    rw [h1]
    by_cases hs : v.shape = g.shape
    · by_cases hn : v.name ∈ srcs.map Src.name
      · simp only [hs, hn, ne_eq, not_true_eq_false, if_false, if_true, and_false]
        exact ih g srcs ⟨h1, h2, h3⟩ hc
      · simp only [hs, hn, ne_eq, not_true_eq_false, if_false, not_false_eq_true, and_self, if_true]
        refine ih ⟨g.shape, srcs.map Src.name ++ [v.name], Cache.assign g.attrs v.name v, g.cache⟩
          (srcs ++ [v]) ⟨by simp, ?_, ?_⟩ hc
        · rw [List.map_append, List.nodup_append]
          refine ⟨h2, by simp, ?_⟩
          rintro a ha b hb rfl
          simp only [List.map_cons, List.map_nil, List.mem_singleton] at hb
          exact hn (hb ▸ ha)
        · intro s hs'
          rcases List.mem_append.1 hs' with hs' | hs'
          · have hne : v.name ≠ s.name := fun e => hn (e ▸ List.mem_map_of_mem hs')
            show Cache.lookup (Cache.assign g.attrs v.name v) s.name = some s
            rw [Cache.lookup_assign_ne _ _ _ _ hne]
            exact h3 s hs'
          · rw [List.mem_singleton] at hs'
            subst hs'
            exact Cache.lookup_assign_self _ _ _
    · have hs' : ¬ (v.shape = g.shape ∧ v.name ∉ srcs.map Src.name) := fun h => hs h.1
      rw [if_pos hs, if_neg hs']
      exact ih g srcs ⟨h1, h2, h3⟩ hc

theorem reads_keep (str : ι → String) (hstr : ∀ a b, str a = str b → a = b) (rs : List ι) :
    ∀ (g : Group ι ν) (srcs : List (Src ι ν)), Holds g srcs → CacheTrue str g →
      (g.cache.map Prod.fst).Nodup →
    Holds ((rs.map GOp.read).foldl (gstep str) g) srcs ∧
      CacheTrue str ((rs.map GOp.read).foldl (gstep str) g) ∧
      (((rs.map GOp.read).foldl (gstep str) g).cache.map Prod.fst).Nodup := by
  induction rs with
  | nil => exact fun g srcs h hc hn => ⟨h, hc, hn⟩
  | cons i rs ih =>
    intro g srcs h hc hn
    obtain ⟨_, ⟨k1, k2, _⟩, k4, k5⟩ := getItem_keeps str hstr g i hc hn
    simp only [List.map_cons, List.foldl_cons, gstep]
    refine ih _ srcs ⟨?_, h.2.1, ?_⟩ k4 k5
    · rw [k1]
      exact h.1
    · rw [k2]
      exact h.2.2

/-- C100 where it holds: sources of distinct names, all added before the first item is read; items
are told apart by their text. Missing: reading before adding and equal names, for which the claim is
false. -/
theorem C100_read_partial (str : ι → String) (hstr : ∀ a b, str a = str b → a = b) (loc : String)
    (data vs : List (Src ι ν)) (rs : List ι) (g : Group ι ν)
    (hg : group loc (some data) = .ok g) (hn : (data.map Src.name).Nodup) (i : ι) (cs : List ν) :
    (getItem str ((vs.map GOp.add ++ rs.map GOp.read).foldl (gstep str) g) i).2 = .ok cs ↔
      ColumnsOf (contents g.shape data (vs.map GOp.add)) i cs := by
  have h0 : Holds g data ∧ g.cache = [] := by
    unfold group at hg
    split at hg
    · split at hg
      · cases hg
      · cases hg
      · cases hg
      · next d ds _ he =>
        cases he
        split at hg
        · cases hg
          exact ⟨⟨rfl, hn, fun s hs => foldl_assign_self _ _ hn s hs⟩, rfl⟩
        · cases hg
    · cases hg
  rw [List.foldl_append]
  obtain ⟨g', h1, h2, h3⟩ := adds_hold str vs g data h0.1 h0.2
  rw [h1]
  obtain ⟨k1, k2, k3⟩ := reads_keep str hstr rs g' _ h2
    (by intro j ds hj; rw [h3] at hj; cases hj) (by rw [h3]; simp)
  obtain ⟨e, _⟩ := getItem_keeps str hstr _ i k2 k3
  rw [e, k1.1]
  exact columns_iff _ i _ k1.2.2 cs

/-- Non-vacuity: a third source added, another refused for its name; two items read. -/
example : ∃ g, group "node" (some [exSrc "u" 1, exSrc "v" 2]) = .ok g ∧
    ([exSrc "u" 1, exSrc "v" 2].map Src.name).Nodup ∧
    (getItem (fun n => String.ofList (List.replicate n 'x'))
      (([exSrc "w" 3, exSrc "u" 4].map GOp.add ++ [0, 1, 0].map GOp.read).foldl
        (gstep (fun n => String.ofList (List.replicate n 'x'))) g) 0).2 = .ok [10, 20, 30] :=
  ⟨_, rfl, by decide, by decide +kernel⟩

end C100

/-! ## C101: attributes -/

section C101

/-- C101 as claimed: what the caller passed is not changed. -/
def C101_statement : Prop :=
  ∀ given nc : Option (List (String × String)), (takeAttrs given nc).2 = given

/-- C101 is false: the dictionary passed becomes that of the variable, and the attributes of the data
are written into it. -/
theorem C101_refuted : ¬ C101_statement := by
  intro h
  exact absurd (h (some [("units", "m")]) (some [("units", "cm"), ("long_name", "depth")]))
    (by decide +kernel)

/-- Only netCDF data have this effect. -/
theorem C101_unchanged_partial (given : Option (List (String × String))) :
    (takeAttrs given none).2 = given ∧ (takeAttrs given (some [])).2 = given := by
  cases given <;> exact ⟨rfl, rfl⟩

/-- The variable has every attribute of its data, and those given that its data do not have. -/
theorem C101_attributes (given nc : List (String × String)) (hn : (nc.map Prod.fst).Nodup)
    (k v : String) :
    Cache.lookup (takeAttrs (some given) (some nc)).1 k = some v ↔
      (k, v) ∈ nc ∨ (k ∉ nc.map Prod.fst ∧ Cache.lookup given k = some v) := by
  simp only [takeAttrs, Option.getD_some]
  have : ∀ (l base : List (String × String)), (l.map Prod.fst).Nodup →
      (Cache.lookup (l.foldl (fun a kv => Cache.assign a kv.1 kv.2) base) k = some v ↔
      (k, v) ∈ l ∨ (k ∉ l.map Prod.fst ∧ Cache.lookup base k = some v)) := by
    intro l
    induction l with
    | nil => intro base _; simp
    | cons p l ih =>
      intro base hn
      simp only [List.map_cons, List.nodup_cons] at hn
      rw [List.foldl_cons, ih _ hn.2]
      by_cases hk : p.1 = k
      · subst hk
        rw [Cache.lookup_assign_self]
        have h1 : (p.1, v) ∉ l := fun h => hn.1 (List.mem_map.2 ⟨_, h, rfl⟩)
        simp only [h1, false_or, List.mem_cons, List.map_cons, true_or, not_true_eq_false,
          false_and, or_false]
        constructor
        · rintro ⟨_, h⟩
          cases h
          rfl
        · intro h
          exact ⟨hn.1, by rw [← h]⟩
      · rw [Cache.lookup_assign_ne _ _ _ _ hk]
        have h1 : (k, v) ≠ p := fun h => hk (by rw [← h])
        simp only [List.mem_cons, h1, false_or, List.map_cons, not_or, Ne.symm hk,
          not_false_eq_true, true_and]
  exact this nc given hn

/-- Without a dictionary the variable has just the attributes of its data, in a new one. -/
theorem C101_none (nc : List (String × String)) (hn : (nc.map Prod.fst).Nodup) (k v : String) :
    (Cache.lookup (takeAttrs none (some nc)).1 k = some v ↔ (k, v) ∈ nc) ∧
    (takeAttrs none (some nc)).2 = none := by
  refine ⟨?_, rfl⟩
  have := C101_attributes [] nc hn k v
  simp only [Cache.lookup, reduceCtorEq, and_false, or_false] at this
  exact this

/-- Non-vacuity: units of the data, a comment of the caller. -/
example : (takeAttrs (some [("units", "m"), ("comment", "x")]) (some [("units", "cm")])).1 =
    [("units", "cm"), ("comment", "x")] := by decide +kernel

end C101

/-! ## C102: saving variables -/

section C102
variable {K : Type}

/-- The part of a grid that a location names: its number of elements. -/
def PartSize (g : UIO.UGrid K) (loc : String) (n : Nat) : Prop :=
  (loc = "node" ∧ n = g.nodes.length) ∨ (loc = "face" ∧ ∃ t, g.faces = some t ∧ n = t.length) ∨
  (loc = "edge" ∧ ∃ t, g.edges = some t ∧ n = t.length) ∨
  (loc = "boundary" ∧ ∃ t, g.boundaries = some t ∧ n = t.length)

/-- The variable in the file is the variable saved: on the dimension of its location, with its data,
its location, the name of the mesh and its own attributes. -/
def SavedAs (mesh : String) (v : SVar K) (loc : String) (o : OutVar K) : Prop :=
  o.name = v.name ∧ o.dim = mesh ++ "_num_" ++ loc ∧ o.data = v.data ∧
  Cache.lookup o.attrs "location" = some loc ∧ Cache.lookup o.attrs "mesh" = some mesh ∧
  ∀ k x, (k, x) ∈ v.attrs → k ≠ "location" → k ≠ "mesh" → Cache.lookup o.attrs k = some x

/-- C102 as claimed: a variable whose data fit its part of the grid is saved. -/
def C102_statement : Prop :=
  ∀ (mesh : String) (g : UIO.UGrid ℚ) (used : List String) (v : SVar ℚ) (loc : String) (n : Nat),
    v.location = some loc → PartSize g loc n → v.shape = [n] → v.name ∉ used →
    (v.attrs.map Prod.fst).Nodup →
    ∃ o, saveVar mesh g used v = .ok o ∧ SavedAs mesh v loc o

/-- C102 is false: a variable that comes with a fill value can not be saved. -/
theorem C102_refuted : ¬ C102_statement := by
  intro h
  obtain ⟨o, ho, _⟩ := h "mesh" { nodes := [(0, 0), (1, 0)] } []
    ⟨"u", some "node", [2], [5, 6], [("_FillValue", "-999")]⟩ "node" 2 rfl (Or.inl ⟨rfl, rfl⟩) rfl
    (by simp) (by simp)
  have : saveVar "mesh" { nodes := [((0 : ℚ), (0 : ℚ)), (1, 0)] } []
    ⟨"u", some "node", [2], [5, 6], [("_FillValue", "-999")]⟩ = .error .attributeError := by
    decide +kernel
  rw [this] at ho
  cases ho

/-- And a variable read from a file is saved with the mesh it had there. -/
theorem C102_refuted_mesh : saveVar "mesh" { nodes := [((0 : ℚ), (0 : ℚ)), (1, 0)] } []
      ⟨"u", some "node", [2], [5, 6], [("mesh", "fvcom_mesh"), ("coordinates", "lon lat")]⟩ =
    .ok ⟨"u", "mesh_num_node", [5, 6],
      [("location", "node"), ("mesh", "fvcom_mesh"), ("coordinates", "lon lat")]⟩ := by
  decide +kernel

theorem place_ok (mesh : String) (g : UIO.UGrid K) (loc : String) (n : Nat) (h : PartSize g loc n) :
    ∃ c, place mesh g (some loc) = .ok (mesh ++ "_num_" ++ loc, n, c) := by
  rcases h with ⟨rfl, rfl⟩ | ⟨rfl, t, ht, rfl⟩ | ⟨rfl, t, ht, rfl⟩ | ⟨rfl, t, ht, rfl⟩
  · have : mesh ++ "_num_" ++ "node" = mesh ++ "_num_node" := by
      rw [String.append_assoc]; rfl
    rw [this]
    exact ⟨_, rfl⟩
  · simp [place, ht]
  · simp [place, ht]
  · simp [place, ht]

theorem setAttrs_ok : ∀ (l base : List (String × String)), "_FillValue" ∉ l.map Prod.fst →
    setAttrs base l = .ok (l.foldl (fun a kv => Cache.assign a kv.1 kv.2) base)
  | [], base, _ => rfl
  | kv :: l, base, h => by
    simp only [List.map_cons, List.mem_cons, not_or] at h
    simp only [setAttrs, if_neg (Ne.symm h.1), List.foldl_cons]
    exact setAttrs_ok l _ h.2

theorem foldl_lookup_other (k : String) : ∀ (l base : List (String × String)),
    k ∉ l.map Prod.fst → Cache.lookup (l.foldl (fun a kv => Cache.assign a kv.1 kv.2) base) k =
      Cache.lookup base k
  | [], _, _ => rfl
  | kv :: l, base, h => by
    simp only [List.map_cons, List.mem_cons, not_or] at h
    rw [List.foldl_cons, foldl_lookup_other k l _ h.2, Cache.lookup_assign_ne _ _ _ _ (Ne.symm h.1)]

theorem foldl_lookup_own (k x : String) : ∀ (l base : List (String × String)),
    (l.map Prod.fst).Nodup → (k, x) ∈ l →
    Cache.lookup (l.foldl (fun a kv => Cache.assign a kv.1 kv.2) base) k = some x
  | [], _, _, h => by cases h
  | kv :: l, base, hn, h => by
    simp only [List.map_cons, List.nodup_cons] at hn
    rw [List.foldl_cons]
    rcases List.mem_cons.1 h with rfl | h
    · rw [foldl_lookup_other _ _ _ hn.1, Cache.lookup_assign_self]
    · exact foldl_lookup_own k x l _ hn.2 h

/-- C102 where it holds: the variable has no fill value, and no location and mesh among its own
attributes. Missing: variables that have, for which the claim is false. -/
theorem C102_saved_partial (mesh : String) (g : UIO.UGrid K) (used : List String) (v : SVar K)
    (loc : String) (n : Nat) (hl : v.location = some loc) (hp : PartSize g loc n)
    (hs : v.shape = [n]) (hu : v.name ∉ used) (hn : (v.attrs.map Prod.fst).Nodup)
    (hf : "_FillValue" ∉ v.attrs.map Prod.fst) (hloc : "location" ∉ v.attrs.map Prod.fst)
    (hm : "mesh" ∉ v.attrs.map Prod.fst) :
    ∃ o, saveVar mesh g used v = .ok o ∧ SavedAs mesh v loc o := by
  obtain ⟨c, hc⟩ := place_ok mesh g loc n hp
  unfold saveVar
  rw [hl, hc]
  simp only [if_neg hu, hs, List.prod_cons, List.prod_nil, mul_one, ne_eq, not_true_eq_false,
    if_false, setAttrs_ok _ _ hf]
  refine ⟨_, rfl, rfl, rfl, rfl, ?_, ?_, fun k x hk _ _ => foldl_lookup_own _ _ _ _ hn hk⟩
  · rw [foldl_lookup_other _ _ _ hloc]
    simp [Cache.lookup]
  · rw [foldl_lookup_other _ _ _ hm]
    simp [Cache.lookup]

/-- The coordinates held for a part of the grid. -/
def PointsAt (g : UIO.UGrid K) (loc : String) (c : Option (List (K × K))) : Prop :=
  (loc = "node" ∧ c = some g.nodes) ∨ (loc = "face" ∧ c = g.faceCoords) ∨
  (loc = "edge" ∧ c = g.edgeCoords) ∨ (loc = "boundary" ∧ c = g.boundaryCoords)

/-- A saved variable names the coordinates of its part of the grid exactly if the grid has them,
unless it has such an attribute of its own. -/
theorem C102_coordinates (mesh : String) (g : UIO.UGrid K) (used : List String) (v : SVar K)
    (loc : String) (hl : v.location = some loc) (c : Option (List (K × K)))
    (hc : PointsAt g loc c) (o : OutVar K) (h : saveVar mesh g used v = .ok o)
    (ha : "coordinates" ∉ v.attrs.map Prod.fst) :
    Cache.lookup o.attrs "coordinates" = c.map fun _ =>
      mesh ++ "_" ++ loc ++ "_lon " ++ mesh ++ "_" ++ loc ++ "_lat" := by
  have hp : ∃ dim n, place mesh g (some loc) = .ok (dim, n, c.map fun _ =>
      mesh ++ "_" ++ loc ++ "_lon " ++ mesh ++ "_" ++ loc ++ "_lat") := by
    unfold saveVar at h
    rw [hl] at h
    rcases hc with ⟨rfl, rfl⟩ | ⟨rfl, rfl⟩ | ⟨rfl, rfl⟩ | ⟨rfl, rfl⟩
    · exact ⟨_, _, rfl⟩
    · cases ht : g.faces with
      | none => simp [place, ht] at h
      | some t => cases hq : g.faceCoords <;>
          exact ⟨mesh ++ "_num_" ++ "face", t.length, by simp [place, ht, hq]⟩
    · cases ht : g.edges with
      | none => simp [place, ht] at h
      | some t => cases hq : g.edgeCoords <;>
          exact ⟨mesh ++ "_num_" ++ "edge", t.length, by simp [place, ht, hq]⟩
    · cases ht : g.boundaries with
      | none => simp [place, ht] at h
      | some t => cases hq : g.boundaryCoords <;>
          exact ⟨mesh ++ "_num_" ++ "boundary", t.length, by simp [place, ht, hq]⟩
  obtain ⟨dim, n, hp⟩ := hp
  unfold saveVar at h
  rw [hl, hp] at h
  by_cases hf : "_FillValue" ∈ v.attrs.map Prod.fst
  · exfalso
    have bad : ∀ (l base : List (String × String)), "_FillValue" ∈ l.map Prod.fst →
        ∀ a, setAttrs base l ≠ .ok a := by
      intro l
      induction l with
      | nil => intro base h; cases h
      | cons kv l ih =>
        intro base h a
        simp only [setAttrs]
        split
        · exact nofun
        · rename_i hk
          refine ih _ ?_ a
          simp only [List.map_cons, List.mem_cons] at h
          exact h.resolve_left fun e => hk e.symm
    simp only at h
    split at h
    · cases h
    · split at h
      · cases h
      · split at h
        · cases h
        · rename_i hs
          exact bad _ _ hf _ hs
  · simp only [setAttrs_ok _ _ hf] at h
    split at h
    · cases h
    · split at h
      · cases h
      · cases h
        rw [foldl_lookup_other _ _ _ ha]
        cases c <;> simp [Cache.lookup]

example :
    let g : UIO.UGrid ℚ :=
      { nodes := [(0, 0), (1, 0), (1, 1)], faces := some [[0, 1, 2]], edges := some [[0, 1]],
        faceCoords := some [(2/3, 1/3)] }
    PointsAt g "edge" none ∧ saveVar "m" g [] ⟨"h", some "edge", [1], [7], [("units", "m")]⟩ =
      .ok ⟨"h", "m_num_edge", [7], [("location", "edge"), ("mesh", "m"), ("units", "m")]⟩ :=
  ⟨Or.inr (Or.inr (Or.inl ⟨rfl, rfl⟩)), by decide +kernel⟩

/-- Variables of an unknown or no location, on a part that is not there, of a name in use, or of
data that do not fit raise. -/
theorem C102_refused (mesh : String) (g : UIO.UGrid K) (used : List String) (v : SVar K) :
    (v.location ∉ [some "node", some "face", some "edge", some "boundary"] →
      saveVar mesh g used v = .error .valueError) ∧
    (∀ loc n, v.location = some loc → PartSize g loc n → v.name ∈ used →
      saveVar mesh g used v = .error .runtimeError) ∧
    (∀ loc n, v.location = some loc → PartSize g loc n → v.name ∉ used → v.shape.prod ≠ n →
      saveVar mesh g used v = .error .indexError ∨ saveVar mesh g used v = .error .valueError) := by
  refine ⟨fun h => ?_, fun loc n hl hp hu => ?_, fun loc n hl hp hu hs => ?_⟩
  · simp only [List.mem_cons, List.not_mem_nil, or_false, not_or] at h
    simp only [saveVar, place, if_neg h.1, if_neg h.2.1, if_neg h.2.2.1, if_neg h.2.2.2]
  · obtain ⟨c, hc⟩ := place_ok mesh g loc n hp
    simp only [saveVar, hl, hc, if_pos hu]
  · obtain ⟨c, hc⟩ := place_ok mesh g loc n hp
    simp only [saveVar, hl, hc, if_neg hu, ne_eq, hs, not_false_eq_true, if_true]
    split
    · exact Or.inl rfl
    · exact Or.inr rfl

/-- In particular data with several times can not be saved, whatever the grid. -/
theorem C102_refuted_time (mesh : String) (g : UIO.UGrid K) (used : List String) (v : SVar K)
    (loc : String) (n nt : Nat) (hl : v.location = some loc) (hp : PartSize g loc n)
    (hu : v.name ∉ used) (hs : v.shape = [nt, n]) (ht : 2 ≤ nt) (hn : 0 < n) :
    saveVar mesh g used v = .error .valueError := by
  obtain ⟨c, hc⟩ := place_ok mesh g loc n hp
  have : ¬ (nt * n = n) := by
    intro h
    have : 2 * n ≤ nt * n := Nat.mul_le_mul_right n ht
    omega
  simp only [saveVar, hl, hc, if_neg hu, hs, List.prod_cons, List.prod_nil, mul_one, ne_eq, this,
    not_false_eq_true, if_true, List.length_cons, List.length_nil]
  simp

/-- All variables are saved, in order, if each can be and their names differ. -/
theorem C102_all_partial (mesh : String) (g : UIO.UGrid K) (vs : List (SVar K)) :
    ∀ used : List String, (vs.map SVar.name).Nodup →
    (∀ v ∈ vs, v.name ∉ used ∧ ∃ loc n, v.location = some loc ∧ PartSize g loc n ∧ v.shape = [n] ∧
      (v.attrs.map Prod.fst).Nodup ∧ "_FillValue" ∉ v.attrs.map Prod.fst ∧
      "location" ∉ v.attrs.map Prod.fst ∧ "mesh" ∉ v.attrs.map Prod.fst) →
    ∃ os, saveVars mesh g used vs = .ok os ∧
      List.Forall₂ (fun (v : SVar K) o => ∃ loc, v.location = some loc ∧ SavedAs mesh v loc o) vs os := by
  induction vs with
  | nil => exact fun _ _ _ => ⟨[], rfl, .nil⟩
  | cons v vs ih =>
    intro used hn h
    simp only [List.map_cons, List.nodup_cons] at hn
    obtain ⟨hu, loc, n, h1, h2, h3, h4, h5, h6, h7⟩ := h v (by simp)
    obtain ⟨o, ho, hs⟩ := C102_saved_partial mesh g used v loc n h1 h2 h3 hu h4 h5 h6 h7
    obtain ⟨os, hos, hf⟩ := ih (v.name :: used) hn.2 (fun w hw => by
      obtain ⟨a, b⟩ := h w (List.mem_cons_of_mem _ hw)
      refine ⟨?_, b⟩
      simp only [List.mem_cons, not_or]
      exact ⟨fun e => hn.1 (e ▸ List.mem_map_of_mem hw), a⟩)
    exact ⟨o :: os, by simp only [saveVars, ho, hos], .cons ⟨loc, h1, hs⟩ hf⟩

/-- Non-vacuity: a variable on faces with units. -/
example :
    let g : UIO.UGrid ℚ :=
      { nodes := [(0, 0), (1, 0), (1, 1)], faces := some [[0, 1, 2]],
        faceCoords := some [(2/3, 1/3)] }
    PartSize g "face" 1 ∧ saveVar "m" g [] ⟨"h", some "face", [1], [7], [("units", "m")]⟩ =
      .ok ⟨"h", "m_num_face", [7], [("location", "face"), ("mesh", "m"),
        ("coordinates", "m_face_lon m_face_lat"), ("units", "m")]⟩ :=
  ⟨Or.inr (Or.inl ⟨rfl, _, rfl, rfl⟩), by decide +kernel⟩

end C102

end Verif
