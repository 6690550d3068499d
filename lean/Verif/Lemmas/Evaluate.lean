import Verif.Model.Evaluate
import Verif.Lemmas.At

/-!
# Lemmas for the evaluation of a variable object
-/

set_option autoImplicit false

namespace Verif.Evaluate
open Verif.TimeM Verif.DepthM Verif.At

section
variable {K P σ : Type} [Field K] [DecidableEq K]

theorem timeBody_nil (times : List Int) (f : List Int → Except Err (List (Cell K))) (t : Int)
    (e : Bool) : timeBody times f [] t e = timeStage times (fun i => f [i]) t e := rfl

theorem get_two (d : List (List σ)) (xy : Rest σ → List P → Except Err (List (Cell K))) (i k : Int)
    (ps : List P) :
    read (.two d) xy [i, k] ps = withSlice (fun s ps => xy (.slice s) ps) (slice2 d i k) ps := by
  simp only [read, Lead.get]
  cases slice2 d i k <;> rfl

theorem get_one (d : List σ) (xy : Rest σ → List P → Except Err (List (Cell K))) (i : Int)
    (ps : List P) :
    read (.one d) xy [i] ps = withSlice (fun s ps => xy (.slice s) ps) (Np.pyGet d i) ps := by
  simp only [read, Lead.get]
  cases Np.pyGet d i <;> rfl

variable (v : Variable K P σ) (xy : Rest σ → List P → Except Err (List (Cell K))) (limit : Nat)
  (pts : List P) (t : Int) (e : Bool)

/-- Time, then depth. -/
theorem at_time_depth {d : List (List σ)} {times : List Int} {ds : DepthSys K P} {x : String}
    {rest : List String} (ho : v.ordering = .ok ("time" :: "depth" :: x :: rest)) (hx : x ≠ "time")
    (hd : v.data = .two d) (ht : v.time = some times) (hs : v.depth = .sys ds) :
    at' v xy (limit + 3) pts t e
      = eval (fun s ps => xy (.slice s) ps) times ds (.timeDepth d) pts t e := by
  have h1 : place ("time" :: "depth" :: x :: rest) "time" = .ok (0, "depth") := by
    simp [place, List.findIdx?_cons]
  have h2 : place ("time" :: "depth" :: x :: rest) "depth" = .ok (1, x) := by
    simp [place, List.findIdx?_cons]
  simp only [at', ho, List.getElem?_cons_zero, if_true, stage, h1, ht, h2, hs, hd, Lead.shape,
    List.cons_append, List.getElem?_cons_succ, if_neg hx, timeBody_nil, List.nil_append, eval,
    get_two]

/-- Time only. -/
theorem at_time {d : List σ} {times : List Int} (ds : DepthSys K P) {x : String}
    {rest : List String} (ho : v.ordering = .ok ("time" :: x :: rest)) (hx : x ≠ "depth")
    (hd : v.data = .one d) (ht : v.time = some times) :
    at' v xy (limit + 2) pts t e
      = eval (fun s ps => xy (.slice s) ps) times ds (.time d) pts t e := by
  have h1 : place ("time" :: x :: rest) "time" = .ok (0, x) := by
    simp [place, List.findIdx?_cons]
  simp only [at', ho, List.getElem?_cons_zero, if_true, stage, h1, ht, hd, if_neg hx, timeBody_nil,
    eval, get_one]

/-- Depth only. -/
theorem at_depth {d : List σ} (times : List Int) {ds : DepthSys K P} {x : String}
    {rest : List String} (ho : v.ordering = .ok ("depth" :: x :: rest)) (hx : x ≠ "time")
    (hd : v.data = .one d) (hs : v.depth = .sys ds) :
    at' v xy (limit + 2) pts t e
      = eval (fun s ps => xy (.slice s) ps) times ds (.depth d) pts t e := by
  have h1 : place ("depth" :: x :: rest) "depth" = .ok (0, x) := by
    simp [place, List.findIdx?_cons]
  have h2 : ¬ (("depth" : String) = "time") := by decide
  simp only [at', ho, List.getElem?_cons_zero, if_true, if_neg h2, stage, h1, hs, hd, if_neg hx,
    Lead.shape, List.cons_append, List.nil_append, eval, get_one]

/-- Depth, then time. -/
theorem at_depth_time {d : List (List σ)} {times : List Int} {ds : DepthSys K P} {x : String}
    {rest : List String} (ho : v.ordering = .ok ("depth" :: "time" :: x :: rest)) (hx : x ≠ "depth")
    (hd : v.data = .two d) (ht : v.time = some times) (hs : v.depth = .sys ds) :
    at' v xy (limit + 3) pts t e = depthStage ds d.length
      (fun k ps => timeBody times (fun s => read (.two d) xy s ps) [k] t e) pts := by
  have h1 : place ("depth" :: "time" :: x :: rest) "time" = .ok (1, x) := by
    simp [place, List.findIdx?_cons]
  have h2 : place ("depth" :: "time" :: x :: rest) "depth" = .ok (0, "time") := by
    simp [place, List.findIdx?_cons]
  have h3 : ¬ (("depth" : String) = "time") := by decide
  simp only [at', ho, List.getElem?_cons_zero, if_true, if_neg h3, stage, h1, ht, h2, hs, hd,
    Lead.shape, List.cons_append, if_neg hx, List.nil_append]

/-- Strictly between the ends the slices so far are kept. -/
theorem timeBody_inner {times : List Int} (f : List Int → Except Err (List (Cell K)))
    (pre : List Int) {t lo hi : Int} (e : Bool) (h0 : times.head? = some lo)
    (h1 : times.getLast? = some hi) (hlo : lo < t) (hhi : t < hi) :
    timeBody times f pre t e = timeStage times (fun i => f (pre ++ [i])) t e := by
  have hmin : minTime times = .ok lo := by
    unfold minTime
    rw [List.head?_eq_getElem?] at h0
    exact Np.pyGet_nonneg h0
  have hmax : maxTime times = .ok hi := Np.pyGet_neg_one h1
  have c1 : ¬ (t = lo ∨ (e = true ∧ t < lo)) := by omega
  have c2 : ¬ (t = hi ∨ (e = true ∧ hi < t)) := by omega
  simp only [timeBody, timeStage, hmin, hmax, if_neg c1, if_neg c2]
  rfl

/-- Neither. -/
theorem at_flat {s : σ} {x : String} {rest : List String} (ho : v.ordering = .ok (x :: rest))
    (hx : x ≠ "time") (hx' : x ≠ "depth") (hd : v.data = .zero s) :
    at' v xy (limit + 1) pts t e = xy (.slice s) pts := by
  simp only [at', ho, List.getElem?_cons_zero, if_neg hx, if_neg hx', stage, hd, read, Lead.get]

end

end Verif.Evaluate
