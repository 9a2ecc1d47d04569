import Verif.Model.Fitter
import Verif.Model.FitHandler
import Mathlib.Data.Matrix.Basic

/-!
# Covariances: fitter.py lines 397-420 and fithandler.py lines 359-476

From the inverse Hessian of the optimisation to the columns of the table of results. Of the table only the columns with
parameters and covariances are kept (the others get one value per window, and their names are not touched here).
`Table(output)` is taken to raise `ValueError` exactly if the columns differ in length. The square root of a negative
number (NaN in numpy) is not modelled.
-/

namespace Verif.Model.CovTable
open Verif.Py Verif.Model.Fitter

/-- `covariance` (fitter.py:399-406): twice the inverse Hessian, scaled if one of the lists of errors was not given. -/
noncomputable def covariance {n : ℕ} (hessInv : Matrix (Fin n) (Fin n) ℝ) (xerr yerr : Option (List ℝ)) (rms : ℝ) :
    Matrix (Fin n) (Fin n) ℝ :=
  let c := (2 : ℝ) • hessInv
  if xerr = none ∨ yerr = none then (rms ^ 2 / 2) • c else c

/-- `"COV.{}.{}".format(a, b)`. -/
def ckey (a b : PyStr) : PyStr := "COV.".toList ++ (a ++ ('.' :: b))

/-- `"ERR.{}".format(a)` (fithandler.py:463). -/
def ekey (a : PyStr) : PyStr := "ERR.".toList ++ a

/-- The pairs with `index2 >= index1` in the order of the double loop (fitter.py:411-416); `i` is the index of the head. -/
def upper (c : ℕ → ℕ → ℝ) : ℕ → List PyStr → List (PyStr × ℝ)
  | _, [] => []
  | i, k :: t => ((k :: t).zipIdx i).map (fun p => (ckey k p.1, c i p.2)) ++ upper c (i + 1) t

/-- `covariance_dict` (fitter.py:410-420). -/
def covDict (free fixed : List PyStr) (c : ℕ → ℕ → ℝ) : Dict PyStr ℝ :=
  update (update [] (upper c 0 free)) (fixed.map fun k => (ckey k k, 0))

/-- What one call of `fit_params` returned. -/
structure Fit where
  params : Dict PyStr ℝ
  cov : Dict PyStr ℝ

/-- `fitted_keys` and `output` (the columns). -/
abbrev St := List PyStr × Dict PyStr (List ℝ)

/-- `output[k].append(v)`. -/
def append (out : Dict PyStr (List ℝ)) (p : PyStr × ℝ) : Except PyErr (Dict PyStr (List ℝ)) :=
  match out.get? p.1 with
  | none => .error .keyError
  | some l => .ok (out.set p.1 (l ++ [p.2]))

def appendAll : Dict PyStr (List ℝ) → List (PyStr × ℝ) → Except PyErr (Dict PyStr (List ℝ))
  | out, [] => .ok out
  | out, p :: l =>
    match append out p with
    | .error e => .error e
    | .ok out' => appendAll out' l

/-- Lines 363-366: the columns of the covariances at the start. -/
def covColumns : List PyStr → List PyStr
  | [] => []
  | k :: t => (k :: t).map (ckey k) ++ covColumns t

/-- Lines 360-366. -/
def start : St := (allKeys, (allKeys ++ covColumns allKeys).map fun k => (k, []))

/-- Lines 398-404: new EPSILON keys. -/
def register (s : St) (k : PyStr) : St :=
  if k ∉ s.1 ∧ isEps k then (s.1 ++ [k], if k ∈ Dict.keys s.2 then s.2 else s.2.set k []) else s

/-- Lines 425-428; the keys of `output` do not change while values are appended. -/
def okey (out : Dict PyStr (List ℝ)) (a b : PyStr) : PyStr := if ckey a b ∈ Dict.keys out then ckey a b else ckey b a

/-- Lines 429-434. -/
def cval (cov : Dict PyStr ℝ) (a b : PyStr) : ℝ :=
  match cov.get? (ckey a b) with
  | some v => v
  | none =>
    match cov.get? (ckey b a) with
    | some v => v
    | none => 0

/-- Lines 406-434: what is appended, in order. -/
def appends (out : Dict PyStr (List ℝ)) (f : Fit) : List PyStr → List (PyStr × ℝ)
  | [] => []
  | k :: t =>
    (k, (f.params.get? k).getD 0) ::
      ((if isEps k then [] else ((k :: t).filter fun b => !isEps b).map fun b => (okey out k b, cval f.cov k b)) ++
        appends out f t)

/-- Lines 398-434 for one window. -/
def oneWindow (s : St) (f : Fit) : Except PyErr St :=
  let s := (Dict.keys f.params).foldl register s
  match appendAll s.2 (appends s.2 f s.1) with
  | .error e => .error e
  | .ok out => .ok (s.1, out)

def windows : St → List Fit → Except PyErr St
  | s, [] => .ok s
  | s, f :: l =>
    match oneWindow s f with
    | .error e => .error e
    | .ok s' => windows s' l

open Classical in
/-- Lines 449-457: columns off the diagonal with only zeros are removed. -/
noncomputable def dropNull (fitted : List PyStr) (t : Dict PyStr (List ℝ)) : Dict PyStr (List ℝ) :=
  t.filter fun c => !decide ((∃ a ∈ fitted, ∃ b ∈ fitted, a ≠ b ∧ c.1 = ckey a b) ∧ ∀ v ∈ c.2, v = 0)

/-- Lines 459-465: variances become errors. -/
noncomputable def toErrors (fitted : List PyStr) (t : Dict PyStr (List ℝ)) : Dict PyStr (List ℝ) :=
  t.map fun c => match fitted.find? fun k => c.1 = ckey k k with
    | some k => (ekey k, c.2.map Real.sqrt)
    | none => c

/-- The keys with a suffix in `output_keys` (lines 23-35); `known` are the EPSILON keys registered so far. -/
def suffixed (known : List PyStr) : List PyStr :=
  ["ANALYSIS_DATE".toList, "FIT_ERROR".toList, "NUM_POINTS_IN_FIT".toList] ++ allKeys ++ known

/-- Lines 359-476. `known`: EPSILON keys in `output_keys` before the call. -/
noncomputable def table (mode : FitHandler.Mode) (known : List PyStr) (fits : List Fit) : Except PyErr (Dict PyStr (List ℝ)) :=
  match windows start fits with
  | .error e => .error e
  | .ok (fitted, out) =>
    let out := out.filter fun c => c.2 ≠ []
    match out with
    | [] => .ok []
    | c :: l =>
      if l.all fun c' => c'.2.length = c.2.length then
        let known' := known ++ (fitted.filter fun k => isEps k && k ∉ known)
        .ok ((toErrors fitted (dropNull fitted out)).map fun c =>
          (FitHandler.rename (FitHandler.suffix mode) (suffixed known') [c.1] |>.headD [], c.2))
      else .error (.sysExit 12)

end Verif.Model.CovTable
