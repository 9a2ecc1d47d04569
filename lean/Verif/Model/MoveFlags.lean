import Verif.Py.LinAlg
import Verif.Model.Bitmask

/-!
# Model of `py/desimeter/posparams/flags.py` and of the tables of `posflags_mask.py`
-/

namespace Verif.Model.MoveFlags
open Verif.Py Verif.Model.Bitmask

/-- One measurement: internal theta and phi, measured petal coordinates. -/
structure Pt where
  t : ℝ
  p : ℝ
  x : ℝ
  y : ℝ

/-- `np.std(l)**2`. -/
noncomputable def var (l : List ℝ) : ℝ := mean (l.map fun a => (a - mean l) ^ 2)

/-- Largest of a list (`np.max`), 0 when empty (not used). -/
noncomputable def lmax (l : List ℝ) : ℝ := l.foldl max (l.headD 0)
/-- `np.min`. -/
noncomputable def lmin (l : List ℝ) : ℝ := l.foldl min (l.headD 0)

/-- Lines 38-48: the group of one phi value is tested. -/
noncomputable def isTested (g : List Pt) (val : ℝ) : Bool :=
  if g.length < 4 then false
  else if val > 160 then false
  else if lmax (g.map (·.t)) - lmin (g.map (·.t)) < 20 then false
  else true

/-- `rms_xy` (line 51). -/
noncomputable def rmsXy (g : List Pt) : ℝ :=
  Real.sqrt (Real.sqrt (var (g.map (·.x))) ^ 2 + Real.sqrt (var (g.map (·.y))) ^ 2)

/-- One pass of the loop (lines 36-52) on (tested, moving). -/
noncomputable def step (pts : List Pt) (st : Bool × Bool) (val : ℝ) : Bool × Bool :=
  let g := pts.filter fun q => q.p = val
  if isTested g val then (true, st.2 || decide (rmsXy g > 0.1)) else st

/-- `eval_move_flags` (lines 5-59); the lists are given as points together with the four lengths. -/
noncomputable def evalMoveFlags (isList : Bool) (t p x y : List ℝ) : Except PyErr ℕ := do
  if ¬ (t.length = p.length ∧ p.length = x.length ∧ x.length = y.length) then .error .assertionError
  else if isList = false then .error .assertionError
  else
    let pts := (List.range t.length).map fun i => Pt.mk (t.getD i 0) (p.getD i 0) (x.getD i 0) (y.getD i 0)
    let st := (pySort id p.dedup).foldl (step pts) (false, false)
    if st.1 = true ∧ st.2 = false then
      match getBit (init movemaskDefs) (.name "THETA_STUCK".toList) with
      | .ok b => .ok (0 ||| b.mask)
      | .error e => .error e
    else .ok 0

/-- `POSITIONER_FLAGS_BITS` (posflags_mask.py lines 14-43). -/
def posflagsDefs : List (PyStr × Nat) :=
  [("MATCHED".toList, 0), ("PINHOLE".toList, 1), ("POSITIONER".toList, 2), ("FIDUCIAL".toList, 3),
   ("FVCERROR".toList, 4), ("BADPOSFID".toList, 5), ("MOVED".toList, 6), ("GIF".toList, 7), ("ETC".toList, 8),
   ("FITTEDPINHOLE".toList, 9), ("MATCHEDCENTER".toList, 10), ("AMBIGUOUS".toList, 11), ("FVCPROC".toList, 12),
   ("ASSIGNED".toList, 14), ("CONVERGED".toList, 15), ("NOTCTLENABLED".toList, 16), ("BROKENFIBER".toList, 17),
   ("COMERROR".toList, 18), ("OVERLAP".toList, 19), ("FROZEN".toList, 20), ("UNREACHABLE".toList, 21),
   ("BOUNDARYVIOLATION".toList, 22), ("MULTIPLEREQUESTS".toList, 23), ("NONFUNCTIONAL".toList, 24),
   ("REJECTED".toList, 25), ("EXPERTLIMIT".toList, 26), ("BADNEIGHBOR".toList, 27), ("MISSINGSPOT".toList, 28),
   ("BADPERFORMANCE".toList, 29)]

/-- Keys of `POSITIONER_FLAGS_VERBOSE` (posflags_mask.py lines 45-73). -/
def verboseKeys : List PyStr :=
  ["MATCHED", "PINHOLE", "POSITIONER", "FIDUCIAL", "FVCERROR", "BADPOSFID", "MOVED", "GIF", "ETC", "FITTEDPINHOLE",
   "MATCHEDCENTER", "AMBIGUOUS", "FVCPROC", "ASSIGNED", "CONVERGED", "NOTCTLENABLED", "BROKENFIBER", "COMERROR",
   "OVERLAP", "FROZEN", "UNREACHABLE", "BOUNDARYVIOLATION", "MULTIPLEREQUESTS", "NONFUNCTIONAL", "REJECTED",
   "EXPERTLIMIT", "BADNEIGHBOR", "MISSINGSPOT", "BADPERFORMANCE"].map String.toList

/-- `_bitdefs` (line 75): KeyError for a flag without description. -/
def posflagsTable : Except PyErr (List (PyStr × Nat)) :=
  posflagsDefs.mapM fun d => if d.1 ∈ verboseKeys then .ok d else .error .keyError

end Verif.Model.MoveFlags
