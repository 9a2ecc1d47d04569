import Verif.Model.FvcFit
import Verif.Model.Ptl2fp
import Verif.Model.Xy2qs
import Verif.Model.Int2ptl
import Verif.Model.Util
import Mathlib.Data.Finset.Sort

/-!
# Global refit of the camera transformation
(`bin/desi_fit_fvc2fp_using_posparams` and `bin/desi_fit_fvc2fp_using_theta_centers`)

Line numbers of the first script, those of the second one (lines marked θ) where it differs.  Left out: plots, messages, the
JSON text of the transformation (C23).  Parameters: `minimise` as for C36, the petal alignments, `r2z`.  Tables have the
columns the scripts ask for with `in t.dtype.names` as flags, other columns are always there.
-/

namespace Verif.Model.FvcRefit
open Verif.Py Verif.Model.Fvc2fp Verif.Model.FvcFit Verif.Model.ZhaoBurge
open Verif.Model.Ptl2fp (V3 withZ applyPtl2fp)
open Verif.Model.Xy2qs (flat2ptl)

/-- Row of a table of positioner parameters. -/
structure ParRow where
  pos : PyStr
  flags : ℤ
  err : ℝ
  xy : ℝ × ℝ
  xyStatic : ℝ × ℝ

/-- A table of positioner parameters and which of its optional columns there are. -/
structure ParTable where
  hasFlags : Bool
  hasErr : Bool
  hasOffset : Bool
  hasStatic : Bool
  rows : List ParRow

/-- Row of the metrology table. -/
structure MetRow where
  dev : PyStr
  petal : ℕ
  xy : ℝ × ℝ

/-- The point to be moved (focal plane) and where it should be. -/
structure Pair where
  meas : ℝ × ℝ
  goal : ℝ × ℝ

/-- Lines 55-61: rows used. -/
noncomputable def good (maxRms : ℝ) (t : ParTable) (r : ParRow) : Bool :=
  (!t.hasFlags || decide (r.flags = 0)) && (!(t.hasErr && decide (0 < maxRms)) || decide (r.err < maxRms))

/-- Lines 63-71: the columns used; `none` when the table is skipped. -/
def offsetOf (t : ParTable) : Option (ParRow → ℝ × ℝ) :=
  if t.hasOffset then some ParRow.xy else if t.hasStatic then some ParRow.xyStatic else none

/-- Lines 42, 77: `metrology[posid2index[p]]`, later rows of the metrology replace earlier ones. -/
def metOf (met : List MetRow) (p : PyStr) : Except PyErr MetRow :=
  match met.reverse.find? fun m => decide (m.dev = p) with
  | some m => .ok m
  | none => .error .keyError

/-- Lines 47-88 for one file (`none` when it does not exist); `none` when it adds nothing to the lists. -/
noncomputable def posFile (al : Ptl2fp.Dict) (r2z : ℝ → ℝ) (met : List MetRow) (maxRms : ℝ) : Option ParTable → Except PyErr (Option (List Pair))
  | none => .ok none
  | some t =>
    match offsetOf t with
    | none => .ok none
    | some off => do
      let rows := t.rows.filter (good maxRms t)
      let ptl := rows.map fun r => flat2ptl (off r).1 (off r).2
      let ms ← rows.mapM fun r => metOf met r.pos
      let spots := List.zipWith (fun (m : MetRow) (p : ℝ × ℝ) => (m.petal, withZ r2z p.1 p.2)) ms ptl
      let fp ← applyPtl2fp al ((ms.map MetRow.petal).toFinset.sort (· ≤ ·)) spots
      return some (List.zipWith (fun (v : V3) (m : MetRow) => { meas := (v 0, v 1), goal := m.xy : Pair }) fp ms)

/-- Lines 91-94: `np.hstack` of an empty list raises. -/
def stack (l : List (Option (List Pair))) : Except PyErr (List Pair) :=
  match l.filterMap id with
  | [] => .error .valueError
  | ls => .ok ls.flatten

/-- Lines 44-94. -/
noncomputable def gatherPos (al : Ptl2fp.Dict) (r2z : ℝ → ℝ) (met : List MetRow) (maxRms : ℝ) (files : List (Option ParTable)) :
    Except PyErr (List Pair) := do
  stack (← files.mapM (posFile al r2z met maxRms))

/-- Row of a table of circles. -/
structure CircRow where
  loc : ℤ
  pin : ℤ
  xy : ℝ × ℝ
  metro : ℝ × ℝ

/-- A table of circles, and whether it has the columns `LOCATION` and `PINHOLE_ID`. -/
structure CircTable where
  hasKeys : Bool
  rows : List CircRow

/-- Row of the other metrology table. -/
structure OtherRow where
  loc : ℤ
  pin : ℤ
  xy : ℝ × ℝ

/-- Lines θ 55-66: the position in the other metrology table. -/
noncomputable def otherOf (other : List OtherRow) (r : CircRow) : ℝ × ℝ :=
  match other.reverse.find? fun m => decide (m.loc * 10 + m.pin = r.loc * 10 + r.pin) with
  | some m => m.xy
  | none => (0, 0)

/-- Lines θ 43-70 for one file. -/
noncomputable def thetaFile (other : Option (List OtherRow)) : Option CircTable → Except PyErr (Option (List Pair))
  | none => .ok none
  | some t =>
    match other with
    | none => .ok (some (t.rows.map fun r => { meas := r.xy, goal := r.metro : Pair }))
    | some o =>
      if t.hasKeys then .ok (some (t.rows.map fun r => { meas := r.xy, goal := otherOf o r : Pair }))
      else .error (.sysExit 12)

/-- Lines θ 40-82. -/
noncomputable def gatherTheta (other : Option (List OtherRow)) (files : List (Option CircTable)) : Except PyErr (List Pair) := do
  stack (← files.mapM (thetaFile other))

/-- The reduced coordinates of a pixel and of its target (lines 123-124). -/
noncomputable def fitPt (t : FVC2FP) (e : (ℝ × ℝ) × (ℝ × ℝ)) : FitPt :=
  { x := (t.reduceFvc e.1).1, y := (t.reduceFvc e.1).2, xp := (reduceFp e.2).1, yp := (reduceFp e.2).2 }

/-- One fit of scale, rotation, offset and distortion with all results put into the object (lines 125-131, 139-145). -/
noncomputable def onePass (minimise : ((ℝ × ℝ × ℝ × ℝ) → Except PyErr ℝ) → Except PyErr (ℝ × ℝ × ℝ × ℝ)) (t : FVC2FP)
    (data : List ((ℝ × ℝ) × (ℝ × ℝ))) : Except PyErr FVC2FP := do
  let r ← fitScaleRotationOffset minimise true (t.zbpolids, t.zbcoeffs) none none (data.map (fitPt t))
  return { t with scale := r.scale, rotation := r.rotation, offsetX := r.offsetX, offsetY := r.offsetY, zbcoeffs := r.zb.getD t.zbcoeffs }

/-- Lines 121-145: pixels and targets; the second fit leaves out what the first one puts 0.08 mm or more away. -/
noncomputable def refit (minimise : ((ℝ × ℝ × ℝ × ℝ) → Except PyErr ℝ) → Except PyErr (ℝ × ℝ × ℝ × ℝ)) (t : FVC2FP) (ids : List ℕ)
    (data : List ((ℝ × ℝ) × (ℝ × ℝ))) : Except PyErr FVC2FP := do
  let t1 ← onePass minimise { t with zbpolids := ids } data
  let q ← t1.fvc2fp (data.map Prod.fst)
  let ok := (data.zip q).filter fun e => decide (hypot (e.2.1 - e.1.2.1) (e.2.2 - e.1.2.2) < 0.08)
  onePass minimise t1 (ok.map Prod.fst)

/-- Lines 31-34. -/
def idsOf (arg : PyStr) : Except PyErr (List ℕ) := do
  let ids ← Util.parseFibers (some arg)
  if [0, 1, 2, 27].all fun i => decide (i ∈ ids) then return ids else throw (.sysExit 12)

/-- Something done only with `--output-metrology-patch`. -/
def onOption {α β : Type} (f : α → Except PyErr β) : Option α → Except PyErr (Option β)
  | none => .ok none
  | some a => do return some (← f a)

/-- Lines 104-156: the new transformation and, if asked for, the new positions of the metrology patch. -/
noncomputable def run (minimise : ((ℝ × ℝ × ℝ × ℝ) → Except PyErr ℝ) → Except PyErr (ℝ × ℝ × ℝ × ℝ)) (t : FVC2FP) (ids : List ℕ)
    (pairs : List Pair) (patch : Option (List (ℝ × ℝ))) : Except PyErr (FVC2FP × Option (List (ℝ × ℝ))) := do
  let pix ← t.fp2fvc (pairs.map Pair.meas)
  let patchPix ← onOption t.fp2fvc patch
  let t2 ← refit minimise t ids (pix.zip (pairs.map Pair.goal))
  let patch2 ← onOption t2.fvc2fp patchPix
  return (t2, patch2)

/-- `desi_fit_fvc2fp_using_posparams`. -/
noncomputable def mainPos (minimise : ((ℝ × ℝ × ℝ × ℝ) → Except PyErr ℝ) → Except PyErr (ℝ × ℝ × ℝ × ℝ)) (t : FVC2FP) (arg : PyStr)
    (al : Ptl2fp.Dict) (r2z : ℝ → ℝ) (met : List MetRow) (maxRms : ℝ) (files : List (Option ParTable)) (patch : Option (List (ℝ × ℝ))) :
    Except PyErr (FVC2FP × Option (List (ℝ × ℝ))) := do
  let ids ← idsOf arg
  let pairs ← gatherPos al r2z met maxRms files
  run minimise t ids pairs patch

/-- `desi_fit_fvc2fp_using_theta_centers`. -/
noncomputable def mainTheta (minimise : ((ℝ × ℝ × ℝ × ℝ) → Except PyErr ℝ) → Except PyErr (ℝ × ℝ × ℝ × ℝ)) (t : FVC2FP) (arg : PyStr)
    (other : Option (List OtherRow)) (files : List (Option CircTable)) : Except PyErr FVC2FP := do
  let ids ← idsOf arg
  let pairs ← gatherTheta other files
  let r ← run minimise t ids pairs none
  return r.1

end Verif.Model.FvcRefit
