import Verif.Model.Fvc2fp
import Verif.Model.MatchPositioners
import Verif.Py.Vec
import Verif.Py.LinAlg

/-!
# Model of `FVC2FP.fit` (`py/desimeter/transform/fvc2fp.py` lines 133-227) and of
`fit_scale_rotation_offset` (`py/desimeter/transform/zhaoburge.py` lines 266-308)

Parameters: `sortS`, `sortM` are `Table.sort(keys=('LOCATION','PINHOLE_ID'))` (not stable), `argsort`
is `np.argsort` (not stable), `minimise` is `scipy.optimize.minimize` started at (1,0,0,0).
Masked entries and tables without rows (means of nothing) are not modelled: the mean of no
distances is 0 here.
-/

namespace Verif.Model.FvcFit
open Verif.Py Verif.Model.Fvc2fp Verif.Model.ZhaoBurge

/-- Row of the table of spots. -/
structure Spot where
  loc : ℤ
  pin : ℤ
  xpix : ℝ
  ypix : ℝ

/-- Row of the metrology table. -/
structure Metro where
  loc : ℤ
  pin : ℤ
  x : ℝ
  y : ℝ
  z : ℝ

/-- `LOCATION*10 + PINHOLE_ID` (lines 149-150, 209-210). -/
def pinloc (loc pin : ℤ) : ℤ := loc * 10 + pin

/-- `np.all(a == b)` of two columns; lengths that cannot be broadcast raise. -/
def allEq (a b : List ℤ) : Except PyErr Bool := do
  let l ← bcast2 (fun x y => decide (x = y)) a b
  return l.all id

/-- `assert np.all(a == b)`. -/
def assertEq (a b : List ℤ) : Except PyErr Unit := do
  if ← allEq a b then return () else throw .assertionError

/-- Selection of the fiducial spots and of their metrology entries, and the checks (lines 145-158). -/
def pairUp (sortS : List Spot → List Spot) (sortM : List Metro → List Metro) (spots : List Spot)
    (metrology : List Metro) : Except PyErr (List Spot × List Metro) := do
  let fid := spots.filter fun s => decide (0 ≤ s.loc) && decide (0 < s.pin)           -- lines 145-146
  let keys := fid.map fun s => pinloc s.loc s.pin
  let met := metrology.filter fun m => decide (pinloc m.loc m.pin ∈ keys)             -- lines 149-152
  let fid := sortS fid
  let met := sortM met
  assertEq (fid.map Spot.loc) (met.map Metro.loc)
  assertEq (fid.map Spot.pin) (met.map Metro.pin)
  return (fid, met)

/-- The function minimised in `fit_scale_rotation_offset` (lines 283-291); with a fixed value the
added prior is zero. -/
noncomputable def objective (zb : List Nat × List ℝ) (fixedScale fixedRotation : Option ℝ) (l : List FitPt)
    (p : ℝ × ℝ × ℝ × ℝ) : Except PyErr ℝ := do
  let scale := fixedScale.getD p.1
  let rotation := fixedRotation.getD p.2.1
  let r ← l.mapM fun q => do
    let t ← transform q.x q.y scale rotation p.2.2.1 p.2.2.2 (some zb)
    return (t.1 - q.xp) ^ 2 + (t.2 - q.yp) ^ 2
  return r.sum

/-- Result of `fit_scale_rotation_offset`; `zb` is `none` when `fitzb` is false. -/
structure Fitted where
  scale : ℝ
  rotation : ℝ
  offsetX : ℝ
  offsetY : ℝ
  zb : Option (List ℝ)

/-- `fit_scale_rotation_offset` (zhaoburge.py lines 266-308). -/
noncomputable def fitScaleRotationOffset
    (minimise : ((ℝ × ℝ × ℝ × ℝ) → Except PyErr ℝ) → Except PyErr (ℝ × ℝ × ℝ × ℝ))
    (fitzb : Bool) (zb : List Nat × List ℝ) (fixedScale fixedRotation : Option ℝ) (l : List FitPt) :
    Except PyErr Fitted := do
  let p ← minimise (objective zb fixedScale fixedRotation l)
  let scale := fixedScale.getD p.1                                               -- lines 296-298
  let rotation := fixedRotation.getD p.2.1
  if fitzb then
    let l' ← l.mapM fun q => do                                                  -- lines 300-306
      let t ← transform q.x q.y scale rotation p.2.2.1 p.2.2.2 none
      return { x := t.1, y := t.2, xp := q.xp, yp := q.yp : FitPt }
    let c ← fitZhaoBurge zb.1 l'
    return ⟨scale, rotation, p.2.2.1, p.2.2.2, some (List.ofFn c)⟩
  else
    return ⟨scale, rotation, p.2.2.1, p.2.2.2, none⟩

/-- Goodness of fit stored in the object, micrometres (lines 188-197). -/
structure Goodness where
  mean : ℝ
  median : ℝ
  rms : ℝ
  nmatch : ℕ

/-- Lines 188-197. -/
noncomputable def goodness (t : FVC2FP) (fid : List Spot) (met : List Metro) : Except PyErr Goodness := do
  let q ← t.fvc2fp (fid.map fun s => (s.xpix, s.ypix))
  let dr := List.zipWith (fun (m : Metro) (p : ℝ × ℝ) => hypot (m.x - p.1) (m.y - p.2)) met q
  return { mean := 1000 * mean dr, median := 1000 * MatchPositioners.median dr,
           rms := 1000 * Real.sqrt (mean (dr.map (· ^ 2))), nmatch := fid.length }

/-- Row written back by `update_spots` (lines 199-227). -/
structure OutSpot where
  spot : Spot
  xfp : ℝ
  yfp : ℝ
  metro : ℝ × ℝ × ℝ

/-- `np.zeros` columns with the rows `iifid` assigned in order (lines 222-227). -/
def fill : List Spot → List Metro → List (ℝ × ℝ × ℝ)
  | [], _ => []
  | s :: l, ms =>
    if 0 < s.loc ∧ 0 < s.pin then
      match ms with
      | m :: ms => (m.x, m.y, m.z) :: fill l ms
      | [] => (0, 0, 0) :: fill l []
    else (0, 0, 0) :: fill l ms

/-- The metrology entries of the rows `iifid`, in the order of these rows, with the checks
(lines 208-219). -/
def reorder (argsort : List ℤ → List ℕ) (spots : List Spot) (met : List Metro) : Except PyErr (List Metro) := do
  let fid := spots.filter fun s => decide (0 < s.loc) && decide (0 < s.pin)
  let ii := argsort ((argsort (fid.map fun s => pinloc s.loc s.pin)).map Int.ofNat)
  let jj := argsort (met.map fun m => pinloc m.loc m.pin)
  let kk ← ii.mapM (getIdx jj)
  let ms ← kk.mapM (getIdx met)
  assertEq (fid.map Spot.loc) (ms.map Metro.loc)
  assertEq (fid.map Spot.pin) (ms.map Metro.pin)
  return ms

/-- Lines 199-227. -/
noncomputable def updateSpots (argsort : List ℤ → List ℕ) (t : FVC2FP) (spots : List Spot) (met : List Metro) :
    Except PyErr (List OutSpot) := do
  let q ← t.fvc2fp (spots.map fun s => (s.xpix, s.ypix))
  let ms ← reorder argsort spots met
  return (spots.zip (q.zip (fill spots ms))).map fun e => ⟨e.1, e.2.1.1, e.2.1.2, e.2.2⟩

/-- The external routines. -/
structure Env where
  sortS : List Spot → List Spot
  sortM : List Metro → List Metro
  argsort : List ℤ → List ℕ
  minimise : ((ℝ × ℝ × ℝ × ℝ) → Except PyErr ℝ) → Except PyErr (ℝ × ℝ × ℝ × ℝ)

/-- Options of `fit`. -/
structure Opts where
  updateSpots : Bool := false
  zbfit : Bool := true
  fixedScale : Bool := false
  fixedRotation : Bool := false

/-- `FVC2FP.fit` (lines 133-227): the object afterwards, the goodness of fit and, with
`update_spots`, the new table.  Broadcasting in the fit itself (one spot against several metrology
entries) is not modelled: pairs are formed with `zip`. -/
noncomputable def fit (env : Env) (t : FVC2FP) (o : Opts) (spots : List Spot) (metrology : List Metro) :
    Except PyErr (FVC2FP × Goodness × Option (List OutSpot)) := do
  let (fid, met) ← pairUp env.sortS env.sortM spots metrology
  let pts := List.zipWith (fun (s : Spot) (m : Metro) =>
    let a := t.reduceFvc (s.xpix, s.ypix)
    let b := reduceFp (m.x, m.y)
    { x := a.1, y := a.2, xp := b.1, yp := b.2 : FitPt }) fid met
  let r ← fitScaleRotationOffset env.minimise o.zbfit (t.zbpolids, t.zbcoeffs)
    (if o.fixedScale then some t.scale else none) (if o.fixedRotation then some t.rotation else none) pts
  let t' := { t with scale := r.scale, rotation := r.rotation, offsetX := r.offsetX, offsetY := r.offsetY,
                     zbcoeffs := r.zb.getD t.zbcoeffs }
  let g ← goodness t' fid met
  if o.updateSpots then
    let out ← updateSpots env.argsort t' spots met
    return (t', g, some out)
  else
    return (t', g, none)

end Verif.Model.FvcFit
