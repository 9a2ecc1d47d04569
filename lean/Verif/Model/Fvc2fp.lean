import Verif.Model.ZhaoBurge

/-!
# Model of `py/desimeter/transform/fvc2fp.py` (coordinate transformation)
-/

namespace Verif.Model.Fvc2fp
open Verif.Py Verif.Model.ZhaoBurge

/-- State of a fitted `FVC2FP` object (lines 15-25; `scale` … are attributes set by
`fit` or `fromjson`). -/
structure FVC2FP where
  xfvcScale : ℝ := -3000
  yfvcScale : ℝ := 3000
  xfvcOffset : ℝ := 3000
  yfvcOffset : ℝ := 3000
  scale : ℝ
  rotation : ℝ
  offsetX : ℝ
  offsetY : ℝ
  zbpolids : List Nat := [0,1,2,3,4,5,6,9,20,27,28,29,30]
  zbcoeffs : List ℝ := List.replicate 13 0

/-- `_reduce_xyfp` (lines 51-56). -/
noncomputable def reduceFp (p : ℝ × ℝ) : ℝ × ℝ := (p.1 / 420, p.2 / 420)
/-- `_expand_xyfp` (lines 58-63). -/
def expandFp (p : ℝ × ℝ) : ℝ × ℝ := (p.1 * 420, p.2 * 420)
/-- `_reduce_xyfvc` (lines 65-69). -/
noncomputable def FVC2FP.reduceFvc (t : FVC2FP) (p : ℝ × ℝ) : ℝ × ℝ :=
  ((p.1 - t.xfvcOffset) / t.xfvcScale, (p.2 - t.yfvcOffset) / t.yfvcScale)
/-- `_expand_xyfvc` (lines 71-75). -/
def FVC2FP.expandFvc (t : FVC2FP) (p : ℝ × ℝ) : ℝ × ℝ :=
  (p.1 * t.xfvcScale + t.xfvcOffset, p.2 * t.yfvcScale + t.yfvcOffset)

/-- `fvc2fp` (lines 229-237) on arrays: every operation is element by element. -/
noncomputable def FVC2FP.fvc2fp (t : FVC2FP) (pts : List (ℝ × ℝ)) : Except PyErr (List (ℝ × ℝ)) :=
  pts.mapM fun p => do
    let r := t.reduceFvc p
    let q ← transform r.1 r.2 t.scale t.rotation t.offsetX t.offsetY (some (t.zbpolids, t.zbcoeffs))
    return expandFp q

/-- One evaluation of the correction (line 251): element `k` at the point minus the
correction so far. -/
noncomputable def evalCorr (ids : List Nat) (cs : List ℝ) (pts d : List (ℝ × ℝ)) : Except PyErr (List (ℝ × ℝ)) :=
  (pts.zip d).mapM fun pd => getZhaoBurgeXY ids cs (pd.1.1 - pd.2.1) (pd.1.2 - pd.2.2)

/-- `max(np.max(np.abs(dx2-dx)), np.max(np.abs(dy2-dy)))` (line 252); `np.max` of an
empty array raises `ValueError` (empty input with an unknown id exits instead; not
distinguished). -/
noncomputable def dmax (d2 d : List (ℝ × ℝ)) : Except PyErr ℝ :=
  match (d2.zip d).map fun e : (ℝ × ℝ) × (ℝ × ℝ) => max |e.1.1 - e.2.1| |e.1.2 - e.2.2| with
  | [] => .error .valueError
  | a :: l => .ok (l.foldl max a)

/-- The loop (lines 249-255), `n` iterations left. -/
noncomputable def corrLoop (ids : List Nat) (cs : List ℝ) (pts : List (ℝ × ℝ)) :
    Nat → List (ℝ × ℝ) → Except PyErr (List (ℝ × ℝ))
  | 0, d => .ok d
  | n + 1, d => do
    let d2 ← evalCorr ids cs pts d
    let m ← dmax d2 d
    if m < 1e-12 then return d2 else corrLoop ids cs pts n d2

/-- The inverse of scale, rotation, offset and pixel normalisation (lines 259-271). -/
noncomputable def FVC2FP.undoLinear (t : FVC2FP) (q : ℝ × ℝ) : ℝ × ℝ :=
  let rx := q.1 / t.scale
  let ry := q.2 / t.scale
  let xx := rx * Real.cos (-t.rotation) - ry * Real.sin (-t.rotation)
  let yy := rx * Real.sin (-t.rotation) + ry * Real.cos (-t.rotation)
  t.expandFvc (xx - t.offsetX, yy - t.offsetY)

/-- `fp2fvc` (lines 239-271) on arrays.  (For scalars `len(x)` raises.)  Division by a
zero scale is not modelled. -/
noncomputable def FVC2FP.fp2fvc (t : FVC2FP) (pts : List (ℝ × ℝ)) : Except PyErr (List (ℝ × ℝ)) := do
  let r := pts.map reduceFp
  let d ← corrLoop t.zbpolids t.zbcoeffs r 20 (r.map fun _ => (0, 0))
  return (r.zip d).map fun e => t.undoLinear (e.1.1 - e.2.1, e.1.2 - e.2.2)

end Verif.Model.Fvc2fp
