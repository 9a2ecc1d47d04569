import Verif.Py.LinAlg
import Mathlib.Analysis.Real.Sqrt

/-!
# Model of `py/desimeter/detectspots.py`, `detectspots` (lines 124-259)

Parameters: the convolved image with the pedestal removed (an `n0` times `n1` grid), its rms, the
fit of a stamp (`np.linalg.inv` and the error function are behind it) and the KD-tree query.
The fit of an empty stamp is modelled: its normal matrix is zero, so `np.linalg.inv` raises.
-/

namespace Verif.Model.Detectspots
open Verif.Py

/-- Columns of the table (line 258). -/
structure Spot where
  x : ℝ
  y : ℝ
  ex : ℝ
  ey : ℝ
  counts : ℝ

/-- The threshold (lines 167-170). -/
noncomputable def threshold (minCountsPerPixel : Option ℝ) (nsig rms : ℝ) : ℝ :=
  match minCountsPerPixel with
  | none => nsig * rms
  | some m => max m (nsig * rms)

/-- `peaks` at a pixel (lines 172-177): zero on the border. -/
noncomputable def isPeak (n0 n1 : ℕ) (conv : ℕ → ℕ → ℝ) (thr : ℝ) (i0 i1 : ℕ) : Bool :=
  decide (1 ≤ i0 ∧ i0 + 1 < n0 ∧ 1 ≤ i1 ∧ i1 + 1 < n1) &&
  (decide (conv i0 i1 > conv (i0 - 1) i1) && decide (conv i0 i1 > conv (i0 + 1) i1) &&
   decide (conv i0 i1 > conv i0 (i1 - 1)) && decide (conv i0 i1 > conv i0 (i1 + 1)) &&
   decide (conv i0 i1 > thr))

/-- `peakindices=np.where(peaks.ravel()>0)[0]` (line 179). -/
noncomputable def peakIndices (n0 n1 : ℕ) (conv : ℕ → ℕ → ℝ) (thr : ℝ) : List ℕ :=
  (List.range (n0 * n1)).filter fun k => isPeak n0 n1 conv thr (k / n1) (k % n1)

/-- First and last+1 index selected by the slice `[i-hw:i+hw+1]` of an axis of length `n` with
`hw=3` (line 218): a negative start counts from the end. -/
def span (n i : ℕ) : ℕ × ℕ :=
  (if 3 ≤ i then min (i - 3) n else n - (3 - i), min (i + 4) n)

/-- Result of a stamp fit in stamp pixel indices, before lines 104-105. -/
structure StampFit where
  xc : ℝ
  yc : ℝ
  xe : ℝ
  ye : ℝ
  flux : ℝ

/-- `fitcentroid` (lines 65-121) on the stamp with rows `r` and columns `c`; `absfit` is the fit
loop for non-empty stamps, lines 104-105 subtract the middle index of the stamp. -/
noncomputable def fitcentroid (absfit : ℕ × ℕ → ℕ × ℕ → Except PyErr StampFit) (r c : ℕ × ℕ) :
    Except PyErr (ℝ × ℝ × ℝ × ℝ × ℝ) :=
  if r.2 ≤ r.1 ∨ c.2 ≤ c.1 then .error .linAlgError
  else do
    let f ← absfit r c
    let n0 := r.2 - r.1
    let n1 := c.2 - c.1
    return (f.xc - ((n1 / 2 : ℕ) : ℝ), f.yc - ((n0 / 2 : ℕ) : ℝ), f.xe, f.ye, f.flux)

/-- One step of the loop over the peaks (lines 214-223). -/
noncomputable def measurePeak (n0 n1 : ℕ) (absfit : ℕ × ℕ → ℕ × ℕ → Except PyErr StampFit) (index : ℕ) :
    Except PyErr Spot := do
  let i0 := index / n1
  let i1 := index % n1
  let (x, y, ex, ey, c) ← fitcentroid absfit (span n0 i0) (span n1 i1)
  return ⟨x + i1, y + i0, ex, ey, c⟩

/-- Distance between two spots. -/
noncomputable def sdist (a b : Spot) : ℝ := Real.sqrt ((a.x - b.x) ^ 2 + (a.y - b.y) ^ 2)

/-- First spot with a second neighbour closer than `psf_sigma` (lines 239-245). `second l i` is
`indices[i,1]`, `none` if the tree has fewer than two points (distance infinite). -/
noncomputable def firstBad (second : List Spot → ℕ → Option ℕ) (sigma : ℝ) (l : List Spot) : Option ℕ :=
  (List.range l.length).find? fun i =>
    match l[i]?, (second l i).bind (l[·]?) with
    | some a, some b => decide (sdist a b < sigma)
    | _, _ => false

/-- One pass of the duplicate removal (lines 238-256); `none` is the `break`. -/
noncomputable def dedupStep (second : List Spot → ℕ → Option ℕ) (sigma : ℝ) (l : List Spot) :
    Option (List Spot) :=
  match firstBad second sigma l with
  | none => none
  | some bad =>
    match second l bad with
    | none => none
    | some idx =>
      match l[bad]?, l[idx]? with
      | some a, some b => some (l.eraseIdx (if a.counts < b.counts then bad else idx))
      | _, _ => none

/-- `for _ in range(k)` with `break` (lines 237-256). -/
noncomputable def dedup (second : List Spot → ℕ → Option ℕ) (sigma : ℝ) : ℕ → List Spot → List Spot
  | 0, l => l
  | k + 1, l =>
    match dedupStep second sigma l with
    | none => l
    | some l' => dedup second sigma k l'

/-- Lines 229-235. -/
noncomputable def countFilter (minCounts : ℝ) (l : List Spot) : List Spot :=
  if minCounts > 0 then l.filter fun s => decide (s.counts ≥ minCounts) else l

/-- `detectspots` from line 167 on. -/
noncomputable def detectspots (n0 n1 : ℕ) (conv : ℕ → ℕ → ℝ) (rms : ℝ)
    (absfit : ℕ × ℕ → ℕ × ℕ → Except PyErr StampFit) (second : List Spot → ℕ → Option ℕ)
    (minPixel : Option ℝ) (minSpot nsig sigma : ℝ) : Except PyErr (List Spot) :=
  let peaks := peakIndices n0 n1 conv (threshold minPixel nsig rms)
  if peaks.length = 0 then .error .runtimeError
  else if peaks.length > 10000 then .error .runtimeError
  else do
    let l ← peaks.mapM (measurePeak n0 n1 absfit)
    return dedup second sigma 100 (countFilter minSpot l)

end Verif.Model.Detectspots
