import Verif.Model.SimpleCorr

/-!
# The comparison of desimeter with dithers (`bin/plot_dither_vs_desimeter`)

Modelled: the choice of the exposure (lines 72 to 79), the selection of the dither results (81 to 90),
the rows of the table of spots with a RA (95, 96), the joins by location and by fibre (102 to 128),
the tangent plane coordinates (154 to 156), the fit (159, 160) and the numbers which are printed of it
(163 to 174).

An exposure of the dither file is a pair of its number, in the first row, and its column.
All values are numbers.  Not modelled: the reading of the files, the figure, the clipped rms of
`myquiver` (26 to 46).
-/

namespace Verif.Model.DitherCompare

open Verif.Py Verif.Model.Radec2tan Verif.Model.SimpleCorr

/-- A row of the dither file for one exposure (bin/plot_dither_vs_desimeter, lines 81 to 90). -/
structure Dither where
  fiber : ℤ
  xoff : ℝ
  yoff : ℝ
  dxoff : ℝ
  dyoff : ℝ
  chi2 : ℝ
  chi2null : ℝ
  ra : ℝ
  dec : ℝ

/-- The column of the exposure (lines 72 to 79); the first one with the number. -/
def exposure (cols : List (ℤ × List Dither)) (expid : ℤ) : Except PyErr (List Dither) :=
  match cols.find? fun c => decide (c.1 = expid) with
  | some c => .ok c.2
  | none => .error .valueError

/-- `dchi2frac` (lines 83 and 84). -/
noncomputable def dchi2frac (d : Dither) : ℝ :=
  (d.chi2null - d.chi2) / (d.chi2null + (if d.chi2null = 0 then 1 else 0))

/-- The selection (lines 81 to 85). -/
noncomputable def valid (d : Dither) : Bool :=
  @decide (Real.sqrt (d.dxoff ^ 2 + d.dyoff ^ 2) < 0.5 ∧ Real.sqrt (d.xoff ^ 2 + d.yoff ^ 2) < 4 ∧ dchi2frac d > 0.9)
    (Classical.dec _)

/-- A row of the table of spots (line 94). -/
structure Fvc where
  location : ℤ
  ra : ℝ
  dec : ℝ

/-- A row of the fiberassign table (line 100). -/
structure Fa where
  location : ℤ
  fiber : ℤ

/-- A dictionary of the positions of the keys of `l` and the loop of lines 106 to 109 and 120 to 123:
the rows of `m` with a key of `l`, each with the last row of `l` with its key. -/
def join {α β : Type} (ka : α → ℤ) (kb : β → ℤ) (m : List α) (l : List β) : List (α × β) :=
  m.filterMap fun a => ((l.filter fun b => decide (kb b = ka a)).getLast?).map fun b => (a, b)

/-- Lines 85 to 128: the rows of the three tables which belong together. -/
noncomputable def joined (dither : List Dither) (fvc : List Fvc) (fa : List Fa) : List ((Fvc × Fa) × Dither) :=
  join (fun p => p.2.fiber) Dither.fiber
    (join Fvc.location Fa.location (fvc.filter fun f => @decide (f.ra ≠ 0) (Classical.dec _)) fa) (dither.filter valid)

/-- Tangent plane coordinates (lines 154 and 156). -/
noncomputable def tangent (tel : ℝ × ℝ) (ra dec : ℝ) : ℝ × ℝ := hadec2xy (-ra + tel.1, dec) (0, tel.2)

/-- The pairs of desimeter and dither positions (lines 154 to 160). -/
noncomputable def pairs (tel : ℝ × ℝ) (rows : List ((Fvc × Fa) × Dither)) : List Pair :=
  rows.map fun r =>
    let a := tangent tel r.1.1.ra r.1.1.dec
    let b := tangent tel r.2.ra r.2.dec
    ⟨a.1, a.2, b.1, b.2⟩

/-- `residual_rotation_deg` (line 167). -/
noncomputable def wrapped (rot : ℝ) : ℝ := rot - 360 * (if rot > 180 then 1 else 0)

/-- What is printed (lines 90 and 163 to 174). -/
structure Printed where
  valid : ℕ
  scaleHa : ℝ
  scaleDec : ℝ
  offsetHa : ℝ
  offsetDec : ℝ
  rotation : ℝ

/-- The script (lines 71 to 174). -/
noncomputable def run (cols : List (ℤ × List Dither)) (expid : ℤ) (fvc : List Fvc) (fa : List Fa) (tel : ℝ × ℝ) :
    Except PyErr Printed := do
  let dither ← exposure cols expid
  let c ← fit fresh (pairs tel (joined dither fvc fa))
  .ok ⟨(dither.filter valid).length, c.sxx - 1, c.syy - 1, c.dx * 180 * 3600 / Real.pi, c.dy * 180 * 3600 / Real.pi,
    wrapped c.rot_deg * 3600⟩

end Verif.Model.DitherCompare
