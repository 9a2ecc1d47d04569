import Verif.Model.Centroid
import Verif.Model.Detectspots
import Verif.Model.FitCircles
import Verif.Model.MatchPositioners

/-!
# Model of `detectspots` for an image (`py/desimeter/detectspots.py` lines 124-259)

The pedestal and the noise, and the whole chain from the image to the table: convolution and fits of stamps are those of `Centroid`, the
detection of peaks and the removal of duplicates those of `Detectspots`. The pixels drawn at random (lines 146-147) are a parameter, and so
is the KD-tree query. NaN is `none`: with a pedestal that is NaN every comparison of pixels is false.
-/

namespace Verif.Model.DetectImage
open Verif.Py Verif.Model.Centroid Verif.Model.Detectspots Verif.Model.MatchPositioners Verif.Model.Circles Verif.Model.FitCircles

/-- Lines 149-155 and 201-205: mean and rms of the values within four robust rms of the median; of no values they are NaN. -/
noncomputable def clip (vals : List ℝ) : Option (ℝ × ℝ) :=
  let mval := median vals
  let rms := 1.4826 * median (vals.map fun v => |v - mval|)
  let ok := vals.filter fun v => decide (|v - mval| < 4 * rms)
  if ok.length = 0 then none else some (meanL ok, std ok)

variable {n0 n1 : ℕ}

/-- A pixel of an image. -/
noncomputable def grid (im : Stamp n0 n1) (i j : ℕ) : ℝ :=
  if h : i < n0 ∧ j < n1 then im ⟨i, h.1⟩ ⟨j, h.2⟩ else 0

/-- `fvcimage[r.1:r.2,c.1:c.2]` (line 218). -/
noncomputable def stamp (im : Stamp n0 n1) (r c : ℕ × ℕ) : Stamp (r.2 - r.1) (c.2 - c.1) := fun i j => grid im (r.1 + i) (c.1 + j)

/-- The fit of a stamp (line 218) with errors for a noise of one. The middle index of the stamp is added, as `Detectspots.fitcentroid`
subtracts it. -/
noncomputable def stampFit (im : Stamp n0 n1) (r c : ℕ × ℕ) : Except PyErr StampFit :=
  (Centroid.fitcentroid (stamp im r c) 1).map fun f =>
    ⟨f.x + (((c.2 - c.1) / 2 : ℕ) : ℝ), f.y + (((r.2 - r.1) / 2 : ℕ) : ℝ), f.xe, f.ye, f.flux⟩

/-- A row of the table (line 258). -/
structure Row where
  x : ℝ
  y : ℝ
  ex : Option ℝ
  ey : Option ℝ
  counts : ℝ

/-- The row of a spot; the errors are proportional to the noise (detectspots.py lines 107-108). -/
noncomputable def row (noise : Option ℝ) (s : Spot) : Row := ⟨s.x, s.y, noise.map (· * s.ex), noise.map (· * s.ey), s.counts⟩

/-- `detectspots` (lines 124-259). -/
noncomputable def detect (image : Stamp n0 n1) (samples : List (Fin n0 × Fin n1)) (second : List Spot → ℕ → Option ℕ)
    (minPixel : Option ℝ) (minSpot nsig sigma : ℝ) : Except PyErr (List Row) :=
  let conv := convolve image sigma
  match clip (samples.map fun p => conv p.1 p.2) with
  | none => .error .runtimeError
  | some (mval, rms) =>
    let im : Stamp n0 n1 := fun i j => image i j - mval
    let noise := (clip (samples.map fun p => im p.1 p.2)).map Prod.snd
    (detectspots n0 n1 (grid fun i j => conv i j - mval) rms (stampFit im) second minPixel minSpot nsig sigma).map (List.map (row noise))

end Verif.Model.DetectImage
