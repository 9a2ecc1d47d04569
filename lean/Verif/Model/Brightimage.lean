import Verif.Py.LinAlg
import Verif.Py.Argmax
import Mathlib.Analysis.Real.Sqrt
import Mathlib.Analysis.SpecialFunctions.Trigonometric.Basic
import Mathlib.Algebra.Order.Floor.Ring
import Mathlib.Algebra.BigOperators.Intervals

/-!
# Model of `py/desimeter/brightimage.py`

External: edge detection of the normalised stamp (`canny`, lines 31-32 and 52) and image rotation
(`rotate`).  Images are functions of row and column.  NaN is `none`; the template becomes all NaN
when its norm is zero.  Plotting and printing are left out.
-/

namespace Verif.Model.Brightimage
open Verif.Py

/-- Pixel values. -/
abbrev Img := ℕ → ℕ → ℝ

/-- The external image routines: `edges sigma image y0 x0` is `canny` of the normalised stamp with
lowest corner `(y0, x0)`, `rot t ang` is `rotate(t, ang)`. -/
structure Ext where
  edges : ℝ → Img → ℕ → ℕ → Img
  rot : Img → ℝ → Img

/-- `np.round` to an integer: halves go to the even neighbour. -/
noncomputable def pyRound (x : ℝ) : ℤ :=
  let f := ⌊x⌋
  if Int.fract x < 1 / 2 then f
  else if Int.fract x > 1 / 2 then f + 1
  else if f % 2 = 0 then f else f + 1

/-- `mask` (lines 34-35). -/
noncomputable def mask (pad i j : ℕ) : ℝ :=
  if ((i : ℤ) - pad) ^ 2 + ((j : ℤ) - pad) ^ 2 < (pad : ℤ) ^ 2 then 1 else 0

/-- Sum over all pixels. -/
noncomputable def total (m : ℕ) (a : Img) : ℝ := ∑ i ∈ Finset.range m, ∑ j ∈ Finset.range m, a i j

/-- The in-place change of the template (lines 37-38). -/
noncomputable def prepare (m : ℕ) : Option Img → Option Img
  | none => none
  | some t =>
    let t : Img := fun i j => t i j * mask (m / 2) i j
    let norm := Real.sqrt (total m fun i j => t i j ^ 2)
    if norm = 0 then none else some fun i j => t i j / norm

/-- `(templates * edges).sum().sum()` for one angle (lines 60-62 and 72-74). -/
noncomputable def ccfAt (ext : Ext) (m : ℕ) (t e : Option Img) (ang : ℝ) : Option ℝ :=
  match t, e with
  | some t, some e => some (total m fun i j => ext.rot t (-ang) i j * e i j)
  | _, _ => none

/-- `np.argmax`: the first NaN if there is one. -/
noncomputable def argmax (l : List (Option ℝ)) : ℕ :=
  if l.any Option.isNone then l.findIdx Option.isNone else argmaxReal (l.map (·.getD 0))

/-- `np.arange(0, 360, 5)` (lines 57-58). -/
noncomputable def coarseAngles : List ℝ := (List.range 72).map fun k : ℕ => (k : ℝ) * 5

/-- `np.arange(angle-10, angle+10+step, step)` (line 70), `step > 0`. -/
noncomputable def fineAngles (angle step : ℝ) : List ℝ :=
  (List.range ⌈(20 + step) / step⌉.toNat).map fun k : ℕ => angle - 10 + k * step

/-- What one smoothing scale gives (lines 51-81): best value, its angle, all fine values, norm. -/
structure Scan where
  ccf : Option ℝ
  angle : ℝ
  all : List (Option ℝ)
  norm : ℝ

/-- One pass of the loop over `canny_sigma` (lines 51-81). -/
noncomputable def scan (ext : Ext) (m : ℕ) (image : Img) (t : Option Img) (step : ℝ) (y0 x0 : ℕ) (sigma : ℝ) :
    Scan :=
  let e : Img := fun i j => ext.edges sigma image y0 x0 i j * mask (m / 2) i j
  let norm := Real.sqrt (total m fun i j => e i j ^ 2)
  let en : Option Img := if norm = 0 then none else some fun i j => e i j / norm
  let coarse := coarseAngles.map (ccfAt ext m t en)
  let angle := coarseAngles.getD (argmax coarse) 0
  let angles := fineAngles angle step
  let ccf := angles.map (ccfAt ext m t en)
  let pos := argmax ccf
  ⟨ccf.getD pos none, angles.getD pos 0, ccf, norm⟩

/-- The columns filled for a spot (line 108). -/
structure Arm where
  angle : ℝ
  ccf : Option ℝ
  all : List (Option ℝ)
  mimage : ℝ
  norm : ℝ

/-- `[0.1,0.2,0.5,1.,1.5]` (line 51). -/
noncomputable def sigmas : List ℝ := [0.1, 0.2, 0.5, 1, 1.5]

/-- `detect_phi_arm` (lines 8-108): result and template afterwards.  `shape` is the shape of the
template, `(h, w)` that of the image.  A stamp that is not inside the image does not fit the mask.
`MCCF` and `RMSCCF` are mean and standard deviation of `all`, `CHI2` is zero. -/
noncomputable def detectPhiArm (ext : Ext) (shape : ℕ × ℕ) (h w : ℕ) (image : Img) (step : ℝ) (xy : ℝ × ℝ)
    (t : Option Img) : Except PyErr (Arm × Option Img) :=
  if shape.1 ≠ shape.2 then .error .assertionError
  else
    let m := shape.1
    let pad := m / 2
    let curx := pyRound xy.1
    let cury := pyRound xy.2
    if m ≠ 2 * pad + 1 then .error .valueError
    else if curx - pad < 0 ∨ (w : ℤ) < curx + pad + 1 ∨ cury - pad < 0 ∨ (h : ℤ) < cury + pad + 1 then
      .error .valueError
    else
      let y0 := (cury - pad).toNat
      let x0 := (curx - pad).toNat
      let t := prepare m t
      let scans := sigmas.map (scan ext m image t step y0 x0)
      let bb := argmax (scans.map Scan.ccf)
      let s := scans.getD bb ⟨none, 0, [], 0⟩
      let last := scans.getLastD ⟨none, 0, [], 0⟩
      .ok (⟨(s.angle - 90) * (Real.pi / 180), s.ccf, s.all,
        total m (fun i j => image (y0 + i) (x0 + j)) / (m * m), last.norm⟩, t)

/-- The loop for `nproc <= 1` (lines 167-170): the rows written, and the error that ended it. -/
noncomputable def serial (det : ℝ × ℝ → Option Img → Except PyErr (Arm × Option Img)) :
    List (ℝ × ℝ) → Option Img → List Arm × Option PyErr
  | [], _ => ([], none)
  | p :: ps, t =>
    match det p t with
    | .error e => ([], some e)
    | .ok (a, t') =>
      let r := serial det ps t'
      (a :: r.1, r.2)

/-- One chunk of `pool.map`: the tasks of a chunk are sent to a worker together, so they share one
copy of the template array, which the calls change in place. -/
noncomputable def runChunk (det : ℝ × ℝ → Option Img → Except PyErr (Arm × Option Img)) (t : Option Img)
    (ps : List (ℝ × ℝ)) : Except PyErr (List Arm) :=
  match serial det ps t with
  | (l, none) => .ok l
  | (_, some e) => .error e

/-- Columns of all rows after the call, `none` for the initial NaN; and the error raised. -/
abbrev Outcome := List (Option Arm) × Option PyErr

/-- `detect_phi_arms`, `nproc <= 1` (lines 136-143, 167-170). -/
noncomputable def armsSerial (det : ℝ × ℝ → Option Img → Except PyErr (Arm × Option Img)) (t : Option Img)
    (spots : List (ℝ × ℝ)) : Outcome :=
  let r := serial det spots t
  (r.1.map some ++ List.replicate (spots.length - r.1.length) none, r.2)

/-- `detect_phi_arms`, `nproc > 1` (lines 147-164), for a division of the spots into chunks: an
outcome is possible if it is the table of all results, or an error of some chunk with nothing
written. -/
def ArmsPool (det : ℝ × ℝ → Option Img → Except PyErr (Arm × Option Img)) (t : Option Img)
    (chunks : List (List (ℝ × ℝ))) (o : Outcome) : Prop :=
  (∃ ls, chunks.mapM (runChunk det t) = .ok ls ∧ o = (ls.flatten.map some, none)) ∨
  (∃ c ∈ chunks, ∃ e, runChunk det t c = .error e ∧
    o = (List.replicate chunks.flatten.length none, some e))

end Verif.Model.Brightimage
