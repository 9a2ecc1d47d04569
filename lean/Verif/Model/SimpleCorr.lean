import Verif.Py.LinAlg
import Verif.Model.Radec2tan

/-!
# Model of `py/desimeter/simplecorr.py` and of `TanCorr` (`py/desimeter/fieldmodel.py`)

Catalogues are lists of matched pairs; the shape assertions (simplecorr.py lines
62, 104) hold by construction.
-/

namespace Verif.Model.SimpleCorr
open Verif.Py Verif.Model.Trig Verif.Model.Radec2tan Classical

/-- A matched pair: (x1, y1) in the first catalogue, (x2, y2) in the second. -/
structure Pair where
  x1 : ℝ
  y1 : ℝ
  x2 : ℝ
  y2 : ℝ

/-- Attributes of `SimpleCorr` (lines 11-19). -/
@[ext] structure Corr where
  dx : ℝ
  dy : ℝ
  sxx : ℝ
  syy : ℝ
  sxy : ℝ
  rot_deg : ℝ
  nmatch : Nat
  rms : ℝ

/-- `SimpleCorr()` (lines 11-19). -/
def fresh : Corr := ⟨0, 0, 1, 1, 0, 0, 0, 0⟩

/-- `rot2deg(deg).dot(v)` (trig.py lines 17-20). -/
noncomputable def rot2deg (deg : ℝ) (v : ℝ × ℝ) : ℝ × ℝ :=
  (cosd deg * v.1 - sind deg * v.2, sind deg * v.1 + cosd deg * v.2)

/-- `apply` (lines 152-156). -/
noncomputable def apply (c : Corr) (x y : ℝ) : ℝ × ℝ :=
  let r := rot2deg c.rot_deg (x, y)
  (c.sxx * r.1 + c.sxy * r.2 + c.dx, c.sxy * r.1 + c.syy * r.2 + c.dy)

/-- `apply_inverse` (lines 158-163). -/
noncomputable def applyInverse (c : Corr) (x y : ℝ) : ℝ × ℝ :=
  let det := c.sxx * c.syy - c.sxy ^ 2
  let u := x - c.dx
  let v := y - c.dy
  rot2deg (-c.rot_deg) (c.syy / det * u + -c.sxy / det * v, -c.sxy / det * u + c.sxx / det * v)

/-- Design rows of `fit`: `H[0]=1, H[1]=x1, H[2]=y1` (lines 108-111). -/
def design3 : Fin 3 → Pair → ℝ
  | 0, _ => 1
  | 1, q => q.x1
  | 2, q => q.y1

/-- Decomposition of the fitted affine map (lines 134-150); `none` stands for NaN
(0/0 when the rotation is undefined, or division by `ca = 0`).  Returns
`(rot_deg, sxx, syy, sxy)`; `rot` is the previous value of `self.rot_deg`, which
the `else` branch leaves alone. -/
noncomputable def decompose (rot : ℝ) (ax ay : Fin 3 → ℝ) : Except PyErr (ℝ × ℝ × ℝ × ℝ) :=
  let s := hypot (ax 1 + ay 2) (ay 1 - ax 2)
  if s = 0 then .error .nanResult else
  let sa := (ay 1 - ax 2) / s
  let ca := (ax 1 + ay 2) / s
  if sa ≠ 0 then
    if ca = 0 then .error .nanResult else
    let sxy := sa * ax 1 + ca * ay 1 - s * ca * sa
    let sxx := (ax 1 - sxy * sa) / ca
    let syy := (ay 1 - sxy * ca) / sa
    .ok (arctan2d sa ca, sxx, syy, sxy)
  else .ok (rot, ax 1, ay 2, ax 2)

/-- Design of `fit_rotoff` (lines 64-73): row `(q, false)` predicts `x2`, row
`(q, true)` predicts `y2`. -/
def design4 : Fin 4 → Pair × Bool → ℝ
  | 0, (q, false) => q.x1
  | 0, (q, true) => q.y1
  | 1, (q, false) => -q.y1
  | 1, (q, true) => q.x1
  | 2, (_, false) => 1
  | 2, (_, true) => 0
  | 3, (_, false) => 0
  | 3, (_, true) => 1

/-- The `2n` rows of `fit_rotoff`. -/
def rows4 (l : List Pair) : List (Pair × Bool) := l.map (·, false) ++ l.map (·, true)

/-- `v = np.concatenate([x2, y2])` (line 64). -/
def target4 : Pair × Bool → ℝ
  | (q, false) => q.x2
  | (q, true) => q.y2

/-- `fit_rotoff` (lines 54-84). `nmatch` and `rms` are left unchanged. -/
noncomputable def fitRotoff (c : Corr) (l : List Pair) : Except PyErr Corr := do
  let p ← linSolve (gram design4 (rows4 l)) (moments design4 target4 (rows4 l))
  return { c with rot_deg := arctan2d (p 1) (p 0), dx := p 2, dy := p 3, sxx := 1, syy := 1, sxy := 0 }

/-- `fit` (lines 86-150). -/
noncomputable def fit (c : Corr) (l : List Pair) (solid : Bool := false) : Except PyErr Corr :=
  if solid then fitRotoff c l else do
  let Ai ← linInv (gram design3 l)
  let ax := Ai.mulVec (moments design3 (·.x2) l)
  let ay := Ai.mulVec (moments design3 (·.y2) l)
  let rms := Real.sqrt (mean (l.map fun q =>
    (q.x2 - (ax 0 + ax 1 * q.x1 + ax 2 * q.y1)) ^ 2 + (q.y2 - (ay 0 + ay 1 * q.x1 + ay 2 * q.y1)) ^ 2))
  let (rot, sxx, syy, sxy) ← decompose c.rot_deg ax ay
  return ⟨ax 0, ay 0, sxx, syy, sxy, rot, l.length, rms⟩

/-- `TanCorr` (fieldmodel.py lines 311-321): dha, ddec in degrees. -/
structure TanCorr where
  dha : ℝ
  ddec : ℝ
  sxx : ℝ
  syy : ℝ
  sxy : ℝ
  rot_deg : ℝ
  nstars : Nat
  rms_arcsec : ℝ

/-- `TanCorr.apply` (fieldmodel.py lines 434-440). -/
noncomputable def TanCorr.apply (c : TanCorr) (x y : ℝ) : ℝ × ℝ :=
  let r := rot2deg c.rot_deg (hadec2xy (xy2hadec (x, y) (0, 0)) (c.dha, c.ddec))
  (c.sxx * r.1 + c.sxy * r.2, c.sxy * r.1 + c.syy * r.2)

/-- `TanCorr.apply_inverse` (fieldmodel.py lines 442-449). -/
noncomputable def TanCorr.applyInverse (c : TanCorr) (x y : ℝ) : ℝ × ℝ :=
  let det := c.sxx * c.syy - c.sxy ^ 2
  let t := hadec2xy (xy2hadec (x, y) (0, 0)) (c.dha, c.ddec)
  rot2deg (-c.rot_deg)
    (c.syy / det * t.1 + -c.sxy / det * t.2, -c.sxy / det * t.1 + c.sxx / det * t.2)

end Verif.Model.SimpleCorr
