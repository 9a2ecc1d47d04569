import Verif.Model.Gfa2fp
import Verif.Model.Ptl2fp
import Verif.Py.LinAlg

/-!
# Model of `bin/write_gfa_patch`

Numbers of the four pinholes are `Fin 4 → ℝ`. `none` stands for NaN (or infinity) in arrays. The table `pkg` is the metrology file of the
package (line 129), `met` the one found by `load_metrology`; `r2z` is the nominal height of the focal surface (C14). Writing of the file
is left out, as are the columns with constant text.
-/

namespace Verif.Model.GfaPatch
open Verif.Py Classical
open Verif.Model.Ptl2fp (V3 ptl2fp fp2ptl withZ)

/-- A row of the metrology: columns of `GRow`, and petal coordinates. -/
structure MRow where
  isGfa : Bool
  petal : ℕ
  pin : ℤ
  fp : V3
  ptl : V3

/-- `_has_real_metrology` (lines 12-27). -/
def hasReal (petal : ℕ) : Except PyErr Bool :=
  if petal ∈ [0, 1, 2, 3, 4, 5, 6, 7, 8, 9] then .ok (decide (petal ∈ [0, 1, 2, 4, 5, 6, 8, 9])) else .error .assertionError

/-- `_get_pinhole_gfa_coords` (lines 29-52) of pinhole `i + 1`. -/
noncomputable def pinholeGfa (i : Fin 4) : ℝ × ℝ :=
  match i with
  | 0 => (0, 0)
  | 1 => (2048 - 1, 0)
  | 2 => (2048 - 1, 1032 - 1)
  | 3 => (0, 1032 - 1)

/-- `coeff_x_fp` (lines 69-74). -/
noncomputable def coeffX : ℕ → Option (ℝ × ℝ × ℝ)
  | 0 => some (91.8290008897, 0.0142564754, -0.0046540723)
  | 2 => some (405.7272754413, 0.0000436514, -0.0149327409)
  | 3 => some (348.8824487879, -0.0088595464, -0.0120471442)
  | 5 => some (-91.8627781345, -0.0142609354, 0.0046420089)
  | 7 => some (-405.7801509760, -0.0000106187, 0.0149351226)
  | 8 => some (-349.3793836387, 0.0087573071, 0.0121231345)
  | _ => none

/-- `coeff_y_fp` (lines 76-81). -/
noncomputable def coeffY : ℕ → Option (ℝ × ℝ × ℝ)
  | 0 => some (-396.9957752088, 0.0046691204, 0.0141891317)
  | 2 => some (-35.2976124185, 0.0150007008, 0.0000343108)
  | 3 => some (210.2297400065, 0.0121055754, -0.0088252019)
  | 5 => some (396.8617645949, -0.0046561284, -0.0141934371)
  | 7 => some (35.4811212256, -0.0150023601, -0.0000019735)
  | 8 => some (-209.8801602520, -0.0121796381, 0.0087240329)
  | _ => none

/-- Line 102. -/
noncomputable def evalPlane (c : ℝ × ℝ × ℝ) (g : ℝ × ℝ) : ℝ := c.1 + c.2.1 * g.1 + c.2.2 * g.2

/-- `_get_pinhole_xy_fp` (lines 86-105) for the four pinholes; the assertion of line 66 stops other petals. -/
noncomputable def planar (petal : ℕ) : Except PyErr ((Fin 4 → ℝ) × (Fin 4 → ℝ)) :=
  match coeffX petal, coeffY petal with
  | some cx, some cy => .ok (fun i => evalPlane cx (pinholeGfa i), fun i => evalPlane cy (pinholeGfa i))
  | _, _ => .error .assertionError

/-- `real` (line 133). -/
def realFlags (pkg : List MRow) : Except PyErr (List Bool) := pkg.mapM fun r => hasReal r.petal

/-- `get_ptl_avg` (lines 107-141): average of petal coordinate `k` of pinhole `i + 1`. -/
noncomputable def ptlAvg (pkg : List MRow) (i : Fin 4) (k : Fin 3) : Except PyErr ℝ := do
  let real ← realFlags pkg
  let tab := (pkg.zip real).filter fun q => decide (q.1.pin = (i : ℤ) + 1 ∧ q.1.isGfa = true ∧ q.2 = true)
  if tab.length = 8 then .ok (mean (tab.map fun q => q.1.ptl k)) else .error .assertionError

/-- `get_fp_avg_guess` (lines 143-163). -/
noncomputable def fpAvgGuess (al : Ptl2fp.Dict) (r2z : ℝ → ℝ) (pkg : List MRow) (petal : ℕ) (i : Fin 4) : Except PyErr V3 := do
  let x ← ptlAvg pkg i 0
  let y ← ptlAvg pkg i 1
  let z ← ptlAvg pkg i 2
  let v ← ptl2fp al petal (withZ r2z x y)
  return ![v 0, v 1, z]

/-- `_get_real_metrology` (lines 165-187). -/
def realMetrology (met : List MRow) (petal : ℕ) (i : Fin 4) : Except PyErr V3 := do
  let ok ← hasReal petal
  if ok then
    match met.filter fun r => decide (r.pin = (i : ℤ) + 1 ∧ r.isGfa = true ∧ r.petal = petal) with
    | [r] => .ok r.fp
    | _ => .error .assertionError
  else .error .assertionError

/-- `x01 /= ...` (lines 192-195). -/
noncomputable def unit (v : ℝ × ℝ × ℝ) : Option (ℝ × ℝ × ℝ) :=
  let n := Real.sqrt (v.1 ^ 2 + v.2.1 ^ 2 + v.2.2 ^ 2)
  if n = 0 then none else some (v.1 / n, v.2.1 / n, v.2.2 / n)

/-- `_ccd_to_fs_offs` (lines 189-202). -/
noncomputable def offs (x y z : Fin 4 → ℝ) : Option (ℝ × ℝ) := do
  let e ← unit (x 1 - x 0, y 1 - y 0, z 1 - z 0)
  let f ← unit (x 2 - x 1, y 2 - y 1, z 2 - z 1)
  let n := Gfa2fp.cross e f
  if n.2.2 = 0 then none else some (2.23 * n.1 / n.2.2, 2.23 * n.2.1 / n.2.2)

/-- One turn of the loop (lines 232-240): the new guess is the focal surface position minus the offsets. -/
noncomputable def turn (p : (Fin 4 → ℝ) × (Fin 4 → ℝ)) (z : Fin 4 → ℝ) (g : Option ((Fin 4 → ℝ) × (Fin 4 → ℝ))) :
    Option ((Fin 4 → ℝ) × (Fin 4 → ℝ)) := do
  let g ← g
  let d ← offs g.1 g.2 z
  return (fun i => p.1 i - d.1, fun i => p.2 i - d.2)

/-- Lines 230-240: `n_iter = 10`. -/
noncomputable def physical (p : (Fin 4 → ℝ) × (Fin 4 → ℝ)) (z : Fin 4 → ℝ) (g : (Fin 4 → ℝ) × (Fin 4 → ℝ)) :
    Option ((Fin 4 → ℝ) × (Fin 4 → ℝ)) :=
  (turn p z)^[10] (some g)

/-- The guess of lines 209-218. -/
noncomputable def guess (al : Ptl2fp.Dict) (r2z : ℝ → ℝ) (pkg met : List MRow) (petal : ℕ) (i : Fin 4) : Except PyErr V3 := do
  let real ← hasReal petal
  if real then realMetrology met petal i else fpAvgGuess al r2z pkg petal i

/-- `f` for the four pinholes in turn. -/
def four {α : Type} (f : Fin 4 → Except PyErr α) : Except PyErr (Fin 4 → α) := do
  let a ← f 0
  let b ← f 1
  let c ← f 2
  let d ← f 3
  return ![a, b, c, d]

/-- `_derive_ccd_fp_coords` (lines 204-242). -/
noncomputable def derive (al : Ptl2fp.Dict) (r2z : ℝ → ℝ) (pkg met : List MRow) (petal : ℕ) :
    Except PyErr (Option ((Fin 4 → ℝ) × (Fin 4 → ℝ))) := do
  let g ← four (guess al r2z pkg met petal)
  let p ← planar petal
  return physical p (fun i => g i 2) (fun i => g i 0, fun i => g i 1)

/-- `_get_petal_id` (lines 244-258). -/
def petalId : ℕ → Except PyErr ℤ
  | 0 => .ok 4
  | 1 => .ok 5
  | 2 => .ok 6
  | 3 => .ok 3
  | 4 => .ok 8
  | 5 => .ok 10
  | 6 => .ok 11
  | 7 => .ok 2
  | 8 => .ok 7
  | 9 => .ok 9
  | _ => .error .keyError

/-- `_get_gfa_device` (lines 260-274). -/
def gfaDevice : ℕ → Except PyErr ℕ
  | 0 => .ok 10
  | 1 => .ok 5
  | 2 => .ok 6
  | 3 => .ok 2
  | 4 => .ok 7
  | 5 => .ok 8
  | 6 => .ok 13
  | 7 => .ok 1
  | 8 => .ok 4
  | 9 => .ok 3
  | _ => .error .keyError

/-- A row of the output; `none` is NaN. (`Z_PTL` stays a number if the other two are NaN only because the camera is degenerate; `ptl` is
`none` then all the same.) -/
structure PRow where
  petalId : ℤ
  petal : ℕ
  pin : ℤ
  ptl : Option (ℝ × ℝ × ℝ)
  fp : Option (ℝ × ℝ)
  z : ℝ
  device : ℕ

/-- `z_ptl` (lines 284-287). -/
noncomputable def height (pkg met : List MRow) (petal : ℕ) (real : Bool) (i : Fin 4) : Except PyErr ℝ :=
  if real then (realMetrology met petal i).map fun v => v 2 else ptlAvg pkg i 2

/-- The row of pinhole `i + 1` (lines 282-317), from the coordinates in the focal plane and in the petal. -/
noncomputable def row (pkg met : List MRow) (petal : ℕ) (fp ptl : Fin 4 → Option (ℝ × ℝ)) (i : Fin 4) : Except PyErr PRow := do
  let real ← hasReal petal
  let z ← height pkg met petal real i
  let id ← petalId petal
  let dev ← gfaDevice petal
  return ⟨id, petal, (i : ℤ) + 1, if real then none else (ptl i).map fun v => (v.1, v.2, z), fp i, z, dev⟩

/-- Coordinates in the petal (line 281). -/
noncomputable def toPtl (al : Ptl2fp.Dict) (r2z : ℝ → ℝ) (petal : ℕ) (fp : Fin 4 → Option (ℝ × ℝ)) :
    Except PyErr (Fin 4 → Option (ℝ × ℝ)) :=
  four fun i =>
    match fp i with
    | some q => do
      let v ← fp2ptl al petal (withZ r2z q.1 q.2)
      return some (v 0, v 1)
    | none => do
      let _ ← Ptl2fp.lookup al petal
      return none

/-- The loop body (lines 278-297). -/
noncomputable def petalRows (al : Ptl2fp.Dict) (r2z : ℝ → ℝ) (pkg met : List MRow) (petal : ℕ) : Except PyErr (List PRow) := do
  let c ← derive al r2z pkg met petal
  let fp : Fin 4 → Option (ℝ × ℝ) := fun i => c.map fun c => (c.1 i, c.2 i)
  let ptl ← toPtl al r2z petal fp
  [0, 1, 2, 3].mapM (row pkg met petal fp ptl)

/-- The script: the rows of the table written. -/
noncomputable def patch (al : Ptl2fp.Dict) (r2z : ℝ → ℝ) (pkg met : List MRow) : Except PyErr (List PRow) := do
  let l ← [0, 2, 3, 5, 7, 8].mapM (petalRows al r2z pkg met)
  return l.flatten

end Verif.Model.GfaPatch
