import Verif.Py.Real
import Verif.Py.LinAlg

/-!
# Model of `py/desimeter/transform/zhaoburge.py` (evaluation part)
-/

namespace Verif.Model.ZhaoBurge
open Verif.Py

/-- Python `int(x)` of a finite float: truncation towards zero. -/
noncomputable def pyInt (x : ℝ) : ℤ := if 0 ≤ x then ⌊x⌋ else ⌈x⌉

/-- `factorial` (lines 11-15), on the integer values it is called with. -/
def factorial (n : Nat) : Nat :=
  if 1 < n then n * factorial (n - 1) else 1

/-- `convertNolltoBW` (lines 17-29).  `np.sqrt` of a negative number is NaN and
`int(nan)` raises `ValueError`. -/
noncomputable def convertNolltoBW (noll : ℤ) : Except PyErr (ℤ × ℤ) :=
  if 2 * (noll : ℝ) - 1.75 < 0 then .error .valueError else
  let n := pyInt (-0.5 + Real.sqrt (2 * noll - 1.75))
  let base := pyInt (0.5 * (n : ℝ) ^ 2 + 0.5 * n + 1)
  let diff := noll - base
  let m := if n % 2 = 0 then 2 * pyInt (0.5 * (diff : ℝ) + 0.7)
    else 2 * pyInt (0.5 * (diff : ℝ) + 1.2) - 1
  .ok (n, if noll % 2 > 0 then -m else m)

/-- `convertWyanttoBW` (lines 31-40). -/
noncomputable def convertWyanttoBW (wyant : ℤ) : Except PyErr (ℤ × ℤ) :=
  if (wyant : ℝ) < 0 then .error .valueError else
  let halfsum := pyInt (Real.sqrt wyant)
  let idif := wyant - halfsum ^ 2
  let halfdif := pyInt ((idif : ℝ) / 2)
  let n := halfsum + halfdif
  let m := halfsum - halfdif
  .ok (n, if idif % 2 > 0 then -m else m)

/-- `getZernRadial` (lines 48-66); `n`, `|m|` with `n - |m|` even. -/
noncomputable def getZernRadial (n m : Nat) (r : ℝ) : ℝ :=
  let halfsum := (n + m) / 2
  let halfdif := (n - m) / 2
  ((List.range (halfdif + 1)).map fun i =>
    ((if i % 2 = 0 then (1:ℝ) else -1) * factorial (n - i)) /
      (factorial i * factorial (halfsum - i) * factorial (halfdif - i)) * r ^ (n - 2 * i)).sum

/-- `getZernAngular` (lines 68-75). -/
noncomputable def getZernAngular (m : ℤ) (theta : ℝ) : ℝ :=
  if m = 0 then 1 else if m > 0 then Real.cos (m * theta) else Real.sin ((|m| : ℤ) * theta)

/-- `getZernFuncXY` (lines 42-46). -/
noncomputable def getZernFuncXY (nm : ℤ × ℤ) (x y : ℝ) : ℝ :=
  let rnorm := Real.sqrt (x * x + y * y)
  let angle := atan2 y x
  getZernRadial nm.1.toNat nm.2.natAbs rnorm * getZernAngular nm.2 angle

/-- `rh` (line 131). -/
noncomputable def rh : ℝ := Real.sqrt 0.5

/-- `squares` (line 138). -/
def squares : List Nat := [0, 1, 4, 4, 3, 6, 6, 8, 8, 8, 8, 5, 10, 10, 10, 10, 12, 12, 12, 12, 12, 12, 7,
  14, 14, 14, 14, 14, 14, 16, 16, 16, 16, 16, 16, 16, 16, 9]

/-- `getZ` (lines 141-146), for the Noll indices 1..21 used below (the `valueError`
and `indexError` cases cannot occur there and are given the value 0). -/
noncomputable def getZ (noll : Nat) (x y : ℝ) : ℝ :=
  match convertNolltoBW noll with
  | .ok nm => Real.sqrt (squares.getD noll 0) * getZernFuncXY nm x y
  | .error _ => 0

/-- Type of a basis field: gradient (S) or rotation (T). -/
inductive Kind | S | T
  deriving DecidableEq

/-- `getZhaoBurgeTerm` (lines 165-238): the two components and the letter of the
label; unknown ids call `quit()` (exit). -/
noncomputable def getZhaoBurgeTerm (polid : Nat) (x y : ℝ) : Except PyErr (ℝ × ℝ × Kind) :=
  match polid with
  | 0 => .ok (getZ 1 x y, 0, .S)  -- S2
  | 1 => .ok (0, getZ 1 x y, .S)  -- S3
  | 2 => .ok (rh * getZ 2 x y, rh * getZ 3 x y, .S)  -- S4
  | 3 => .ok (rh * getZ 3 x y, rh * getZ 2 x y, .S)  -- S5
  | 4 => .ok (rh * getZ 2 x y, -rh * getZ 3 x y, .S)  -- S6
  | 5 => .ok (0.5 * getZ 5 x y, rh * getZ 4 x y - 0.5 * getZ 6 x y, .S)  -- S7
  | 6 => .ok (rh * getZ 4 x y + 0.5 * getZ 6 x y, 0.5 * getZ 5 x y, .S)  -- S8
  | 7 => .ok (rh * getZ 5 x y, rh * getZ 6 x y, .S)  -- S9
  | 8 => .ok (rh * getZ 6 x y, -rh * getZ 5 x y, .S)  -- S10
  | 9 => .ok (rh * getZ 8 x y, rh * getZ 7 x y, .S)  -- S11
  | 10 => .ok (0.5 * getZ 8 x y + 0.5 * getZ 10 x y, -0.5 * getZ 7 x y + 0.5 * getZ 9 x y, .S)  -- S12
  | 11 => .ok (0.5 * getZ 7 x y + 0.5 * getZ 9 x y, 0.5 * getZ 8 x y - 0.5 * getZ 10 x y, .S)  -- S13
  | 12 => .ok (rh * getZ 10 x y, -rh * getZ 9 x y, .S)  -- S14
  | 13 => .ok (rh * getZ 9 x y, rh * getZ 10 x y, .S)  -- S15
  | 14 => .ok (rh * getZ 11 x y + 0.5 * getZ 12 x y, 0.5 * getZ 13 x y, .S)  -- S16
  | 15 => .ok (0.5 * getZ 13 x y, rh * getZ 11 x y - 0.5 * getZ 12 x y, .S)  -- S17
  | 16 => .ok (0.5 * getZ 12 x y + 0.5 * getZ 14 x y, 0.5 * getZ 15 x y - 0.5 * getZ 13 x y, .S)  -- S18
  | 17 => .ok (0.5 * getZ 13 x y + 0.5 * getZ 15 x y, 0.5 * getZ 12 x y - 0.5 * getZ 14 x y, .S)  -- S19
  | 18 => .ok (rh * getZ 14 x y, -rh * getZ 15 x y, .S)  -- S20
  | 19 => .ok (rh * getZ 15 x y, rh * getZ 14 x y, .S)  -- S21
  | 20 => .ok (rh * getZ 16 x y, rh * getZ 17 x y, .S)  -- S22
  | 21 => .ok (0.5 * getZ 17 x y + 0.5 * getZ 19 x y, 0.5 * getZ 16 x y - 0.5 * getZ 18 x y, .S)  -- S23
  | 22 => .ok (0.5 * getZ 16 x y + 0.5 * getZ 18 x y, -0.5 * getZ 17 x y + 0.5 * getZ 19 x y, .S)  -- S24
  | 23 => .ok (0.5 * getZ 19 x y + 0.5 * getZ 21 x y, 0.5 * getZ 18 x y - 0.5 * getZ 20 x y, .S)  -- S25
  | 24 => .ok (0.5 * getZ 18 x y + 0.5 * getZ 20 x y, -0.5 * getZ 19 x y + 0.5 * getZ 21 x y, .S)  -- S26
  | 25 => .ok (rh * getZ 21 x y, rh * getZ 20 x y, .S)  -- S27
  | 26 => .ok (rh * getZ 20 x y, -rh * getZ 21 x y, .S)  -- S28
  | 27 => .ok (rh * getZ 3 x y, -rh * getZ 2 x y, .T)  -- T4
  | 28 => .ok (rh * getZ 4 x y - 0.5 * getZ 6 x y, -0.5 * getZ 5 x y, .T)  -- T7
  | 29 => .ok (0.5 * getZ 5 x y, -rh * getZ 4 x y - 0.5 * getZ 6 x y, .T)  -- T8
  | 30 => .ok (rh * getZ 7 x y, -rh * getZ 8 x y, .T)  -- T11
  | 31 => .ok (-0.5 * getZ 7 x y + 0.5 * getZ 9 x y, -0.5 * getZ 8 x y - 0.5 * getZ 10 x y, .T)  -- T12
  | 32 => .ok (0.5 * getZ 8 x y - 0.5 * getZ 10 x y, -0.5 * getZ 7 x y - 0.5 * getZ 9 x y, .T)  -- T13
  | _ => .error (.sysExit 0)

/-- `getZhaoBurgeXY` (lines 148-163) at one point: `zip` stops at the shorter list. -/
noncomputable def getZhaoBurgeXY (polids : List Nat) (coeffs : List ℝ) (x y : ℝ) : Except PyErr (ℝ × ℝ) :=
  (polids.zip coeffs).foldlM (fun (d : ℝ × ℝ) pc => do
    let t ← getZhaoBurgeTerm pc.1 x y
    return (d.1 + pc.2 * t.1, d.2 + pc.2 * t.2.1)) (0, 0)

/-- `transform` (lines 248-264) at one point. -/
noncomputable def transform (x y scale rotation offset_x offset_y : ℝ)
    (zb : Option (List Nat × List ℝ)) : Except PyErr (ℝ × ℝ) := do
  let x := x + offset_x
  let y := y + offset_y
  let xx := (x * Real.cos rotation - y * Real.sin rotation) * scale
  let yy := (x * Real.sin rotation + y * Real.cos rotation) * scale
  match zb with
  | none => return (xx, yy)
  | some (ids, cs) =>
    let d ← getZhaoBurgeXY ids cs xx yy
    return (xx + d.1, yy + d.2)

/-- A matched pair of catalogues entry of `fitZhaoBurge`: `(x, y)` and `(xp, yp)`. -/
structure FitPt where
  x : ℝ
  y : ℝ
  xp : ℝ
  yp : ℝ

/-- Rows of the design matrix: first all x components, then all y components
(`true`: the y component), lines 326-330. -/
def fitRows (l : List FitPt) : List (FitPt × Bool) := l.map (·, false) ++ l.map (·, true)

/-- `concatenate([dx, dy])` (lines 306-307, 333). -/
def fitTarget (q : FitPt × Bool) : ℝ := if q.2 then q.1.yp - q.1.y else q.1.xp - q.1.x

/-- `H[.., i]` (lines 326-330); only used after all ids have been found to be known. -/
noncomputable def fitDesign (polids : List Nat) (i : Fin polids.length) (q : FitPt × Bool) : ℝ :=
  match getZhaoBurgeTerm polids[i] q.1.x q.1.y with
  | .ok t => if q.2 then t.2.1 else t.1
  | .error _ => 0

/-- `fitZhaoBurge` (lines 305-336): the loop over the ids exits on the first unknown
one; then the normal equations are solved. -/
noncomputable def fitZhaoBurge (polids : List Nat) (l : List FitPt) :
    Except PyErr (Fin polids.length → ℝ) :=
  if polids.any (33 ≤ ·) then .error (.sysExit 0) else
  linSolve (gram (fitDesign polids) (fitRows l)) (moments (fitDesign polids) fitTarget (fitRows l))

end Verif.Model.ZhaoBurge
