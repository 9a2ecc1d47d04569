import Verif.Py.Real

/-!
# Model of `py/desimeter/transform/xy2tp.py`
-/

namespace Verif.Model.Xy2tp
open Verif.Py

/-- `sys.float_info.epsilon` (xy2tp.py line 22). -/
noncomputable def epsilon : ℝ := 1 / 2 ^ 52

/-- `numeric_contraction = epsilon*10` (xy2tp.py line 59). -/
noncomputable def contraction : ℝ := epsilon * 10

/-- `ranges = [[tA, tB], [pA, pB]]`: the two ends of each range in the order
the caller gave them (xy2tp.py line 44). -/
structure Ranges where
  t : ℝ × ℝ
  p : ℝ × ℝ

/-- `tp2xy` (xy2tp.py lines 25-36). -/
noncomputable def tp2xy (tp : ℝ × ℝ) (r1 r2 : ℝ) : ℝ × ℝ :=
  let t := radians tp.1
  let tPlusP := t + radians tp.2
  (r1 * Real.cos t + r2 * Real.cos tPlusP, r1 * Real.sin t + r2 * Real.sin tPlusP)

/-- `_wrap_into_range` (xy2tp.py lines 152-175): new angle and failure flag. -/
noncomputable def wrapIntoRange (angle rangeMin rangeMax : ℝ) : ℝ × Bool :=
  if angle < rangeMin then
    let new := angle + (⌊(rangeMax - angle) / 360⌋ : ℤ) * 360
    if new < rangeMin then (rangeMin, true) else (new, false)
  else if angle > rangeMax then
    let new := angle - (⌊(angle - rangeMin) / 360⌋ : ℤ) * 360
    if new > rangeMax then (rangeMax, true) else (new, false)
  else (angle, false)

/-- `_wrap_TP_into_ranges` (xy2tp.py lines 135-150). -/
noncomputable def wrapTP (tp : ℝ × ℝ) (rg : Ranges) : (ℝ × ℝ) × Bool :=
  let a := wrapIntoRange tp.1 (min rg.t.1 rg.t.2) (max rg.t.1 rg.t.2)
  let b := wrapIntoRange tp.2 (min rg.p.1 rg.p.2) (max rg.p.1 rg.p.2)
  ((a.1, b.1), a.2 || b.2)

/-- The target radius moved into the contracted annulus
(`HYPOT`, xy2tp.py lines 64-76). -/
noncomputable def clampHypot (hyp r1 r2 : ℝ) : ℝ :=
  let outer := r1 + r2 - contraction
  let inner := |r1 - r2| + contraction
  if hyp ≥ outer then outer else if hyp ≤ inner then inner else hyp

/-- `hypot > outer or hypot < inner` before contraction (xy2tp.py lines 66-69). -/
noncomputable def annulusFail (hyp r1 r2 : ℝ) : Bool :=
  decide (hyp > r1 + r2 ∨ hyp < |r1 - r2|)

/-- The clamped `arccos_arg` (xy2tp.py lines 81-83). -/
noncomputable def arccosArg (X Y r1 r2 : ℝ) : ℝ :=
  min (max ((X ^ 2 + Y ^ 2 - (r1 ^ 2 + r2 ^ 2)) / (2 * r1 * r2)) (-1)) 1

/-- `T` in radians, for a given `P` (xy2tp.py line 85). -/
noncomputable def thetaOf (angle P r1 r2 : ℝ) : ℝ :=
  angle - atan2 (r2 * Real.sin P) (r1 + r2 * Real.cos P)

/-- An entry of `options` (xy2tp.py lines 93, 107, 117). -/
structure Opt where
  tp : ℝ × ℝ
  rangeFail : Bool

/-- Wrap a configuration into the ranges and record the failure
(xy2tp.py lines 89, 106, 116). -/
noncomputable def mkOpt (tp : ℝ × ℝ) (rg : Ranges) : Opt :=
  ⟨(wrapTP tp rg).1, (wrapTP tp rg).2⟩

/-- The configuration with the arms reflected across the vector `(X,Y)`,
in degrees, before wrapping (xy2tp.py lines 96-105).  Simplification: for a
target on the y axis the float code has `X = HYPOT*cos(pi/2) = HYPOT*6e-17`,
never exactly 0, and the huge slope `m` makes it compute, up to rounding, the
limit `(-tx, ty)`; over ℝ `X = 0` exactly and the model uses that limit. -/
noncomputable def reflected (X Y T r1 : ℝ) : ℝ × ℝ :=
  let tx := r1 * Real.cos T
  let ty := r1 * Real.sin T
  let m := Y / X
  let txAlt := if X = 0 then -tx else ((1 - m ^ 2) * tx + 2 * m * ty) / (m ^ 2 + 1)
  let tyAlt := if X = 0 then ty else ((m ^ 2 - 1) * ty + 2 * m * tx) / (m ^ 2 + 1)
  let pxAlt := X - txAlt
  let pyAlt := Y - tyAlt
  let Talt := atan2 tyAlt txAlt
  let Palt := atan2 pyAlt pxAlt - Talt
  (degrees Talt, degrees Palt)

/-- The options obtained by turning theta by -360 and +360 degrees
(xy2tp.py lines 110-117); nothing for an option that failed its range. -/
noncomputable def turns (rg : Ranges) (o : Opt) : List Opt :=
  if o.rangeFail then []
  else [mkOpt (o.tp.1 + (-360), o.tp.2) rg, mkOpt (o.tp.1 + 360, o.tp.2) rg]

/-- The whole `options` list (xy2tp.py lines 93-117). -/
noncomputable def optionList (primary : Opt) (alt : ℝ × ℝ) (rg : Ranges) : List Opt :=
  let base := [primary, mkOpt alt rg]
  base ++ base.flatMap (turns rg)

/-- `closeness` (xy2tp.py line 121). -/
noncomputable def closeness (g : ℝ) (o : Opt) : ℝ := |o.tp.1 - g|

/-- `closeness_fail` (xy2tp.py line 122). -/
noncomputable def closenessFail (g tol : ℝ) (o : Opt) : Bool := decide (closeness g o > tol)

/-- Selection among the options (xy2tp.py lines 120-130): if all options fail
one of the two tests the primary option is kept, otherwise the first option
after the three stable sorts is taken. -/
noncomputable def select (g tol : ℝ) (primary : Opt) (options : List Opt) : Opt :=
  let allFail := options.all (closenessFail g tol) || options.all (·.rangeFail)
  if allFail then primary
  else
    let s1 := pySort (closeness g) options
    let s2 := pySort (closenessFail g tol) s1
    let s3 := pySort (·.rangeFail) s2
    s3.headD primary

/-- `xy2tp` (xy2tp.py lines 38-133).  Python raises `ZeroDivisionError` if
`2*r1*r2 = 0` (line 81).  (`m = Y/X`, line 98, see `reflected`.) -/
noncomputable def xy2tp (x y r1 r2 : ℝ) (rg : Ranges) (guess : Option ℝ) (tol : ℝ) :
    Except PyErr ((ℝ × ℝ) × Bool) :=
  if 2 * r1 * r2 = 0 then .error .zeroDivision
  else
    let hyp := hypot x y
    let angle := atan2 y x
    let HYPOT := clampHypot hyp r1 r2
    let X := HYPOT * Real.cos angle
    let Y := HYPOT * Real.sin angle
    let P := Real.arccos (arccosArg X Y r1 r2)
    let T := thetaOf angle P r1 r2
    let primary := mkOpt (degrees T, degrees P) rg
    match guess with
    | none => .ok (primary.tp, annulusFail hyp r1 r2 || primary.rangeFail)
    | some g =>
      let o := select g tol primary (optionList primary (reflected X Y T r1) rg)
      .ok (o.tp, annulusFail hyp r1 r2 || o.rangeFail)

end Verif.Model.Xy2tp
