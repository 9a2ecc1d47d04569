import Verif.Model.SimpleCorr

/-!
# Model of the guide star fits of `py/desimeter/fieldmodel.py`

`TanCorr.fit`, and of `FieldModel`: `read_guide_stars_catalog`, `fit_tancorr`, `compute_fieldrot`,
`fp2radec`, `radec2fp`. Not-a-number attributes are `none`. Tangent plane coordinates outside the unit disc
(NaN in the code) are not modelled, nor are declinations of exactly ±90 degrees. The routines
`gfa2fp`, `fp2tan`, `tan2fp`, `radec2tan`, `tan2radec` and `mjd2lst` (modelled elsewhere) are
parameters here.
-/

namespace Verif.Model.FieldFit
open Verif.Py Verif.Model.Trig Verif.Model.Radec2tan Verif.Model.SimpleCorr Classical

/-! ### `TanCorr.fit` -/

/-- Attributes of a `TanCorr` after `fit` (fieldmodel.py lines 313-321). -/
structure TanFit where
  dha : ℝ
  ddec : ℝ
  sxx : Option ℝ
  syy : Option ℝ
  sxy : Option ℝ
  rotDeg : Option ℝ
  nstars : ℕ
  rmsArcsec : ℝ

/-- Floating point division whose result is not finite for a zero divisor. -/
noncomputable def fdiv (a b : ℝ) : Option ℝ := if b = 0 then none else some (a / b)

/-- `x1t, y1t` for pointing offset `o` (lines 374, 376, 381). -/
noncomputable def moved (o : ℝ × ℝ) (q : Pair) : ℝ × ℝ := hadec2xy (xy2hadec (q.x1, q.y1) (0, 0)) o

/-- One turn of the first loop (lines 376-380). -/
noncomputable def offsetStep (l : List Pair) (o : ℝ × ℝ) : ℝ × ℝ :=
  (o.1 - degrees (mean (l.map fun q => q.x2 - (moved o q).1)),
   o.2 - degrees (mean (l.map fun q => q.y2 - (moved o q).2)))

/-- Pairs with the first position moved. -/
noncomputable def movedPairs (l : List Pair) (o : ℝ × ℝ) : List Pair :=
  l.map fun q => ⟨(moved o q).1, (moved o q).2, q.x2, q.y2⟩

/-- Interpretation of the fitted matrix (lines 420-432): rotation, sxx, syy, sxy. -/
noncomputable def interpret (ax ay : Fin 3 → ℝ) : Option ℝ × Option ℝ × Option ℝ × Option ℝ :=
  let s := hypot (ax 1 + ay 2) (ay 1 - ax 2)
  if s = 0 then (none, none, none, none) else
  let sa := (ay 1 - ax 2) / s
  let ca := (ax 1 + ay 2) / s
  let sxy := sa * ax 1 + ca * ay 1 - s * ca * sa
  (some (arctan2d sa ca), fdiv (ax 1 - sxy * sa) ca, fdiv (ay 1 - sxy * ca) sa, some sxy)

/-- `TanCorr.fit` (lines 353-432); the arrays have equal shapes by construction. -/
noncomputable def tanFit (l : List Pair) : Except PyErr TanFit := do
  let o := (offsetStep l)^[4] (0, 0)
  let l' := movedPairs l o
  let Ai ← linInv (gram design3 l')
  let ax := Ai.mulVec (moments design3 (·.x2) l')
  let ay := Ai.mulVec (moments design3 (·.y2) l')
  let rms := Real.sqrt (mean (l'.map fun q =>
    (q.x2 - (ax 0 + ax 1 * q.x1 + ax 2 * q.y1)) ^ 2 + (q.y2 - (ay 0 + ay 1 * q.x1 + ay 2 * q.y1)) ^ 2))
  let r := interpret ax ay
  return { dha := o.1 + -degrees (ax 0), ddec := o.2 + -degrees (ay 0), rotDeg := r.1, sxx := r.2.1, syy := r.2.2.1,
           sxy := r.2.2.2, nstars := l'.length, rmsArcsec := degrees rms * 3600 }

/-! ### Guide star catalogue -/

/-- A catalogue row; `pmra`, `pmdec` are `none` when not finite. -/
structure CatRow where
  ra : ℝ
  dec : ℝ
  raGaia : ℝ
  decGaia : ℝ
  pmra : Option ℝ
  pmdec : Option ℝ
  refEpoch : ℝ

/-- A catalogue: which columns are present, and the rows. -/
structure Catalog where
  mjdObs : Option (List ℝ)
  hasX : Bool
  hasGaia : Bool
  hasPm : Bool
  rows : List CatRow

/-- Proper motion (lines 112-128). -/
noncomputable def withPm (year : ℝ) (r : CatRow) : CatRow :=
  let pmra := r.pmra.getD 0
  let pmdec := r.pmdec.getD 0
  { r with raGaia := r.raGaia + (year - r.refEpoch) * pmra / 3600000 / cosd r.decGaia,
           decGaia := r.decGaia + (year - r.refEpoch) * pmdec / 3600000 }

/-- `dr` (lines 137-140) in arcsec. -/
noncomputable def matchDist (r : CatRow) : ℝ :=
  hypot ((r.ra - r.raGaia) * cosd r.decGaia * 3600) ((r.dec - r.decGaia) * 3600)

/-- `self.mjd` after lines 96-98. -/
noncomputable def mjdAfter (mjd : Option ℝ) (cat : Catalog) : Option ℝ :=
  match cat.mjdObs with
  | some l => some (mean l)
  | none => mjd

/-- `read_guide_stars_catalog` (lines 88-146): result and `self.mjd` afterwards. `jyear` converts an MJD to
decimal years (astropy). -/
noncomputable def readGuideStars (jyear : ℝ → ℝ) (mjd : Option ℝ) (cat : Catalog) (maxSep : ℝ) :
    Except PyErr (List CatRow) × Option ℝ :=
  let mjd' := mjdAfter mjd cat
  if !cat.hasX || !cat.hasGaia then (.error .runtimeError, mjd') else
  let select := fun rows : List CatRow =>
    let sel := rows.filter fun r => matchDist r < maxSep
    if sel.length = 0 then (Except.error PyErr.runtimeError, mjd') else (.ok sel, mjd')
  if cat.hasPm then
    match mjd' with
    | none => (.error .runtimeError, mjd')
    | some m => select (cat.rows.map (withPm (jyear m)))
  else select cat.rows

/-! ### `FieldModel` -/

/-- Attributes of a `FieldModel` used here (lines 18-40); `none` is `None` for `mjd`, `lst`, `hexrot`
and NaN for the fitted numbers. -/
structure Field where
  ra : ℝ
  dec : ℝ
  mjd : Option ℝ
  lst : Option ℝ
  hexrot : Option ℝ
  sxx : Option ℝ
  syy : Option ℝ
  sxy : Option ℝ
  zp : Option ℝ
  fieldrot : Option ℝ
  nstars : ℕ
  rmsArcsec : ℝ

/-- Routines called; `gfa2fp` is the row by row effect of `all_gfa2fp` (C64), the transforms use the
`adc1`, `adc2` and switches of the object. -/
structure Env where
  gfa2fp : ℤ → ℝ × ℝ → ℝ × ℝ
  fp2tan : ℝ × ℝ → ℝ × ℝ
  tan2fp : ℝ × ℝ → ℝ × ℝ
  radec2tan : ℝ × ℝ → ℝ × ℝ → (mjd lst hexrot : ℝ) → ℝ × ℝ
  tan2radec : ℝ × ℝ → ℝ × ℝ → (mjd lst hexrot : ℝ) → ℝ × ℝ
  mjd2lst : ℝ → ℝ

/-- A star for the fit. -/
structure Star where
  pix : ℝ × ℝ
  petal : ℤ
  gaia : ℝ × ℝ

/-- Times and hexapod angle to use (lines 161-188): mjd, hexrot, lst. -/
noncomputable def inputs (env : Env) (f : Field) (mjdObs : Option (List ℝ)) (mjd hexrot lst : Option ℝ) :
    Except PyErr (ℝ × ℝ × ℝ) := do
  let m ← match mjd with
    | some m => .ok m
    | none => match f.mjd with
      | some m => .ok m
      | none => match mjdObs with
        | some l => .ok (mean l)
        | none => .error .runtimeError
  let h ← match hexrot with
    | some h => .ok h
    | none => match f.hexrot with
      | some h => .ok h
      | none => .error .runtimeError
  let t ← match lst with
    | some t => .ok t
    | none => match f.lst with
      | some t => .ok t
      | none => .ok (env.mjd2lst m)
  return (m, h, t)

/-- Stars with metrology, with focal plane positions (lines 190-200): those with `x_fp != 0`. -/
noncomputable def usable (env : Env) (stars : List Star) : List (Star × (ℝ × ℝ)) :=
  (stars.map fun s => (s, env.gfa2fp s.petal s.pix)).filter fun p => p.2.1 ≠ 0

/-- Pairs for `correction.fit` (lines 203, 210) at a pointing. -/
noncomputable def pairsAt (env : Env) (m h t : ℝ) (u : List (Star × (ℝ × ℝ))) (tel : ℝ × ℝ) : List Pair :=
  u.map fun p =>
    let a := env.fp2tan p.2
    let b := env.radec2tan p.1.gaia tel m t h
    ⟨a.1, a.2, b.1, b.2⟩

/-- One turn of the loop (lines 207-217): new pointing and correction. -/
noncomputable def pointStep (env : Env) (m h t : ℝ) (u : List (Star × (ℝ × ℝ))) (tel : ℝ × ℝ) :
    Except PyErr ((ℝ × ℝ) × TanFit) := do
  let c ← tanFit (pairsAt env m h t u tel)
  let dec := tel.2 - c.ddec
  return ((tel.1 + c.dha / cosd dec, dec), c)

/-- `range(3)` (line 207). -/
noncomputable def pointLoop (env : Env) (m h t : ℝ) (u : List (Star × (ℝ × ℝ))) (tel : ℝ × ℝ) :
    Except PyErr ((ℝ × ℝ) × TanFit) := do
  let a ← pointStep env m h t u tel
  let b ← pointStep env m h t u a.1
  pointStep env m h t u b.1

/-- `tancorr_inst2sky` (lines 255-265) with scales and rotation that are numbers. -/
noncomputable def inst2sky (sxx syy sxy zp : ℝ) (p : ℝ × ℝ) : ℝ × ℝ :=
  (⟨0, 0, sxx, syy, sxy, zp, 0, 0⟩ : TanCorr).apply p.1 p.2

/-- `tancorr_sky2inst` (lines 269-279). -/
noncomputable def sky2inst (sxx syy sxy zp : ℝ) (p : ℝ × ℝ) : ℝ × ℝ :=
  (⟨0, 0, sxx, syy, sxy, zp, 0, 0⟩ : TanCorr).applyInverse p.1 p.2

/-- The four fitted numbers, when all are numbers. -/
def scales (f : Field) : Option (ℝ × ℝ × ℝ × ℝ) := do
  return (← f.sxx, ← f.syy, ← f.sxy, ← f.zp)

/-- `fp2radec` (lines 299-303); `none` is NaN, `typeError` a missing time or angle. -/
noncomputable def fp2radec (env : Env) (f : Field) (p : ℝ × ℝ) : Except PyErr (Option (ℝ × ℝ)) :=
  match f.mjd, f.lst, f.hexrot with
  | some m, some t, some h =>
    .ok ((scales f).map fun s => env.tan2radec (inst2sky s.1 s.2.1 s.2.2.1 s.2.2.2 (env.fp2tan p)) (f.ra, f.dec) m t h)
  | _, _, _ => .error .typeError

/-- `radec2fp` (lines 305-309). -/
noncomputable def radec2fp (env : Env) (f : Field) (p : ℝ × ℝ) : Except PyErr (Option (ℝ × ℝ)) :=
  match f.mjd, f.lst, f.hexrot with
  | some m, some t, some h =>
    .ok ((scales f).map fun s => env.tan2fp (sky2inst s.1 s.2.1 s.2.2.1 s.2.2.2 (env.radec2tan p (f.ra, f.dec) m t h)))
  | _, _, _ => .error .typeError

/-- The four outer points of the cross (lines 240-242), in radians. -/
noncomputable def crossPts : List (ℝ × ℝ) :=
  [(radians 1, 0), (0, radians 1), (-radians 1, 0), (0, -radians 1)]

/-- Sine of the angle from the second to the first vector (line 252); `none` for a zero vector. -/
noncomputable def turn (a b : ℝ × ℝ) : Option ℝ :=
  fdiv (a.2 * b.1 - a.1 * b.2) (Real.sqrt ((a.1 ^ 2 + a.2 ^ 2) * (b.1 ^ 2 + b.2 ^ 2)))

/-- `compute_fieldrot` (lines 237-252). -/
noncomputable def computeFieldrot (env : Env) (f : Field) : Except PyErr (Option ℝ) := do
  let sky := fun q => fp2radec env f (env.tan2fp q)
  let c ← sky (0, 0)
  let pts ← crossPts.mapM sky
  match f.lst with
  | none => .error .typeError
  | some t =>
    return do
      let c ← c
      let pts ← pts.mapM id
      let x2 := pts.map fun p => hadec2xy (t - p.1, p.2) (t - c.1, c.2)
      let s ← (List.zipWith turn crossPts x2).mapM id
      return degrees (mean s)

/-- `fit_tancorr` (lines 148-234). Attributes set before an exception is raised are not modelled. -/
noncomputable def fitTancorr (env : Env) (f : Field) (stars : List Star) (mjdObs : Option (List ℝ))
    (mjd hexrot lst : Option ℝ) : Except PyErr Field := do
  let (m, h, t) ← inputs env f mjdObs mjd hexrot lst
  let u := usable env stars
  let (tel, c) ← pointLoop env m h t u (f.ra, f.dec)
  let g : Field := { f with ra := tel.1, dec := tel.2, mjd := some m, lst := some t, hexrot := some h,
                            sxx := c.sxx, syy := c.syy, sxy := c.sxy, zp := c.rotDeg, nstars := c.nstars,
                            rmsArcsec := c.rmsArcsec }
  let r ← computeFieldrot env g
  return { g with fieldrot := r }

end Verif.Model.FieldFit
