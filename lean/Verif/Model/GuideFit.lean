import Verif.Model.PredictRot

/-!
# bin/desi_fit_guide_star_coordinates

The script which fits the pointing, field rotation and scales to a catalogue of guide stars (plots are left out). The header is
that of Model/PredictRot, the fit that of Model/FieldFit. Exceptions of the reading of the catalogue file are not modelled. The
switches of the transforms are part of `env`, which depends on the two angles of the corrector.
-/

namespace Verif.Model.GuideFit
open Verif.Py Verif.Model.FieldFit Verif.Model.PredictRot

/-- A row of the catalogue with the pixel and the petal. -/
structure GuideRow where
  cat : CatRow
  pix : ℝ × ℝ
  petal : ℤ

/-- The catalogue: which columns are present, and the rows. -/
structure GuideCat where
  mjdObs : Option (List ℝ)
  hasX : Bool
  hasGaia : Bool
  hasPm : Bool
  rows : List GuideRow

/-- Proper motion (fieldmodel.py lines 112-131). -/
noncomputable def rowWithPm (year : ℝ) (r : GuideRow) : GuideRow := { r with cat := withPm year r.cat }

/-- Columns used by `fit_tancorr` (fieldmodel.py lines 152-159). -/
def starOf (r : GuideRow) : Star := ⟨r.pix, r.petal, (r.cat.raGaia, r.cat.decGaia)⟩

open Classical in
/-- fieldmodel.py lines 138-147 with the default `max_sep_arcsec` of line 88. -/
noncomputable def selectStars (rows : List GuideRow) : Except PyErr (List Star) :=
  let sel := rows.filter fun r => matchDist r.cat < 2
  if sel.length = 0 then .error .runtimeError else .ok (sel.map starOf)

/-- `fm.mjd` after `read_guide_stars_catalog` (fieldmodel.py lines 96-98). -/
noncomputable def catMjd (mjd : Option ℝ) (cat : GuideCat) : Option ℝ :=
  match cat.mjdObs with
  | some l => some (mean l)
  | none => mjd

/-- `read_guide_stars_catalog` (fieldmodel.py lines 100-147), `mjd` being that of the catalogue if it has one. -/
noncomputable def readStars (jyear : ℝ → ℝ) (mjd : Option ℝ) (cat : GuideCat) : Except PyErr (List Star) :=
  if !cat.hasX || !cat.hasGaia then .error .runtimeError
  else if cat.hasPm then
    match mjd with
    | none => .error .runtimeError
    | some m => selectStars (cat.rows.map (rowWithPm (jyear m)))
  else selectStars cat.rows

/-- `fm.mjd` after lines 46-50 of the script. -/
def headerMjd (h : Header) : Option ℝ :=
  match h.nums.get? "MJD-OBS".toList with
  | some m => some m
  | none => h.nums.get? "TCSMJD".toList

/-- What the script writes: the attributes of the field model. -/
structure Written where
  field : Field
  expid : ℝ
  adc1 : ℝ
  adc2 : ℝ

/-- `mjd2lst(fm.mjd)` (line 53): `None + 2400000.5` is a TypeError. -/
def lstOf (mjd2lst : ℝ → ℝ) (mjd : Option ℝ) : Except PyErr (ℝ × ℝ) :=
  match mjd with
  | none => .error .typeError
  | some m => .ok (m, mjd2lst m)

/-- Lines 28-55 of the script. -/
noncomputable def fit (env : ℝ → ℝ → Env) (jyear : ℝ → ℝ) (parse : PyStr → Option ℝ) (headers : List Header) (cat : GuideCat) :
    Except PyErr Written := do
  let h ← chooseHeader headers
  let ra ← number h "TARGTRA".toList
  let dec ← number h "TARGTDEC".toList
  let expid ← number h "EXPID".toList
  let hexrot ← Hexrot.readHexrotDeg parse h.vals
  let adc1 ← number h "ADC1PHI".toList
  let adc2 ← number h "ADC2PHI".toList
  let mjd := catMjd (headerMjd h) cat
  let stars ← readStars jyear mjd cat
  let t ← lstOf (env adc1 adc2).mjd2lst mjd
  let f ← fitTancorr (env adc1 adc2)
    ⟨ra, dec, some t.1, some t.2, some hexrot, some 1, some 1, some 0, some 0, some 0, 0, 0⟩ stars cat.mjdObs none none none
  return ⟨f, expid, adc1, adc2⟩

/-- Lines 57-66: `exists` tells which directories there are. -/
noncomputable def script (env : ℝ → ℝ → Env) (jyear : ℝ → ℝ) (parse : PyStr → Option ℝ) (headers : List Header) (cat : GuideCat)
    («exists» : PyStr → Bool) (makeDirectory : Bool) (directory : PyStr) : Except PyErr Written := do
  let w ← fit env jyear parse headers cat
  if makeDirectory || directory = [] || «exists» directory then return w
  else .error .fileNotFound

end Verif.Model.GuideFit
