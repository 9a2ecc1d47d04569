import Verif.Model.FieldFit
import Verif.Model.FieldRotRate
import Verif.Model.Hexrot
import Verif.Py.LinAlg

/-!
# bin/desi_predict_fieldrot, bin/desi_fit_field_rotation_rate and fieldmodel.py lines 450-493, 546-561

`fieldrot`, `dfieldrotdt_physical_model`, `dfieldrotdt`, the script which predicts the rotation of the field and its rate, and the
fit of the rate (lines 34-66 of the script; plots and statistics are left out). A header of a FITS file has numbers and
texts under its keys; reading an HDU that does not exist is `fileNotFound` (OSError). `parse` stands for `float(text)`. The transforms
are those of `FieldFit.Env` with `adc1 = adc2 = 0`. Formatting to three decimals is not modelled.
-/

namespace Verif.Model.PredictRot
open Verif.Py Verif.Model.FieldFit

/-- `fieldrot` (fieldmodel.py lines 450-475): the attributes of a new `FieldModel` (lines 19-40) with the arguments. -/
noncomputable def fieldrot (env : Env) (ra dec mjd lst hexrot : ℝ) : Except PyErr (Option ℝ) :=
  computeFieldrot env ⟨ra, dec, some mjd, some lst, some hexrot, some 1, some 1, some 0, some 0, some 0, 0, 0⟩

/-- `dfieldrotdt_physical_model` (lines 478-493). -/
noncomputable def physicalRate (env : Env) (ra dec mjd lst : ℝ) : Except PyErr (Option ℝ) := do
  let oneMinute : ℝ := 1 / 60 / 24 * 360
  let a ← fieldrot env ra dec mjd (lst + oneMinute) 0
  let b ← fieldrot env ra dec mjd lst 0
  return do
    let a ← a
    let b ← b
    return 3600 * (a - b)

/-- `dfieldrotdt` (lines 546-561) for scalars: `mjd` is not used. -/
noncomputable def dfieldrotdt (ra dec lst : ℝ) : Except PyErr ℝ := do
  let r ← FieldRotRate.rate (n := 1) (fun _ => ra) (fun _ => dec) lst
  return r 0

/-- The header of an HDU: keys with numbers (TARGTRA, TARGTDEC, MJD-OBS), TCSST, whether HEXPOS is there, and the values seen by
`read_hexrot_deg`. -/
structure Header where
  nums : Dict PyStr ℝ
  tcsst : Option PyStr
  hexpos : Bool
  vals : Dict PyStr Hexrot.Val

/-- Options of the script. -/
structure Args where
  ra : Option ℝ
  dec : Option ℝ
  lst : Option ℝ
  ha : Option ℝ
  mjd : Option ℝ
  hexrotArcsec : ℝ
  /-- the headers of the file given, if any -/
  fits : Option (List Header)

/-- `header[key]`. -/
def number (h : Header) (k : PyStr) : Except PyErr ℝ :=
  match h.nums.get? k with
  | some v => .ok v
  | none => .error .keyError

/-- Header to use (lines 40-47 of the script). -/
def chooseHeader (l : List Header) : Except PyErr Header :=
  match l with
  | [] => .error .fileNotFound
  | h :: t =>
    if (h.nums.get? "TARGTRA".toList).isSome then .ok h
    else
      match t with
      | [] => .error .fileNotFound
      | h' :: _ => if (h'.nums.get? "TARGTRA".toList).isSome then .ok h' else .error (.sysExit 12)

/-- `float(vals[i])`. -/
noncomputable def floatAt (parse : PyStr → Option ℝ) (vals : List PyStr) (i : ℕ) : Except PyErr ℝ :=
  match vals[i]? with
  | none => .error .indexError
  | some s =>
    match parse s with
    | none => .error .valueError
    | some v => .ok v

/-- Line 54. -/
noncomputable def lstOfText (parse : PyStr → Option ℝ) (s : PyStr) : Except PyErr ℝ := do
  let vals := split [':'] s
  let a ← floatAt parse vals 0
  let b ← floatAt parse vals 1
  let c ← floatAt parse vals 2
  return (a + b / 60 + c / 3600) / 24 * 360

/-- Lines 52-59. -/
noncomputable def headerLst (parse : PyStr → Option ℝ) (mjd2lst : ℝ → ℝ) (h : Header) (mjd : ℝ) : Except PyErr ℝ :=
  match h.tcsst with
  | some s => lstOfText parse s
  | none => .ok (mjd2lst mjd)

/-- Lines 61-62. -/
noncomputable def headerHexrot (parse : PyStr → Option ℝ) (h : Header) : Except PyErr ℝ :=
  if h.hexpos then Hexrot.readHexrotDeg parse h.vals else .ok 0

/-- What is predicted for: `ra, dec, mjd, lst, hexrot_deg`. -/
structure Inputs where
  ra : ℝ
  dec : ℝ
  mjd : ℝ
  lst : ℝ
  hexrot : ℝ

/-- Lines 39-62. -/
noncomputable def fromHeader (parse : PyStr → Option ℝ) (mjd2lst : ℝ → ℝ) (l : List Header) : Except PyErr Inputs := do
  let h ← chooseHeader l
  let ra ← number h "TARGTRA".toList
  let dec ← number h "TARGTDEC".toList
  let mjd ← number h "MJD-OBS".toList
  let lst ← headerLst parse mjd2lst h mjd
  let hexrot ← headerHexrot parse h
  return ⟨ra, dec, mjd, lst, hexrot⟩

/-- Lines 68-73: `None + float` and `mjd2lst(None)` raise TypeError. -/
noncomputable def argsLst (mjd2lst : ℝ → ℝ) (a : Args) : Except PyErr ℝ :=
  match a.lst, a.ha with
  | some t, _ => .ok t
  | none, some h => match a.ra with
    | some r => .ok (r + h)
    | none => .error .typeError
  | none, none => match a.mjd with
    | some m => .ok (mjd2lst m)
    | none => .error .typeError

/-- Lines 64-80. -/
noncomputable def fromArgs (mjd2lst : ℝ → ℝ) (a : Args) : Except PyErr Inputs := do
  let lst ← argsLst mjd2lst a
  let hexrot := if a.hexrotArcsec ≠ 0 then a.hexrotArcsec / 3600 else 0
  match a.ra, a.dec, a.mjd with
  | some ra, some dec, some mjd => return ⟨ra, dec, mjd, lst, hexrot⟩
  | _, _, _ => .error (.sysExit 12)

/-- Lines 31-80. -/
noncomputable def inputs (parse : PyStr → Option ℝ) (mjd2lst : ℝ → ℝ) (a : Args) : Except PyErr Inputs :=
  match a.fits with
  | some l => fromHeader parse mjd2lst l
  | none => fromArgs mjd2lst a

/-- The script: field rotation (`none`: NaN) and rate printed. An error of the rate comes after the first line is printed. -/
noncomputable def predict (env : Env) (parse : PyStr → Option ℝ) (a : Args) : Except PyErr (Option ℝ × ℝ) := do
  let i ← inputs parse env.mjd2lst a
  let rot ← fieldrot env i.ra i.dec i.mjd i.lst i.hexrot
  let rate ← dfieldrotdt i.ra i.dec i.lst
  return (rot, rate)

/-! ## The fit of the rate -/

/-- A row of the guide data. -/
structure Guide where
  mjd : ℝ
  ha : ℝ
  dec : ℝ
  rate : ℝ
  rms : ℝ
  nIter : ℤ
  slopeStd : ℝ

/-- Selection (desi_fit_field_rotation_rate line 34). -/
noncomputable def selectGuide (mjdSplit : ℝ) (l : List Guide) : List Guide :=
  l.filter fun g => g.mjd < mjdSplit ∧ g.rate ≠ 0 ∧ g.rms < 200 ∧ g.nIter > 30 ∧ g.slopeStd < 0.2

/-- The rows of `h` (lines 40-43): `xr=sind(x)`, `yr=(y-30)/30`. -/
noncomputable def design : Fin 10 → Guide → ℝ := fun i g =>
  let xr := Real.sin (radians g.ha)
  let yr := (g.dec - 30) / 30
  ![1, xr, yr, xr * yr, xr ^ 2, yr ^ 2, xr ^ 3, xr ^ 2 * yr, yr ^ 2 * xr, yr ^ 3] i

/-- `int(v)`. -/
noncomputable def truncate (v : ℝ) : ℤ := if 0 ≤ v then ⌊v⌋ else ⌈v⌉

/-- Lines 44-51: the coefficients printed, in the order of `design`. -/
noncomputable def fitRate (mjdSplit : ℝ) (l : List Guide) : Except PyErr (Fin 10 → ℝ) := do
  let s := selectGuide mjdSplit l
  let ai ← linInv (gram design s)
  let p := ai.mulVec (moments design Guide.rate s)
  return fun i => (truncate (p i * 1000) : ℝ) / 1000

end Verif.Model.PredictRot
