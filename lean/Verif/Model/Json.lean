import Verif.Model.SimpleCorr
import Verif.Model.Fvc2fp

/-!
# Model of the JSON writers and readers

`json.dumps` followed by `json.loads` is taken to be the identity on documents
(dictionaries of null, booleans, numbers, strings and lists); Python floats are written
with `repr` and read back unchanged.
-/

namespace Verif.Model.Json
open Verif.Py Verif.Model.SimpleCorr Verif.Model.Fvc2fp

/-- JSON values used. -/
inductive JVal where
  | null
  | bool (b : Bool)
  | num (x : ℝ)
  | str (s : String)
  | arr (l : List JVal)

/-- A JSON object; Python dictionaries have distinct keys. -/
abbrev Doc := List (String × JVal)

/-- `params[key]`. -/
def getKey (d : Doc) (k : String) : Except PyErr JVal :=
  match d.lookup k with
  | some v => .ok v
  | none => .error .keyError

/-- `assert params[key] == s`. -/
def assertStr (d : Doc) (k s : String) : Except PyErr Unit := do
  match ← getKey d k with
  | .str t => if t = s then return () else .error .assertionError
  | _ => .error .assertionError

/-- A number read (an attribute used later in arithmetic; other types would raise then). -/
def getNum (d : Doc) (k : String) : Except PyErr ℝ := do
  match ← getKey d k with
  | .num x => return x
  | _ => .error .typeError

/-- `np.asarray(params[key])` of a list of numbers. -/
def getNums (d : Doc) (k : String) : Except PyErr (List ℝ) := do
  match ← getKey d k with
  | .arr l => l.mapM fun v => match v with
    | .num x => .ok x
    | _ => .error .typeError
  | _ => .error .typeError

def nums (l : List ℝ) : JVal := .arr (l.map .num)

/-! ### `SimpleCorr` (simplecorr.py 21-49) -/

def simpleToJson (c : Corr) : Doc :=
  [("name", .str "Simple Correction"), ("version", .str "1"), ("dx", .num c.dx), ("dy", .num c.dy),
   ("sxx", .num c.sxx), ("syy", .num c.syy), ("sxy", .num c.sxy), ("rot_deg", .num c.rot_deg),
   ("nmatch", .num c.nmatch), ("rms", .num c.rms)]

/-- The reader returns the attributes in the order dx dy sxx syy sxy rot_deg nmatch rms. -/
def simpleFromJson (d : Doc) : Except PyErr (List ℝ) := do
  assertStr d "name" "Tangent Plane Adjustment"
  assertStr d "version" "1"
  ["dx", "dy", "sxx", "syy", "sxy", "rot_deg", "nmatch", "rms"].mapM (getNum d)

/-! ### `TanCorr` (fieldmodel.py 323-351) -/

structure TanCorrState where
  dha : ℝ
  ddec : ℝ
  sxx : ℝ
  syy : ℝ
  sxy : ℝ
  rotDeg : ℝ
  nstars : ℝ
  rms : ℝ

def tanToJson (c : TanCorrState) : Doc :=
  [("name", .str "Tangent Plane Correction"), ("version", .str "1"), ("dha", .num c.dha), ("ddec", .num c.ddec),
   ("sxx", .num c.sxx), ("syy", .num c.syy), ("sxy", .num c.sxy), ("rot_deg", .num c.rotDeg),
   ("nstars", .num c.nstars), ("rms_arcsec", .num c.rms)]

def tanFromJson (d : Doc) : Except PyErr TanCorrState := do
  assertStr d "name" "Tangent Plane Adjustment"
  assertStr d "version" "1"
  return ⟨← getNum d "dha", ← getNum d "ddec", ← getNum d "sxx", ← getNum d "syy", ← getNum d "sxy",
    ← getNum d "rot_deg", ← getNum d "nstars", ← getNum d "rms_arcsec"⟩

/-! ### `FieldModel` (fieldmodel.py 19-86); attributes may be `None`, kept as JSON values -/

structure FieldModelState where
  ra : JVal
  dec : JVal
  mjd : JVal
  lst : JVal
  hexrotDeg : JVal
  adc1 : JVal
  adc2 : JVal
  precession : Bool := true
  aberration : Bool := true
  polarMisalignment : Bool := true
  sxx : JVal
  syy : JVal
  sxy : JVal
  fieldrotZpDeg : JVal
  fieldrotDeg : JVal
  expid : JVal
  nstars : JVal
  rmsArcsec : JVal

def fieldToJson (m : FieldModelState) : Doc :=
  [("name", .str "Field model"), ("version", .str "1"), ("ra", m.ra), ("dec", m.dec), ("mjd", m.mjd), ("lst", m.lst),
   ("hexrot_deg", m.hexrotDeg), ("adc1", m.adc1), ("adc2", m.adc2), ("sxx", m.sxx), ("syy", m.syy), ("sxy", m.sxy),
   ("fieldrot_zp_deg", m.fieldrotZpDeg), ("fieldrot_deg", m.fieldrotDeg), ("expid", m.expid), ("nstars", m.nstars),
   ("rms_arcsec", m.rmsArcsec)]

def fieldFromJson (d : Doc) : Except PyErr FieldModelState := do
  assertStr d "name" "Field model"
  assertStr d "version" "1"
  let ra ← getKey d "ra"
  let dec ← getKey d "dec"
  let mjd ← getKey d "mjd"
  let lst ← getKey d "lst"
  let hexrotDeg ← getKey d "hexrot_deg"
  let adc1 ← getKey d "adc1"
  let adc2 ← getKey d "adc2"
  let sxx ← getKey d "sxx"
  let syy ← getKey d "syy"
  let sxy ← getKey d "sxy"
  let fieldrotZpDeg ← getKey d "fieldrot_zp_deg"
  let fieldrotDeg ← getKey d "fieldrot_deg"
  let expid ← getKey d "expid"
  let nstars ← getKey d "nstars"
  let rmsArcsec ← getKey d "rms_arcsec"
  return { ra, dec, mjd, lst, hexrotDeg, adc1, adc2, sxx, syy, sxy, fieldrotZpDeg, fieldrotDeg, expid, nstars, rmsArcsec }

/-! ### `FVC2FP` (fvc2fp.py 15-25, 77-135) -/

/-- The attributes set by `fit` or `fromjson` only. -/
structure Fitted where
  scale : ℝ
  rotation : ℝ
  offsetX : ℝ
  offsetY : ℝ

/-- Object state; `fitted = none` right after construction; the four statistics are
missing attributes until `fit`. -/
structure FvcState where
  xfvcScale : ℝ := -3000
  yfvcScale : ℝ := 3000
  xfvcOffset : ℝ := 3000
  yfvcOffset : ℝ := 3000
  zbpolids : List ℝ := [0,1,2,3,4,5,6,9,20,27,28,29,30]
  zbcoeffs : List ℝ := List.replicate 13 0
  fitted : Option Fitted := none
  meandistance : Option ℝ := none
  mediandistance : Option ℝ := none
  rmsdistance : Option ℝ := none
  nmatch : Option ℝ := none

/-- An optional field is written only when present (lines 91-96). -/
def optField (k : String) : Option ℝ → Doc
  | none => []
  | some v => [(k, .num v)]

def fvcToJson (t : FvcState) : Except PyErr Doc :=
  match t.fitted with
  | none => .error .attributeError
  | some f => .ok ([("method", .str "Zhao-Burge"), ("version", .str "2"), ("xfvc_scale", .num t.xfvcScale),
      ("yfvc_scale", .num t.yfvcScale), ("xfvc_offset", .num t.xfvcOffset), ("yfvc_offset", .num t.yfvcOffset),
      ("scale", .num f.scale), ("rotation", .num f.rotation), ("offset_x", .num f.offsetX), ("offset_y", .num f.offsetY),
      ("zbpolids", nums t.zbpolids), ("zbcoeffs", nums t.zbcoeffs)] ++
      optField "meandistance" t.meandistance ++ optField "mediandistance" t.mediandistance ++
      optField "rmsdistance" t.rmsdistance ++ optField "nmatch" t.nmatch)

/-- `if field in params: setattr(tx, field, params[field])` (lines 129-133). -/
def getOpt (d : Doc) (k : String) (old : ℝ) : Except PyErr ℝ :=
  match d.lookup k with
  | none => .ok old
  | some (.num x) => .ok x
  | some _ => .error .typeError
def getOpt' (d : Doc) (k : String) : Except PyErr (Option ℝ) :=
  match d.lookup k with
  | none => .ok none
  | some (.num x) => .ok (some x)
  | some _ => .error .typeError

/-- Version test (lines 107-124): 1, 2, or an error. -/
def isVersion2 : JVal → Except PyErr Bool
  | .str s => if s = "1" then .ok false else if s = "2" then .ok true else .error .runtimeError
  | _ => .error .runtimeError

/-- Ids: fixed for version 1 (line 112), read for version 2 (line 119). -/
def readIds (d : Doc) (v2 : Bool) : Except PyErr (List ℝ) :=
  if v2 then getNums d "zbpolids" else .ok [2, 5, 6, 9, 20, 28, 29, 30]

def fvcFromJson (d : Doc) : Except PyErr FvcState := do
  assertStr d "method" "Zhao-Burge"
  let v ← getKey d "version"
  let v2 ← isVersion2 v
  let scale ← getNum d "scale"
  let rotation ← getNum d "rotation"
  let offsetX ← getNum d "offset_x"
  let offsetY ← getNum d "offset_y"
  let zbpolids ← readIds d v2
  let zbcoeffs ← getNums d "zbcoeffs"
  return { xfvcScale := ← getOpt d "xfvc_scale" (-3000), yfvcScale := ← getOpt d "yfvc_scale" 3000,
           xfvcOffset := ← getOpt d "xfvc_offset" 3000, yfvcOffset := ← getOpt d "yfvc_offset" 3000,
           zbpolids, zbcoeffs, fitted := some ⟨scale, rotation, offsetX, offsetY⟩,
           meandistance := ← getOpt' d "meandistance", mediandistance := ← getOpt' d "mediandistance",
           rmsdistance := ← getOpt' d "rmsdistance", nmatch := ← getOpt' d "nmatch" }

/-! ### `TAN2FP_RayTraceFit` (raytracefit.py 72-100) -/

structure RayState where
  adc1 : List ℝ
  adc2 : List ℝ
  scale : List ℝ
  rotation : List ℝ
  offsetX : List ℝ
  offsetY : List ℝ
  zbpolids : List ℝ
  zbcoeffs : List (List ℝ)

def rayToJson (t : RayState) : Doc :=
  [("method", .str "Ray Trace fit with Zhao-Burge"), ("version", .str "1"), ("adc1", nums t.adc1), ("adc2", nums t.adc2),
   ("scale", nums t.scale), ("rotation", nums t.rotation), ("offset_x", nums t.offsetX), ("offset_y", nums t.offsetY),
   ("zbpolids", nums t.zbpolids), ("zbcoeffs", nums t.zbcoeffs.flatten)]

/-- `reshape((n, m))`: rows of `m` elements; the sizes must agree (`ValueError`). -/
def rows (m : Nat) : Nat → List ℝ → List (List ℝ)
  | 0, _ => []
  | n + 1, l => l.take m :: rows m n (l.drop m)
def reshape (n m : Nat) (l : List ℝ) : Except PyErr (List (List ℝ)) :=
  if l.length = n * m then .ok (rows m n l) else .error .valueError

def rayFromJson (d : Doc) : Except PyErr RayState := do
  assertStr d "method" "Ray Trace fit with Zhao-Burge"
  assertStr d "version" "1"
  let adc1 ← getNums d "adc1"
  let adc2 ← getNums d "adc2"
  let scale ← getNums d "scale"
  let rotation ← getNums d "rotation"
  let offsetX ← getNums d "offset_x"
  let offsetY ← getNums d "offset_y"
  let zbpolids ← getNums d "zbpolids"
  let z ← getNums d "zbcoeffs"
  let zbcoeffs ← reshape adc1.length zbpolids.length z
  return { adc1, adc2, scale, rotation, offsetX, offsetY, zbpolids, zbcoeffs }

end Verif.Model.Json
