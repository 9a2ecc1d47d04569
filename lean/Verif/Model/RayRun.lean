import Verif.Model.RayTables
import Mathlib.Analysis.SpecialFunctions.Trigonometric.Basic

/-!
# The ray tracer: whole runs

Model of py/desimeter/transform/tan2fp/raytrace/RT185v2.py lines 1028-1043, 1387-1408, 1438-1468 and
1609-1676 (`letter2index`, `prepForcedRayGroup`, `runAllTableRays`, `getNine`) and of
py/desimeter/transform/tan2fp/raytrace/run.py.

The global arrays of RT185v2 are values handed from function to function; `getNine` reads all
tables again, hence starts from them.  The argument of `getNine` is the list of its rows of five
numbers; other shapes are left out, and so are prints and the process pool.  The average of a
list of arrays of different lengths is the `ValueError` of numpy 1.24 and later.  `np.linspace`
and `np.arange` are exact.
-/

namespace Verif.RayTrace

open Verif.Py
open Verif.Model.Selection (strip)

/-- `l[i]`, where negative indices count from the end. -/
def item {α : Type} (l : List α) (i : Int) : Except PyErr α :=
  let k := if i < 0 then i + l.length else i
  if k < 0 then .error .indexError
  else
    match l[k.toNat]? with
    | some x => .ok x
    | none => .error .indexError

/-- RT185v2.py:1031 `FraunhoferLetters`. -/
def letters : List PyStr :=
  ["i".toList, "g".toList, "F".toList, "d".toList, "R".toList, "C".toList, "s".toList, "t".toList]

/-- RT185v2.py:1037-1043 `letter2index`. -/
def letter2index (letter : PyStr) : Except PyErr ℕ :=
  match letters.findIdx? (· == strip letter) with
  | some i => .ok i
  | none => .error (.sysExit 0)

/-- A row `{w, u, v, adc1, adc2}` of the argument of `getNine`. -/
structure Wuv where
  w : ℝ
  u : ℝ
  v : ℝ
  adc1 : ℝ
  adc2 : ℝ

/-- RT185v2.py:1394-1408 `prepForcedRayGroup` with 1387-1392 `modifyWaveName`: all rays get the
wavelength and the direction of `q`. -/
noncomputable def prepForced (q : Wuv) (rays : List Start) : Except PyErr (List Start) := do
  let wave ← item letters (trunc q.w)
  rays.mapM fun s => do
    let w ← fixup q.u q.v s.ray.dir.z
    return ⟨⟨s.ray.pos, ⟨q.u, q.v, w⟩⟩, wave⟩

/-- One ray of `runAllTableRays` (RT185v2.py:1443-1456): its last point and the number of
its wavelength, `none` if it does not get to the last surface.  (There is at least one surface.) -/
noncomputable def runTableRay (num : PyStr → Option ℝ) (m : Media) (surfs : List Surf) (s : Start) :
    Except PyErr (Option (V3 × ℕ)) := do
  let (howfar, rows) ← runOneRay (findRefraction num m s.wave) surfs
    ⟨s.ray, ⟨⟨0, 0, 0⟩, ⟨0, 0, 0⟩⟩⟩
  if howfar = surfs.length then
    match rows.getLast? with
    | none => .ok none
    | some h => do
      let c ← letter2index s.wave
      return some (h.lab.pos, c)
  else return none

/-- RT185v2.py:1438-1463 `runAllTableRays`. -/
noncomputable def runAll (num : PyStr → Option ℝ) (m : Media) (surfs : List Surf)
    (rays : List Start) : Except PyErr (List (V3 × ℕ)) := do
  let out ← rays.mapM (runTableRay num m surfs)
  let good := out.filterMap id
  if good.length < 2 then .error (.sysExit 0) else .ok good

/-- The loop over wavelengths of `getNine` (RT185v2.py:1649-1660); the directions of the rays are
kept from one to the next. -/
noncomputable def runWaves (num : PyStr → Option ℝ) (m : Media) (surfs : List Surf) :
    List Wuv → List Start → Except PyErr (List (List V3))
  | [], _ => .ok []
  | q :: l, rays => do
    let rays ← prepForced q rays
    let xyzc ← runAll num m surfs rays
    let rest ← runWaves num m surfs l rays
    return xyzc.map Prod.fst :: rest

/-- `np.average(lists)` of arrays of the same length, `ValueError` if the lengths differ.
There is at least one array and none is empty. -/
noncomputable def average (ls : List (List ℝ)) : Except PyErr ℝ :=
  if ls.all fun l => l.length = (ls.headD []).length then
    .ok (ls.flatten.sum / ls.flatten.length)
  else .error .valueError

/-- `np.std(lists)`. -/
noncomputable def std (ls : List (List ℝ)) : Except PyErr ℝ := do
  let a ← average ls
  let v ← average (ls.map fun l => l.map fun x => (x - a) ^ 2)
  return Real.sqrt v

/-- The result of `getNine`. -/
structure Nine where
  adc1 : ℝ
  adc2 : ℝ
  ngood : ℝ
  ave : V3
  rms : V3

/-- The three tables. -/
structure Files where
  opt : Option (List (List PyStr))
  ray : Option (List (List PyStr))
  med : Option (List (List PyStr))

/-- RT185v2.py:1609-1676 `getNine`. -/
noncomputable def getNine (num : PyStr → Option ℝ) (files : Files) (wuv : List Wuv) :
    Except PyErr Nine := do
  let surfs ← getOptics num files.opt
  let rays ← getRays num files.ray 84
  let m ← getMedia num files.med (surfs.map Surf.glass) (rays.map Start.wave)
  match wuv with
  | [] => .error (.sysExit 0)
  | q :: _ =>
    let surfs ← modifyADC q.adc1 q.adc2 surfs
    let lists ← runWaves num m surfs wuv rays
    let ngood : ℝ := (lists.map fun l => (l.length : ℝ)).sum
    let xs := lists.map fun l => l.map V3.x
    let ys := lists.map fun l => l.map V3.y
    let zs := lists.map fun l => l.map V3.z
    let xave ← average xs
    let yave ← average ys
    let zave ← average zs
    let xrms ← std xs
    let yrms ← std ys
    let zrms ← std zs
    return ⟨q.adc1, q.adc2, ngood, ⟨xave, yave, zave⟩, ⟨xrms, yrms, zrms⟩⟩

/-! ## run.py -/

/-- `np.linspace(0, stop, n)` for `n ≥ 0`. -/
noncomputable def linspace (stop : ℝ) (n : ℕ) : List ℝ :=
  (List.range n).map fun (k : ℕ) => if n = 1 then 0 else k * (stop / (n - 1))

/-- run.py:27-34: the directions at one distance from the axis. -/
noncomputable def ring (adc1 adc2 dangle theta : ℝ) : List Wuv :=
  let st := Real.sin (radians theta)
  let nphi := (trunc (2 * Real.pi * theta / dangle) + 1).toNat
  (List.range nphi).map fun (k : ℕ) =>
    let phi : ℝ := k * (2 * Real.pi / nphi)
    ⟨2, st * Real.cos phi, st * Real.sin phi, adc1, adc2⟩

/-- run.py:15-36 `incoming_rays` for `dangle > 0`. -/
noncomputable def incomingRays (adc1 adc2 dangle : ℝ) : List Wuv :=
  (linspace 1.6 (trunc (1.6 / dangle) + 1).toNat).flatMap (ring adc1 adc2 dangle)

/-- A row of the table of run.py. -/
structure OutRow where
  adc1 : ℝ
  adc2 : ℝ
  xtan : ℝ
  ytan : ℝ
  fp : V3
  wave : ℝ

/-- run.py:13 `refwave`, in Angstrom. -/
def refwave : List ℝ := [3650, 4360, 4860, 5880, 6380, 6560, 8520, 10140]

/-- run.py:45-61 `work`.  The angles in the rows are those of the last result. -/
noncomputable def work (num : PyStr → Option ℝ) (files : Files) (adc2 : ℝ) :
    Except PyErr (List OutRow) := do
  let rays := incomingRays (-adc2) adc2 0.1
  let out ← rays.mapM fun q => getNine num files [q]
  let wave ← rays.mapM fun q => item refwave (trunc q.w)
  let last := out.getLast?
  let a1 := (last.map Nine.adc1).getD (-adc2)
  let a2 := (last.map Nine.adc2).getD adc2
  return List.zipWith (fun qn w => ⟨a1, a2, qn.1.u, qn.1.v, qn.2.ave, w⟩) (rays.zip out) wave

/-- run.py:64-95 `main`: the rows of the table written. -/
noncomputable def table (num : PyStr → Option ℝ) (files : Files) : Except PyErr (List OutRow) := do
  let out ← (linspace 180 19).mapM (work num files)
  return out.flatten

end Verif.RayTrace
