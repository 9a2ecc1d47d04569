import Verif.Model.Ptl2fp
import Verif.Model.ProcessFvc
import Verif.Py.Dict

/-!
# Export of alignments from the data base: bin/load_petal_alignments_from_db

The two queries are parameters: the list of versions of snapshots, and the rows (name of the element, constants) for a version. The conversion of a name
to an integer is a parameter. The file is described by the version in its first line and the entry of each petal; its date and the order of entries, which `yaml` sorts,
are left out, as are connections that fail and files that cannot be opened. Constants are numbers.
-/

namespace Verif.Model.AlignExport
open Verif.Py
open Verif.Model.Ptl2fp (Alignment)

/-- A row of the second query (lines 33-35): name of the element and its constants. -/
structure Row where
  name : PyStr
  data : PyStr → Option ℝ

/-- The file written (lines 44-47). -/
structure Contents where
  version : ℤ
  entries : ℤ → Option Alignment

/-- `data[key]`. -/
def get (r : Row) (key : PyStr) : Except PyErr ℝ :=
  match r.data key with
  | some x => .ok x
  | none => .error .keyError

/-- One entry of the dictionary (lines 36-41). -/
def entry (toInt : PyStr → Option ℤ) (r : Row) : Except PyErr (ℤ × Alignment) := do
  let k ← (match toInt r.name with
    | some k => Except.ok k
    | none => Except.error PyErr.valueError)
  let tx ← get r "petal_offset_x".toList
  let ty ← get r "petal_offset_y".toList
  let tz ← get r "petal_offset_z".toList
  let alpha ← get r "petal_rot_1".toList
  let beta ← get r "petal_rot_2".toList
  let gamma ← get r "petal_rot_3".toList
  .ok (k, ⟨alpha, beta, gamma, tx, ty, tz⟩)

/-- `alignments` (lines 36-41). -/
def alignments (toInt : PyStr → Option ℤ) : List Row → Dict ℤ Alignment → Except PyErr (Dict ℤ Alignment)
  | [], d => .ok d
  | r :: rs, d =>
    match entry toInt r with
    | .ok e => alignments toInt rs (d.set e.1 e.2)
    | .error e => .error e

/-- The script (lines 26-50), with the files before and after. -/
def run (toInt : PyStr → Option ℤ) (versions : List ℤ) (query : ℤ → List Row) (outfile : PyStr) (fs : PyStr → Option Contents) :
    Except PyErr Unit × (PyStr → Option Contents) :=
  match versions.max? with
  | none => (.error .valueError, fs)
  | some ver =>
    match alignments toInt (query ver) [] with
    | .error e => (.error e, fs)
    | .ok d =>
      if ProcessFvc.findPos ".yaml".toList outfile then (.ok (), fun p => if p = outfile then some ⟨ver, fun k => d.get? k⟩ else fs p)
      else (.error (.sysExit 12), fs)

/-- What `load_petal_alignement` reads from the file (io.py lines 55-59). -/
def load (c : Contents) : Ptl2fp.Dict := fun petal => c.entries petal

end Verif.Model.AlignExport
