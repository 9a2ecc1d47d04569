import Verif.Model.Ptl2fp
import Verif.Model.Gfa2fp
import Verif.Model.PlotPosmoves

/-!
# Data directory and module variables: py/desimeter/io.py lines 35-58, ptl2fp.py lines 11, 41-45 and 74-113, gfa2fp.py lines 11-57

A session is a sequence of calls in one process, between which the environment variable DESIMETER_DATA and the files may change. A file of alignments
has the contents that `yaml.safe_load` returns, which is `none` for a file without any entry; files that are no valid yaml or csv are left out. The metrology is
read by `Table.read`. Points are single and have three coordinates. The messages are left out.
-/

namespace Verif.Model.DataDir
open Verif.Py
open Verif.Model.Ptl2fp (V3 ptl2fp fp2ptl)
open Verif.Model.Gfa2fp (GRow Transforms)
open Verif.Model.PlotPosmoves (join)

/-- The files: alignments and metrology by path. -/
structure Files where
  align : PyStr → Option (Option Ptl2fp.Dict)
  metro : PyStr → Option (List GRow)

/-- State of the process: DESIMETER_DATA, files, `ptl2fp.petal_alignment_dict` and `gfa2fp._gfa_transforms`. -/
structure Sess where
  env : Option PyStr
  files : Files
  align : Option Ptl2fp.Dict
  gfa : Option Transforms

/-- What happens in a session. -/
inductive Op where
  | setenv (v : Option PyStr)
  | putAlign (path : PyStr) (c : Option (Option Ptl2fp.Dict))
  | putMetro (path : PyStr) (c : Option (List GRow))
  | toFp (petal : ℕ) (p : V3)
  | toPtl (petal : ℕ) (p : V3)
  | toMm (petal : ℤ) (g : List (ℝ × ℝ))
  | toPix (petal : ℤ) (g : List (ℝ × ℝ))
  | metrology

/-- What is returned. -/
inductive Res where
  | done
  | point (r : Except PyErr V3)
  | pixels (r : Except PyErr (List (Option (ℝ × ℝ))))
  | table (r : Except PyErr (List GRow))

/-- `desimeter_data_dir` (io.py lines 35-42); `pkg` is the directory of the package. -/
def dataDir (pkg : PyStr) (env : Option PyStr) : PyStr :=
  match env with
  | some d => d
  | none => pkg

/-- `load_metrology` (io.py lines 44-53). -/
def loadMetrology (pkg : PyStr) (s : Sess) : Except PyErr (List GRow) :=
  match s.files.metro (join (dataDir pkg s.env) "fp-metrology.csv".toList) with
  | some t => .ok t
  | none => .error .fileNotFound

/-- `get_petal_alignment_data` (ptl2fp.py lines 41-45) with `load_petal_alignement` (io.py lines 55-59): the value, and the module variable after the call. -/
def getAlign (pkg : PyStr) (s : Sess) : Except PyErr (Option Ptl2fp.Dict) × Option Ptl2fp.Dict :=
  match s.align with
  | some d => (.ok (some d), some d)
  | none =>
    match s.files.align (join (dataDir pkg s.env) "petal-alignments.yaml".toList) with
    | some c => (.ok c, c)
    | none => (.error .fileNotFound, none)

/-- `get_petal_alignment_data()` and the use of the result; `None[petal]` is a `TypeError`. -/
def withAlign (x : Except PyErr (Option Ptl2fp.Dict)) (f : Ptl2fp.Dict → Except PyErr V3) : Except PyErr V3 :=
  match x with
  | .error e => .error e
  | .ok none => .error .typeError
  | .ok (some d) => f d

/-- One call or change. -/
noncomputable def step (pkg : PyStr) (s : Sess) : Op → Res × Sess
  | .setenv v => (.done, { s with env := v })
  | .putAlign path c => (.done, { s with files := { s.files with align := fun p => if p = path then c else s.files.align p } })
  | .putMetro path c => (.done, { s with files := { s.files with metro := fun p => if p = path then c else s.files.metro p } })
  | .toFp petal p =>
    let r := getAlign pkg s
    (.point (withAlign r.1 fun d => ptl2fp d petal p), { s with align := r.2 })
  | .toPtl petal p =>
    let r := getAlign pkg s
    (.point (withAlign r.1 fun d => fp2ptl d petal p), { s with align := r.2 })
  | .toMm petal g =>
    let r := Gfa2fp.gfa2fp s.gfa (loadMetrology pkg s) petal g
    (.pixels r.1, { s with gfa := r.2 })
  | .toPix petal g =>
    let r := Gfa2fp.fp2gfa s.gfa (loadMetrology pkg s) petal g
    (.pixels r.1, { s with gfa := r.2 })
  | .metrology => (.table (loadMetrology pkg s), s)

/-- The results of a session. -/
noncomputable def run (pkg : PyStr) : Sess → List Op → List Res
  | _, [] => []
  | s, o :: os => (step pkg s o).1 :: run pkg (step pkg s o).2 os

end Verif.Model.DataDir
