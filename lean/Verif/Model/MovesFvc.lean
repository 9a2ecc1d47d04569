import Verif.Model.ProcessFvc
import Verif.Model.Dbutil
import Verif.Model.Ptl2fp

/-!
# Model of `bin/get_posmoves_with_fvc_data`

Positioner names are of any type `ι`, rows of the data base carry their other columns as `δ`. Headers, the CSV files in the data
directory, the processing of an image (`desi_fvc_proc`) and the tables of the data base are parameters. The result is the list of the
files written, in order. Left out: printing, the renaming of columns, the replacement of commas in `LOG_NOTE`, creation of the output
directory, the dates of lines 40-41 and 160 (the tables are those of the dates asked for), and data files with and without a column
`DEVICE_ID` in the same run.
-/

namespace Verif.Model.MovesFvc
open Verif.Py
open Verif.Model.Ptl2fp (V3 fp2ptl withZ)
open Verif.Model.ProcessFvc (replace basename)

/-- An item of the arguments `--exposure-ids` and `--exposure-iters`: a number or a range written in one of the ways `parse_fibers` knows. -/
inductive Item where
  | one (n : ℕ)
  | colon (a b : ℕ)
  | dots (a b : ℕ)
  | minus (a b : ℕ)

/-- `parse_fibers` for a list of items (util.py lines 33-52, see C31 for the text). -/
def Item.numbers : Item → List ℤ
  | .one n => [(n : ℤ)]
  | .colon a b => (List.range' a (b - a)).map Nat.cast
  | .dots a b => (List.range' a (b - a)).map Nat.cast
  | .minus a b => (List.range' a (b - a)).map Nat.cast

/-- The value of the text of an item inside `in (...)` of a query (lines 161-164): a minus sign is a subtraction, the other ways are a
syntax error (an exception of `psycopg2`, here `RuntimeError`). -/
def Item.sql : Item → Except PyErr ℤ
  | .one n => .ok n
  | .minus a b => .ok ((a : ℤ) - b)
  | .colon _ _ => .error .runtimeError
  | .dots _ _ => .error .runtimeError

/-- A row of a data file. -/
structure Spot (ι : Type) where
  loc : ℤ
  dev : Option ι
  x : ℝ
  y : ℝ

/-- A row of the table of images. -/
structure Img where
  file : PyStr
  expid : ℤ
  iter : ℤ

/-- Lines 55-77: files that are missing, or without one of the keywords, are passed over. -/
def images (head : PyStr → Option (Option ℤ × Option ℤ)) (files : List PyStr) : List Img :=
  files.filterMap fun f =>
    match head f with
    | some (some n, some k) => some ⟨f, n, k⟩
    | _ => none

/-- Lines 82-89. -/
def selectImages (ids iters : Option (List Item)) (l : List Img) : List Img :=
  let l := match ids with
    | none => l
    | some a => l.filter fun i => decide (i.expid ∈ a.flatMap Item.numbers)
  match iters with
  | none => l
  | some a => l.filter fun i => decide (i.iter ∈ a.flatMap Item.numbers)

/-- Line 96 (for a directory without trailing slash). -/
def dataName (dir file : PyStr) : PyStr := dir ++ '/' :: replace ".fits".toList ".csv".toList (basename file)

/-- The CSV files. -/
abbrev Files (ι : Type) := PyStr → Option (List (Spot ι))

/-- Lines 94-115: an existing file is used, otherwise the image is processed, which writes the file or fails. -/
def process {ι : Type} (dir : PyStr) (proc : PyStr → Option (List (Spot ι))) : Files ι → List Img → Files ι × List Img
  | fs, [] => (fs, [])
  | fs, i :: rest =>
    match fs (dataName dir i.file) with
    | some _ => let r := process dir proc fs rest; (r.1, i :: r.2)
    | none =>
      match proc i.file with
      | none => process dir proc fs rest
      | some t => let r := process dir proc (fun n => if n = dataName dir i.file then some t else fs n) rest; (r.1, i :: r.2)

/-- A measurement: a row of a data file with the exposure of the image. -/
structure Meas (ι : Type) where
  spot : Spot ι
  expid : ℤ
  iter : ℤ

/-- Lines 124-127: the rows of the file of an image. -/
def readRows {ι : Type} (dir : PyStr) (fs : Files ι) (i : Img) : Except PyErr (List (Meas ι)) :=
  match fs (dataName dir i.file) with
  | some t => .ok (t.map fun s => ⟨s, i.expid, i.iter⟩)
  | none => .error .fileNotFound

/-- Lines 119-136: `vstack` of nothing is an error; spots without match are removed. -/
def gather {ι : Type} (dir : PyStr) (fs : Files ι) (l : List Img) : Except PyErr (List (Meas ι)) :=
  if l = [] then .error .valueError
  else do
    let t ← l.mapM (readRows dir fs)
    return t.flatten.filter fun m => decide (0 ≤ m.spot.loc)

/-- Lines 138-142: the device of each measurement. `met` are locations and device names of the metrology. -/
def devices {ι : Type} (devCol : Bool) (met : List (ℤ × ι)) (l : List (Meas ι)) : Except PyErr (List (Option ι × Meas ι)) :=
  if devCol then .ok (l.map fun m => (m.spot.dev, m))
  else
    let l2id : Dict ℤ ι := met.foldl (fun d r => d.set r.1 r.2) []
    l.mapM fun m =>
      match l2id.get? m.spot.loc with
      | some i => .ok (some i, m)
      | none => .error .keyError

/-- A row of the table of moves. Exposure and iteration may be NULL. -/
structure Move (δ : Type) where
  expid : Option ℤ
  iter : Option ℤ
  rest : δ

/-- `and column in (...)` (lines 161-164): NULL is in no list. -/
def sqlIn {α : Type} (a : Option (List Item)) (f : α → Option ℤ) (l : List α) : Except PyErr (List α) :=
  match a with
  | none => .ok l
  | some a => do
    let ns ← a.mapM Item.sql
    return l.filter fun m => match f m with
      | some n => decide (n ∈ ns)
      | none => false

/-- The index of lines 196 and 199; a NULL is a `TypeError`. -/
def moveKey {δ : Type} (m : Move δ) : Except PyErr ℤ :=
  match m.expid, m.iter with
  | some n, some k => .ok (n * 1000 + k)
  | _, _ => .error .typeError

/-- A row of an output file. -/
structure Out (δ : Type) where
  move : Move δ
  loc : ℤ
  recent : ℤ
  x : ℝ
  y : ℝ
  ptl : V3

/-- Line 192. -/
def recent {δ : Type} (rehome : List ℤ) (m : Move δ) : ℤ :=
  match m.expid with
  | some n => if n ∈ rehome then 1 else 0
  | none => 0

/-- `fvc_exposure_index_2_row` (lines 195-197), with the row itself. -/
def byKey {ι : Type} [DecidableEq ι] (data : List (Option ι × Meas ι)) (p : ι) : Dict ℤ (Meas ι) :=
  (data.filter fun q => decide (q.1 = some p)).foldl (fun d q => d.set (q.2.expid * 1000 + q.2.iter) q.2) []

/-- Lines 206-213 for a move: zeros without measurement. -/
def position {ι : Type} (d : Dict ℤ (Meas ι)) (k : ℤ) : ℝ × ℝ :=
  match d.get? k with
  | some s => (s.spot.x, s.spot.y)
  | none => (0, 0)

/-- Lines 192-222 for one positioner. -/
noncomputable def table {ι δ : Type} [DecidableEq ι] (al : Ptl2fp.Dict) (r2z : ℝ → ℝ) (rehome : List ℤ) (data : List (Option ι × Meas ι))
    (loc : ℤ) (p : ι) (moves : List (Move δ)) : Except PyErr (List (Out δ)) := do
  let keys ← moves.mapM moveKey
  let _ ← Ptl2fp.lookup al loc.toNat
  let rows ← (moves.zip keys).mapM fun q => do
    let xy := position (byKey data p) q.2
    let v ← fp2ptl al loc.toNat (withZ r2z xy.1 xy.2)
    return (⟨q.1, loc, recent rehome q.1, xy.1, xy.2, v⟩ : Out δ)
  return rows.filter fun o => decide (o.x ≠ 0)

/-- The data base: positioners of a petal (`get_pos_ids`), and the rows of the moves of a positioner in the table of a petal. -/
structure Db (ι δ : Type) where
  posids : ℤ → List ι
  moves : ℤ → ι → List (Move δ)

/-- Lines 157-227 for one positioner: name and content of the file written. -/
noncomputable def onePositioner {ι δ : Type} [DecidableEq ι] (al : Ptl2fp.Dict) (r2z : ℝ → ℝ) (db : Db ι δ) (ids iters : Option (List Item))
    (rehome : List ℤ) (data : List (Option ι × Meas ι)) (petal loc : ℤ) (p : ι) : Except PyErr (ι × List (Out δ)) := do
  let m ← sqlIn ids Move.expid (db.moves petal p)
  let m ← sqlIn iters Move.iter m
  let t ← table al r2z rehome data loc p m
  return (p, t)

/-- Lines 148-227 for one petal. -/
noncomputable def onePetal {ι δ : Type} [DecidableEq ι] (al : Ptl2fp.Dict) (r2z : ℝ → ℝ) (db : Db ι δ) (only : Option (List ι))
    (ids iters : Option (List Item)) (rehome : List ℤ) (data : List (Option ι × Meas ι)) (petal : ℤ) :
    Except PyErr (List (ι × List (Out δ))) := do
  let ps := match only with
    | some l => l
    | none => db.posids petal
  let loc ← Dbutil.getPetalLoc petal
  ps.mapM (onePositioner al r2z db ids iters rehome data petal loc)

/-- The measurements (lines 55-142). -/
def measurements {ι : Type} (head : PyStr → Option (Option ℤ × Option ℤ)) (files : List PyStr) (ids iters : Option (List Item)) (dir : PyStr)
    (proc : PyStr → Option (List (Spot ι))) (fs : Files ι) (devCol : Bool) (met : List (ℤ × ι)) : Except PyErr (List (Option ι × Meas ι)) := do
  let r := process dir proc fs (selectImages ids iters (images head files))
  let l ← gather dir r.1 r.2
  devices devCol met l

/-- The loop over petals (lines 148-227). -/
noncomputable def petalLoop {ι δ : Type} [DecidableEq ι] (al : Ptl2fp.Dict) (r2z : ℝ → ℝ) (db : Db ι δ) (only : Option (List ι))
    (ids iters : Option (List Item)) (rehome : List ℤ) (data : List (Option ι × Meas ι)) (petals : List ℤ) :
    Except PyErr (List (ι × List (Out δ))) := do
  let w ← petals.mapM (onePetal al r2z db only ids iters rehome data)
  return w.flatten

/-- The content of the file of a positioner at the end: the last one written. -/
def content {ι δ : Type} [DecidableEq ι] (w : List (ι × List (Out δ))) (p : ι) : Option (List (Out δ)) :=
  (w.foldl (fun (d : Dict ι (List (Out δ))) q => d.set q.1 q.2) []).get? p

end Verif.Model.MovesFvc
