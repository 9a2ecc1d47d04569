import Verif.Py.Real
import Verif.Py.Vec
import Verif.Py.Dict
import Mathlib.Data.Rat.Defs
import Mathlib.Algebra.Order.Ring.Rat

/-!
# Model of `bin/get_posmoves_with_fvc_data_using_dates`

Times are whole seconds (the dates of the images have no fraction, lines 101-103 and 175-178 drop it). Names of positioners and files are
of any types `ι` and `κ`, rows of the data base carry their other columns as `δ` and those of the calibration as `γ`. The tables of the
data base and the content of the files are parameters, and so is `order`, the way numpy sorts moves of equal times. The table of images
is the one after lines 75-79, sorted by time. Left out: printing, the list of petals, the renaming of columns, the replacement of
commas in `log_note`, creation of the output directory, missing values.
-/

namespace Verif.Model.MovesDates
open Verif.Py

/-- A row of the table of images. -/
structure Img (κ : Type) where
  t : ℤ
  file : κ

/-- A row of a data file. -/
structure Spot where
  loc : ℤ
  x : ℝ
  y : ℝ

/-- `petal_id2loc` (lines 58-71). -/
def petalLoc (id : ℕ) : Except PyErr ℤ :=
  match id with
  | 1 => .ok 0
  | 2 => .ok 7
  | 3 => .ok 3
  | 4 => .ok 0
  | 5 => .ok 1
  | 6 => .ok 2
  | 7 => .ok 8
  | 8 => .ok 4
  | 9 => .ok 9
  | 10 => .ok 5
  | 11 => .ok 6
  | _ => .error .keyError

/-- Lines 106-113: the index of the first time after `t`, or else the last index of the table of images, of length `n`. (Without images the
index is -1 in the code; it is out of range all the same.) -/
def index (tf : List ℤ) (off : ℚ) (n : ℕ) (t : ℤ) : ℕ :=
  match tf.findIdx? fun (f : ℤ) => decide ((t : ℚ) < f + off) with
  | some j => j
  | none => n - 1

/-- A time of the data base with the index and the time of its image. -/
structure Match where
  t : ℤ
  idx : ℕ
  tf : ℤ

/-- Lines 105-114. `tf` is the value of the variable `tstamp_fvc`. -/
def matchTimes (tf : List ℤ) (off : ℚ) (n : ℕ) (ts : List ℤ) : Except PyErr (List Match) :=
  ts.mapM fun t => do
    let f ← getIdx tf (index tf off n t)
    return ⟨t, index tf off n t, f⟩

/-- `dmt_deltat` (line 115). -/
def Match.deltat (off : ℚ) (m : Match) : ℚ := m.tf + off - m.t

/-- Line 116. -/
def select (off dmax : ℚ) (l : List Match) : List Match :=
  l.filter fun m => decide (0 ≤ m.deltat off ∧ m.deltat off ≤ dmax)

/-- A measurement of a positioner (lines 146-150). -/
structure Seen where
  t : ℤ
  tf : ℤ
  deltat : ℚ
  x : ℝ
  y : ℝ

/-- Lines 144-150 for one image and one positioner: the first row of the location. -/
def seenIn (off : ℚ) (m : Match) (tab : List Spot) (loc : ℤ) : Option Seen :=
  (tab.find? fun s => decide (s.loc = loc)).map fun s => ⟨m.t, m.tf, m.deltat off, s.x, s.y⟩

/-- Lines 136-150 for one image: files that do not exist are passed over. -/
def collect {ι κ : Type} (dmt : List (Img κ)) (read : κ → Option (List Spot)) (off : ℚ) (locs : List (ι × ℤ)) (m : Match) :
    Except PyErr (List (ι × Seen)) := do
  let i ← getIdx dmt m.idx
  match read i.file with
  | none => .ok []
  | some tab => .ok (locs.filterMap fun q => (seenIn off m tab q.2).map fun s => (q.1, s))

/-- A row of the table of moves. -/
structure Move (δ : Type) where
  t : ℤ
  rest : δ

/-- A row of the table of calibrations. -/
structure Calib (γ : Type) where
  t : ℤ
  rest : γ

/-- A row of an output file. -/
structure Out (δ γ : Type) where
  loc : ℤ
  move : Move δ
  calib : Option (Calib γ)
  seen : Seen

/-- Line 222: the last calibration before the move; `IndexError` if there is none. -/
def lastCalib {γ : Type} (l : List (Calib γ)) (t : ℤ) : Except PyErr (Calib γ) :=
  match (l.filter fun c => decide (c.t < t)).getLast? with
  | some c => .ok c
  | none => .error .indexError

/-- The data base: positioners of a petal with the location of the device, times of all moves of a petal, moves of a positioner in the
range of dates asked for, calibrations of a positioner in the order of time. -/
structure Db (ι δ γ : Type) where
  posids : ℕ → List (ι × ℤ)
  times : ℕ → List ℤ
  moves : ℕ → ι → List (Move δ)
  calibs : ℕ → ι → List (Calib γ)

/-- The dictionary of line 195, with the measurement itself. -/
def byTime (seen : List Seen) : Dict ℤ Seen := seen.foldl (fun d s => d.set s.t s) []

/-- Line 196 for one move. -/
def lookup (seen : List Seen) (t : ℤ) : Except PyErr Seen :=
  match (byTime seen).get? t with
  | some s => .ok s
  | none => .error .keyError

/-- Lines 202-232 for one move. -/
def calibOf {γ : Type} (nocalib : Bool) (calibs : List (Calib γ)) (t : ℤ) : Except PyErr (Option (Calib γ)) :=
  if nocalib then .ok none
  else do
    let c ← lastCalib calibs t
    return some c

/-- Lines 161-251 for one positioner: the new value of `tstamp_fvc` and the file written, or nothing (line 187). -/
noncomputable def onePositioner {ι δ γ : Type} (order : List (Move δ) → List (Move δ)) (db : Db ι δ γ) (nocalib : Bool) (petal : ℕ) (loc : ℤ)
    (p : ι) (seen : List Seen) : Except PyErr (Option (List ℤ × List (Out δ γ))) :=
  let moves := (db.moves petal p).filter fun m => decide (m.t ∈ seen.map Seen.t)
  if moves = [] then .ok none
  else do
    let moves := order moves
    let s ← moves.mapM fun m => lookup seen m.t
    let c ← moves.mapM fun m => calibOf nocalib (db.calibs petal p) m.t
    let rows := (moves.zip (c.zip s)).map fun r => (⟨loc, r.1, r.2.1, r.2.2⟩ : Out δ γ)
    return some (s.map Seen.tf, rows.filter fun r => decide (r.seen.x ≠ 0))

/-- Lines 161-251: the loop over positioners, with the value of `tstamp_fvc`. -/
noncomputable def posLoop {ι δ γ : Type} [DecidableEq ι] (order : List (Move δ) → List (Move δ)) (db : Db ι δ γ) (nocalib : Bool) (petal : ℕ)
    (loc : ℤ) (seen : List (ι × Seen)) : List ℤ → List ι → Except PyErr (List ℤ × List (ι × List (Out δ γ)))
  | tf, [] => .ok (tf, [])
  | tf, p :: rest => do
    let r ← onePositioner order db nocalib petal loc p ((seen.filter fun q => decide (q.1 = p)).map Prod.snd)
    match r with
    | none => posLoop order db nocalib petal loc seen tf rest
    | some (tf', rows) => do
      let w ← posLoop order db nocalib petal loc seen tf' rest
      return (w.1, (p, rows) :: w.2)

/-- Lines 83-251 for one petal: the value of `tstamp_fvc` afterwards and the files written. -/
noncomputable def onePetal {ι κ δ γ : Type} [DecidableEq ι] (order : List (Move δ) → List (Move δ)) (db : Db ι δ γ) (dmt : List (Img κ))
    (read : κ → Option (List Spot)) (off dmax : ℚ) (nocalib : Bool) (tf : List ℤ) (petal : ℕ) :
    Except PyErr (List ℤ × List (ι × List (Out δ γ))) := do
  let loc ← petalLoc petal
  let locs := (db.posids petal).map fun q => (q.1, loc * 1000 + q.2)
  let ms ← matchTimes tf off dmt.length (db.times petal)
  let seen ← (select off dmax ms).mapM (collect dmt read off locs)
  posLoop order db nocalib petal loc seen.flatten (ms.map Match.tf) (locs.map Prod.fst)

/-- The loop over petals. -/
noncomputable def petalLoop {ι κ δ γ : Type} [DecidableEq ι] (order : List (Move δ) → List (Move δ)) (db : Db ι δ γ) (dmt : List (Img κ))
    (read : κ → Option (List Spot)) (off dmax : ℚ) (nocalib : Bool) : List ℤ → List ℕ → Except PyErr (List (ι × List (Out δ γ)))
  | _, [] => .ok []
  | tf, a :: rest => do
    let r ← onePetal order db dmt read off dmax nocalib tf a
    let w ← petalLoop order db dmt read off dmax nocalib r.1 rest
    return r.2 ++ w

/-- The files written, in order (lines 75-251). -/
noncomputable def run {ι κ δ γ : Type} [DecidableEq ι] (order : List (Move δ) → List (Move δ)) (db : Db ι δ γ) (dmt : List (Img κ))
    (read : κ → Option (List Spot)) (off dmax : ℚ) (nocalib : Bool) (petals : List ℕ) : Except PyErr (List (ι × List (Out δ γ))) :=
  petalLoop order db dmt read off dmax nocalib (dmt.map Img.t) petals

end Verif.Model.MovesDates
