import Verif.Py.Real

/-!
# bin/get_posmoves (per positioner processing, lines 78-81, 100-105, 143-146 and 156-217)

A move is what the data base returned for one row.  The SQL text, the column renaming and the
file output are not modelled.  `sort` stands for `otable.sort('DATE')`.
-/

namespace Verif.Model.GetPosmoves
open Verif.Py

/-- lines 78-81 and 100-105: the positioners processed on a petal (in some order; `intersect1d`
sorts them). -/
def selectPosids {κ : Type} [DecidableEq κ] (db : List κ) (only : Option (List κ)) : List κ :=
  match only with
  | none => db
  | some l => db.filter fun p => p ∈ l

/-- A row of the move data base with the columns used. `φ` are the enabling flags. -/
structure Move (φ : Type) where
  date : ℚ
  expid : ℤ
  xfp : Option ℝ
  flags : φ

/-- A row of the calibration data base: date and content. -/
structure Calib (γ : Type) where
  date : ℚ
  data : γ

/-- A row of the output: the move, the calibration joined to it (if asked for) and the
RECENT_REHOME flag. -/
structure Out (φ γ : Type) where
  move : Move φ
  calib : Option γ
  recent : ℤ

variable {φ γ : Type}

/-- line 179: `np.where(tstamp_calib<=t)[0][-1]`, and line 181 the row. -/
def calibFor (cal : List (Calib γ)) (t : ℚ) : Except PyErr γ :=
  match (cal.filter fun c => c.date ≤ t).getLast? with
  | some c => .ok c.data
  | none => .error .indexError

/-- lines 156-181 and 204 for one row. -/
def joinRow (withCalib : Bool) (rehome : List ℤ) (cal : List (Calib γ)) (m : Move φ) : Except PyErr (Out φ γ) :=
  let recent : ℤ := if m.expid ∈ rehome then 1 else 0
  if withCalib then
    match calibFor cal m.date with
    | .ok g => .ok ⟨m, some g, recent⟩
    | .error e => .error e
  else .ok ⟨m, none, recent⟩

/-- lines 207-212: first row, and rows where one of the keys changed. -/
def changes {α κ : Type} [DecidableEq κ] (key : α → κ) : List α → List α
  | [] => []
  | a :: l => a :: ((l.zip (a :: l)).filter fun p => key p.1 ≠ key p.2).map Prod.fst

/-- lines 206-212. -/
def enabledHistory {κ : Type} [DecidableEq κ] (sort : List (Out φ γ) → List (Out φ γ)) (key : Out φ γ → κ)
    (t : List (Out φ γ)) : Except PyErr (List (Out φ γ)) :=
  if t = [] then .error .indexError else .ok (changes key (sort t))

/-- lines 214-217; with `--enabled-history` the column X_FP was not requested (line 73). -/
def measured (enabled : Bool) (t : List (Out φ γ)) : Except PyErr (List (Out φ γ)) :=
  if enabled then .error .keyError else .ok (t.filter fun r => r.move.xfp.isSome)

/-- lines 156-217. -/
def outTable {κ : Type} [DecidableEq κ] (withCalib enabled tpUpdates : Bool) (rehome : List ℤ)
    (sort : List (Out φ γ) → List (Out φ γ)) (key : Out φ γ → κ) (cal : List (Calib γ)) (moves : List (Move φ)) :
    Except PyErr (List (Out φ γ)) := do
  let t ← moves.mapM (joinRow withCalib rehome cal)
  let t ← if enabled then enabledHistory sort key t else .ok t
  if tpUpdates then .ok t else measured enabled t

end Verif.Model.GetPosmoves
