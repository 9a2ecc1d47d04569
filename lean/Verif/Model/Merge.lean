import Verif.Py.Real

/-!
# bin/merge_posparams

The tables read from the files are already stacked (`astropy.table.vstack` is trusted); only the
four location columns and the identifier column are kept.
-/

namespace Verif.Model.Merge
open Verif.Py

inductive Key where
  | location | deviceLoc | petalLoc | petalId
  deriving DecidableEq, Repr

structure Row (κ : Type) where
  id : κ
  val : Key → ℤ

structure Table (κ : Type) where
  /-- is there a DEVICE_ID or POS_ID column? -/
  hasId : Bool
  hasCol : Key → Bool
  rows : List (Row κ)

variable {κ : Type} [DecidableEq κ]

/-- Lines 72-74. -/
def addLocation (t : Table κ) : Table κ :=
  if !t.hasCol .location && t.hasCol .petalLoc && t.hasCol .deviceLoc then
    { t with
      hasCol := Function.update t.hasCol .location true
      rows := t.rows.map fun r => { r with val := Function.update r.val .location (1000 * r.val .petalLoc + r.val .deviceLoc) } }
  else t

/-- Lines 88, 102: `{pid:i for i,pid in enumerate(metrology["DEVICE_ID"])}`; a later entry
replaces an earlier one. -/
def pid2ind (metr : List (Row κ)) (p : κ) : Option (Row κ) := (metr.reverse).find? fun m => m.id = p

/-- Lines 84-97. -/
def fill (metr : List (Row κ)) (t : Table κ) : Table κ :=
  { t with
    hasCol := fun _ => true
    rows := t.rows.map fun r =>
      match pid2ind metr r.id with
      | none => { r with val := fun _ => -1 }
      | some m => { r with val := m.val } }

/-- Lines 110: the order of the keys in the check. -/
def checkKeys : List Key := [.deviceLoc, .location, .petalLoc, .petalId]

/-- Lines 110-113 for one known row: the keys that disagree. -/
def checkRow (hasCol : Key → Bool) (r m : Row κ) : List Key → Except PyErr (List Key)
  | [] => .ok []
  | k :: ks =>
    if hasCol k then
      match checkRow hasCol r m ks with
      | .error e => .error e
      | .ok l => .ok (if r.val k ≠ m.val k then k :: l else l)
    else .error .keyError

/-- Lines 105-113: row number and key of each error message. -/
def checkLoop (metr : List (Row κ)) (hasCol : Key → Bool) : List (Row κ × ℕ) → Except PyErr (List (ℕ × Key))
  | [] => .ok []
  | (r, j) :: rs =>
    match pid2ind metr r.id with
    | none => checkLoop metr hasCol rs
    | some m =>
      match checkRow hasCol r m checkKeys with
      | .error e => .error e
      | .ok bad =>
        match checkLoop metr hasCol rs with
        | .error e => .error e
        | .ok l => .ok (bad.map (fun k => (j, k)) ++ l)

/-- What a run leaves behind. -/
structure Outcome (κ : Type) where
  written : Table κ
  errors : List (ℕ × Key)

/-- Lines 71-118.  The loop sets `has_errors` (line 113) but the test (line 114) reads
`has_error`, which stays False. -/
def merge (noCheck noMetrology : Bool) (metr : List (Row κ)) (t : Table κ) : Except PyErr (Outcome κ) :=
  let t := addLocation t
  if !t.hasId then .error (.sysExit 12)
  else
    let t := if !t.hasCol .deviceLoc && !noMetrology then fill metr t else t
    if !noCheck && !noMetrology then
      match checkLoop metr t.hasCol t.rows.zipIdx with
      | .error e => .error e
      | .ok errs =>
        let hasError := false
        if hasError then .error (.sysExit 12) else .ok ⟨t, errs⟩
    else .ok ⟨t, []⟩

end Verif.Model.Merge
