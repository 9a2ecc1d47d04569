import Verif.Model.Ptl2fp
import Verif.Py.Str

/-!
# Model of `bin/write_focal_plane_metrology`

Tables are lists of rows with the columns the script looks at; the others are `rest`. A masked cell is `none`. Rows of the patch are
copied column by column, in order: the columns of the tables are supposed to be the same. Truncation of strings by fixed width columns,
logging, and reading and writing of the files are left out.
-/

namespace Verif.Model.FpMetrology
open Verif.Py
open Verif.Model.Ptl2fp (V3 ptl2fp fp2ptl)

variable {π τ : Type}

/-- `DEVICE_TYPE`. -/
inductive Kind where
  | pos | fif | gif | gfa | other
  deriving DecidableEq

/-- A row of the petal metrology file; `pin` is the text of the cell `PINHOLE_ID`. -/
structure Raw (π : Type) where
  ploc : ℕ
  dloc : Option ℤ
  kind : Kind
  pin : PyStr
  ptl : V3
  rest : π

/-- A row of the tables worked with. -/
structure Row (π : Type) where
  ploc : ℕ
  dloc : Option ℤ
  kind : Kind
  pin : ℤ
  ptl : V3
  fp : V3
  loc : Option ℤ
  rest : π

/-- Value of a digit. -/
def digit? (c : Char) : Option ℤ := if c.isDigit then some ((c.toNat : ℤ) - 48) else none

/-- `int(s)` for texts without sign, blanks and underscores; `none` is `ValueError`. -/
def int? (s : PyStr) : Option ℤ :=
  if s = [] then none else s.foldl (fun a c => do let a ← a; let d ← digit? c; return 10 * a + d) (some 0)

/-- Lines 41-48. -/
def pinhole (s : PyStr) : Except PyErr ℤ :=
  match s with
  | [] => .error .indexError
  | c :: t =>
    if c = 'M' then
      match t with
      | [] => .error .indexError
      | d :: _ =>
        match digit? d with
        | some v => .ok v
        | none => .error .valueError
    else .ok ((int? s).getD 0)

/-- Lines 58-60 for one row. (`apply_ptl2fp` treats each row like `ptl2fp`: theorem `C10_table`.) -/
noncomputable def place (al : Ptl2fp.Dict) (q : Raw π × ℤ) : Except PyErr (Row π) := do
  let fp ← ptl2fp al q.1.ploc q.1.ptl
  return ⟨q.1.ploc, q.1.dloc, q.1.kind, q.2, q.1.ptl, fp, q.1.dloc.map fun d => (q.1.ploc : ℤ) * 1000 + d, q.1.rest⟩

/-- Lines 34-49 for one row. -/
def parse (r : Raw π) : Except PyErr (Raw π × ℤ) := do
  let p ← pinhole r.pin
  return (r, p)

/-- Lines 33-60. -/
noncomputable def base (al : Ptl2fp.Dict) (raw : List (Raw π)) : Except PyErr (List (Row π)) := do
  let rows ← (raw.filter fun r => r.ploc < 10).mapM parse
  (rows.filter fun q => 1 < hypot (q.1.ptl 0) (q.1.ptl 1)).mapM (place al)

/-- `selection` (line 67): a masked location is equal to none. -/
def same (p r : Row π) : Bool :=
  match r.loc, p.loc with
  | some a, some b => decide (a = b ∧ r.pin = p.pin)
  | _, _ => false

/-- Lines 67-76 for one row of the patch. -/
def patchOne (noReplacement : Bool) (spots : List (Row π)) (p : Row π) : List (Row π) :=
  if spots.any (same p) then
    if noReplacement then spots else spots.map fun r => if same p r then p else r
  else spots ++ [p]

/-- Lines 66-76. -/
def patchAll (noReplacement : Bool) (spots patch : List (Row π)) : List (Row π) := patch.foldl (patchOne noReplacement) spots

/-- Lines 84-90 for one row of the GFA patch; the flag tells that `X_PTL` is NaN. The state is the table, and the rows of the patch
already treated. -/
noncomputable def gfaOne (al : Ptl2fp.Dict) (s : List (Row π) × List (Row π)) (g : Bool × Row π) :
    Except PyErr (List (Row π) × List (Row π)) :=
  if g.1 then do
    let v ← fp2ptl al g.2.ploc g.2.fp
    return (s.1.filter fun r => ¬ (r.kind = .gfa ∧ r.ploc = g.2.ploc), s.2 ++ [{ g.2 with ptl := ![v 0, v 1, g.2.fp 2] }])
  else .ok (s.1, s.2 ++ [g.2])

/-- Lines 83-92. -/
noncomputable def gfaAll (al : Ptl2fp.Dict) (spots : List (Row π)) (gfa : List (Bool × Row π)) : Except PyErr (List (Row π)) := do
  let s ← gfa.foldlM (gfaOne al) (spots, [])
  return s.1 ++ s.2

/-- `m` (lines 100-102). -/
def cheats (c r : Row π) : Bool := decide (r.kind = c.kind ∧ r.pin = c.pin ∧ r.ploc = c.ploc)

/-- Lines 100-108 for one row of the cheat patch. -/
noncomputable def cheatOne (spots : List (Row π)) (c : Row π) : Except PyErr (List (Row π)) :=
  match spots.filter (cheats c) with
  | [] => .error .indexError
  | [_] => .ok (spots.map fun r => if cheats c r then { r with fp := ![c.fp 0, c.fp 1, r.fp 2] } else r)
  | _ => .error .valueError

/-- Lines 99-108. -/
noncomputable def cheatAll (spots cheat : List (Row π)) : Except PyErr (List (Row π)) := cheat.foldlM cheatOne spots

/-- A row of the table of positioners: device, bus and CAN identifiers (`ids`), location and petal identifier. -/
structure Idx (τ : Type) where
  ploc : ℕ
  dloc : ℤ
  ids : τ
  petalId : ℤ

/-- `loc2index[loc]` (lines 115-116): the last row with this location. -/
def idsOf (table : List (Idx τ)) (loc : ℤ) : Except PyErr τ :=
  match table.reverse.find? fun x => decide (1000 * (x.ploc : ℤ) + x.dloc = loc) with
  | some x => .ok x.ids
  | none => .error .keyError

/-- `ploc2id[ploc]` (line 127): the first row of this petal. -/
def petalOf (table : List (Idx τ)) (ploc : ℕ) : Except PyErr ℤ :=
  match table.find? fun x => decide (x.ploc = ploc) with
  | some x => .ok x.petalId
  | none => .error .keyError

/-- `selection` (line 117). -/
def hasIds (r : Row π) : Bool := decide (r.kind = .pos ∨ r.kind = .fif ∨ r.kind = .gif)

/-- Lines 117-124 for one row; `none` stands for `"unknown"` and -1. A masked location cannot be looked up. -/
def idsFor (table : List (Idx τ)) (r : Row π) : Except PyErr (Option τ) :=
  if hasIds r then
    match r.loc with
    | some l => (idsOf table l).map some
    | none => .error .typeError
  else .ok none

/-- A row of the output. -/
structure Out (π τ : Type) where
  row : Row π
  ids : Option τ
  petalId : ℤ

/-- Lines 130-133. -/
def noLocation (r : Row π) : Row π :=
  match r.dloc with
  | some d => if 0 ≤ d then r else { r with dloc := some (-1), loc := some (-1) }
  | none => { r with dloc := some (-1), loc := some (-1) }

/-- Lines 114-133. -/
def identify (table : List (Idx τ)) (spots : List (Row π)) : Except PyErr (List (Out π τ)) := do
  let ids ← spots.mapM (idsFor table)
  let petals ← spots.mapM fun r => petalOf table r.ploc
  return (spots.zip (ids.zip petals)).map fun q => ⟨noLocation q.1, q.2.1, q.2.2⟩

/-- The script: the table written. -/
noncomputable def metrology (al : Ptl2fp.Dict) (noReplacement : Bool) (raw : List (Raw π)) (patch : List (Row π)) (gfa : List (Bool × Row π))
    (cheat : List (Row π)) (table : List (Idx τ)) : Except PyErr (List (Out π τ)) := do
  let spots ← base al raw
  let spots ← gfaAll al (patchAll noReplacement spots patch) gfa
  let spots ← cheatAll spots cheat
  identify table spots

end Verif.Model.FpMetrology
