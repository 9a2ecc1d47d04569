import Verif.Py.Real
import Verif.Py.Str
import Mathlib.Data.Nat.Bitwise

/-!
# The comparison of desimeter with platemaker (`bin/plot_pm_coords`)

Modelled: the choice of the rows of the coordinates file (line 90), the location of a fibre (94, 96),
the join with the fiberassign table through a dictionary of locations (97 to 99), the kinds of
objects (100, 101), the flags (37 to 45, 111 to 114), the table which is written with `--outfile`
(121 to 131), the three classes of targets `ok`, `good` and `bad` (155 to 157, 225 to 227), the
counts of flags (163 to 167) and the rms of a class (170, 171).

The focal plane coordinates of the targets, which come from `fiberassign_radec2xy_cs5` (see
`Verif.Model.Fiberassign`), are a parameter: a list with one entry for each row.
NaN is `none`; the comparison of NaN with a number is false.  The field rotation which is printed
is `_measure_fieldrot_deg`, modelled in `Verif.Model.Fiberassign`.

Not modelled: the reading of the files and of the headers, the figure, the quantiles.
-/

namespace Verif.Model.PmCoords

open Verif.Py

/-- A row of the coordinates file (bin/plot_pm_coords, lines 90, 94, 103 to 109). -/
structure CoordRow where
  fiberRa : Option ℝ
  fiberDec : Option ℝ
  fiberX : Option ℝ
  fiberY : Option ℝ
  petal : ℤ
  device : ℤ
  /-- `REQ_X_1`, `REQ_Y_1`: the request of platemaker -/
  req : Option (ℝ × ℝ)
  /-- `FLAGS_COR_1` -/
  flags : ℕ

/-- A row of the fiberassign table (lines 96, 100, 101). -/
structure FaRow where
  petal : ℤ
  device : ℤ
  objtype : PyStr

/-- The rows which are used (line 90). -/
noncomputable def usable (c : CoordRow) : Bool :=
  c.fiberRa.isSome && c.fiberDec.isSome && c.fiberX.isSome && c.fiberY.isSome &&
    @decide (c.fiberX ≠ some 0) (Classical.dec _)

/-- The location (lines 94 and 96). -/
def location (petal device : ℤ) : ℤ := petal * 1000 + device

/-- `fmap[l]` (lines 97 and 98): the dictionary keeps the last row of a location. -/
def faRow (fa : List FaRow) (l : ℤ) : Except PyErr FaRow :=
  match (fa.filter fun f => decide (location f.petal f.device = l)).getLast? with
  | some f => .ok f
  | none => .error .keyError

/-- Lines 90 to 99: the rows which are used, each with its row of the fiberassign table. -/
noncomputable def joined (coords : List CoordRow) (fa : List FaRow) : Except PyErr (List (CoordRow × FaRow)) :=
  (coords.filter usable).mapM fun c => do
    let f ← faRow fa (location c.petal c.device)
    .ok (c, f)

/-- The bits of the flags (lines 37 to 45) which are tested in line 112, in this order:
OVERLAP, FROZEN, UNREACHABLE, CTRLDISABLED, COMERROR, NONFUNCTIONAL, REJECTED. -/
def tested : List ℕ := [2 ^ 19, 2 ^ 20, 2 ^ 21, 2 ^ 16, 2 ^ 18, 2 ^ 24, 2 ^ 25]

/-- `FLAGS_COR_1 & mbit[k] > 0`. -/
def has (flags bit : ℕ) : Bool := decide (flags &&& bit > 0)

/-- `OBJTYPE == "TGT"`. -/
def target (f : FaRow) : Bool := decide (f.objtype = "TGT".toList)

/-- `flagged` (lines 111 to 114). -/
def flagged (r : CoordRow × FaRow) : Bool := (tested.any fun b => has r.1.flags b) && target r.2

/-- `sky` and `other` (lines 100 and 101). -/
def sky (f : FaRow) : Bool := decide (f.objtype = "SKY".toList)
def other (f : FaRow) : Bool := decide (f.objtype = []) || decide (f.objtype = "BAD".toList)

/-- The offset of two positions (lines 123 to 125 and 151 to 153). -/
noncomputable def offset (p q : Option (ℝ × ℝ)) : Option ℝ :=
  match p, q with
  | some p, some q => some (Real.sqrt ((p.1 - q.1) ^ 2 + (p.2 - q.2) ^ 2))
  | _, _ => none

/-- `offset < m`, false for NaN. -/
noncomputable def below (o : Option ℝ) (m : ℝ) : Bool :=
  match o with
  | some d => @decide (d < m) (Classical.dec _)
  | none => false

/-- `offset >= m`, false for NaN. -/
noncomputable def above (o : Option ℝ) (m : ℝ) : Bool :=
  match o with
  | some d => @decide (d ≥ m) (Classical.dec _)
  | none => false

/-- A row of the table which is written (lines 127 to 130). -/
structure Out where
  pm : Option (ℝ × ℝ)
  dm : Option (ℝ × ℝ)

/-- Lines 121 to 131: the table which is written, from the rows and their desimeter positions. -/
noncomputable def written (rows : List (CoordRow × FaRow)) (dm : List (Option (ℝ × ℝ))) : List Out :=
  ((rows.zip dm).filter fun p => !flagged p.1 && below (offset p.2 p.1.1.req) 0.1).map
    fun p => ⟨p.1.1.req, p.2⟩

/-- `maxoffset` (line 154). -/
def maxoffset : ℝ := 1

/-- `ok`, `good` and `bad` (lines 155 to 157). -/
def ok (r : CoordRow × FaRow) : Bool := target r.2 && !flagged r
noncomputable def good (p : (CoordRow × FaRow) × Option (ℝ × ℝ)) : Bool :=
  target p.1.2 && below (offset p.2 p.1.1.req) maxoffset && !flagged p.1
noncomputable def bad (p : (CoordRow × FaRow) × Option (ℝ × ℝ)) : Bool :=
  target p.1.2 && above (offset p.2 p.1.1.req) maxoffset && !flagged p.1

/-- The number of rows with a flag (lines 163 to 165). -/
def countOf (rows : List (CoordRow × FaRow)) (bit : ℕ) : ℕ :=
  (rows.filter fun r => has r.1.flags bit).length

/-- "Number of CTRLDISABLED but FUNCTIONAL" (lines 166 and 167). -/
def disabledFunctional (rows : List (CoordRow × FaRow)) : ℕ :=
  (rows.filter fun r => has r.1.flags (2 ^ 16) && decide (r.1.flags &&& 2 ^ 24 = 0)).length

/-- The rms of the first coordinates of a class (lines 170 and 171), NaN without rows. -/
noncomputable def rms (l : List ℝ) : Option ℝ :=
  if l = [] then none else some (Real.sqrt ((l.map (· ^ 2)).sum / l.length))

/-- `dx` and `dy` of the good rows (lines 170 and 171). -/
noncomputable def goodDx (rows : List (CoordRow × FaRow)) (dm : List (Option (ℝ × ℝ))) : List (ℝ × ℝ) :=
  ((rows.zip dm).filter good).filterMap fun p =>
    match p.2, p.1.1.req with
    | some a, some b => some (a.1 - b.1, a.2 - b.2)
    | _, _ => none

/-- `rmsx` and `rmsy` (lines 170 and 171). -/
noncomputable def printed (rows : List (CoordRow × FaRow)) (dm : List (Option (ℝ × ℝ))) : Option ℝ × Option ℝ :=
  (rms ((goodDx rows dm).map Prod.fst), rms ((goodDx rows dm).map Prod.snd))

end Verif.Model.PmCoords
