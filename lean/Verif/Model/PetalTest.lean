import Verif.Model.FpMetrology

/-!
# bin/write_petal0_metrology and bin/write_petal1_metrology

Metrology of the two petals tested on the ground, with the tables and the patch of Model/FpMetrology (whose `base` is the same code as
lines 53-72 of petal0 and 52-71 of petal1). Cells of `DEVICE_LOC` are not masked. The table of positioners is supposed to be there (it
is, in the package); the columns `DEVICE_ID` and `BUS_ID` it adds are empty texts before. `int(s)` is that of Model/FpMetrology, for texts
without sign, blanks and underscores. The check of `DESIMETER_DATA`, printing, and the truncation of texts are left out.
-/

namespace Verif.Model.PetalTest
open Verif.Py Verif.Model.FpMetrology
open Verif.Model.Ptl2fp (V3)

variable {π : Type}

/-- A row of the petal metrology. -/
structure Spot (π : Type) where
  petal : ℤ
  dloc : ℤ
  type : PyStr
  pin : PyStr
  ptl : V3
  rest : π

/-- Columns besides those of `FpMetrology.Row`. -/
structure Extra (π : Type) where
  type : PyStr
  id : PyStr
  bus : PyStr
  rest : π

def kindOf (t : PyStr) : Kind :=
  if t = "POS".toList then .pos else if t = "FIF".toList then .fif else if t = "GIF".toList then .gif
  else if t = "GFA".toList then .gfa else .other

/-- `spots["PETAL_LOC"][:] = 0` (petal0 line 51, petal1 line 50). -/
def toRaw (s : Spot π) : Raw (Extra π) := ⟨0, some s.dloc, kindOf s.type, s.pin, s.ptl, ⟨s.type, [], [], s.rest⟩⟩

/-- A row of the table of positioners. -/
structure Entry where
  petal : PyStr
  dloc : ℤ
  type : PyStr
  id : PyStr
  bus : PyStr

/-- `ids[...][loc2ind[loc]]`: the last row of a location (petal0 lines 91-99, petal1 lines 80-82). -/
def entryOf (ids : List Entry) (loc : Option ℤ) : Option Entry := ids.reverse.find? fun e => decide (some e.dloc = loc)

def setIds (r : Row (Extra π)) (type id bus : PyStr) : Row (Extra π) := { r with kind := kindOf type, rest := ⟨type, id, bus, r.rest.rest⟩ }

def unknown : PyStr := "UNKNOWN".toList

/-! ## Petal 0 -/

/-- Lines 95-102 for one row. -/
def give0 (ids : List Entry) (r : Row (Extra π)) : Row (Extra π) :=
  match entryOf ids r.dloc with
  | some e => setIds r e.type e.id e.bus
  | none => setIds r unknown unknown unknown

/-- `did` (line 106). -/
def did : List (ℤ × PyStr) :=
  [(11, "P146".toList), (75, "P145".toList), (150, "P147".toList), (239, "P144".toList), (321, "P148".toList), (439, "P078".toList),
   (482, "P059".toList), (496, "P002".toList), (517, "P067".toList), (534, "P073".toList), (541, "P151".toList), (542, "P150".toList)]

/-- Lines 110-113. -/
def fidType (loc : ℤ) : PyStr := if loc = 541 ∨ loc = 542 then "GIF".toList else "FIF".toList

/-- Lines 108-124 for one fiducial. -/
def fidOne (spots : List (Row (Extra π))) (p : ℤ × PyStr) : Except PyErr (List (Row (Extra π))) :=
  match spots.find? fun r => decide (r.dloc = some p.1) with
  | none => .error .indexError
  | some r =>
    if r.rest.type = unknown then
      .ok (spots.map fun r => if r.dloc = some p.1 then setIds r (fidType p.1) p.2 r.rest.bus else r)
    else if p.2 = r.rest.id then .ok spots
    else .error (.sysExit 12)

/-- `"{:05d}".format(n)` of a number that is not negative. -/
def pad5 (n : ℕ) : PyStr :=
  if n < 100000 then [n / 10000 % 10, n / 1000 % 10, n / 100 % 10, n / 10 % 10, n % 10].map Nat.digitChar else Nat.toDigits 10 n

/-- Lines 125-126 for one row. -/
def rename (r : Row (Extra π)) : Except PyErr (Row (Extra π)) :=
  if r.rest.type = "POS".toList then
    match int? r.rest.id with
    | some n => .ok (setIds r r.rest.type ('M' :: pad5 n.toNat) r.rest.bus)
    | none => .error .valueError
  else .ok r

/-- Lines 43-126 (the patch below them is never applied): the table written. -/
noncomputable def petal0 (al : Ptl2fp.Dict) (raw : List (Spot π)) (table : List Entry) : Except PyErr (List (Row (Extra π))) := do
  let spots ← base al ((raw.filter fun s => decide (s.petal = 0 ∧ 0 < s.dloc)).map toRaw)
  let ids := table.filter fun e => decide (0 ≤ e.dloc ∧ e.petal = ['0'])
  if ids.all fun e => decide (e.id ≠ "07004".toList) then throw .indexError
  let spots ← did.foldlM fidOne (spots.map (give0 ids))
  spots.mapM rename

/-! ## Petal 1 -/

/-- Lines 81-82 for one row. -/
def give1 (ids : List Entry) (r : Row (Extra π)) : Except PyErr (Row (Extra π)) :=
  match entryOf ids r.dloc with
  | some e => .ok (setIds r e.type e.id e.bus)
  | none => .error .keyError

/-- Lines 84-87 for one location. -/
def etcOne (loc : ℤ) : List (Row (Extra π)) → Except PyErr (List (Row (Extra π)))
  | [] => .error .indexError
  | r :: t => if r.dloc = some loc then .ok (setIds r "ETC".toList r.rest.id r.rest.bus :: t) else (etcOne loc t).map (r :: ·)

/-- Lines 43-103: the table written. -/
noncomputable def petal1 (al : Ptl2fp.Dict) (noReplacement : Bool) (raw : List (Spot π)) (table : List Entry) (patch : List (Row (Extra π))) :
    Except PyErr (List (Row (Extra π))) := do
  let spots ← base al ((raw.filter fun s => decide (s.petal = 1)).map toRaw)
  let spots ← spots.mapM (give1 table)
  let spots ← etcOne 461 spots
  let spots ← etcOne 501 spots
  return patchAll noReplacement spots patch

end Verif.Model.PetalTest
