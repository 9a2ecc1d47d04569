import Verif.Py.Real
import Verif.Py.Dict
import Verif.Py.Str

/-!
# bin/compute_distance_from_center, bin/check_moving and bin/dump_fiducial_centers

Distances of positioners from the centres of their patrol areas (lines 28-82, after `process_fvc`), the list of which moves
changed the recorded position (lines 61-93, after the query) and the centres of the fiducials. The order of `np.argsort`, which is
not stable, is a parameter. A recorded position is `None` or a number; `None` in `ptl_y` becomes NaN, for which
`dr>0.05` is false. Prints are replaced by the values in them.
-/

namespace Verif.Model.Distance
open Verif.Py

/-- A spot of the output of `process_fvc`. -/
structure Spot where
  loc : ℤ
  x : ℝ
  y : ℝ

/-- A row of the metrology. -/
structure Metro where
  loc : ℤ
  id : PyStr
  x : ℝ
  y : ℝ

/-- Lines 41-44 of compute_distance_from_center. -/
def start : Option (List PyStr) → Dict PyStr ℝ
  | some ids => ids.foldl (fun d p => d.set p (-1)) []
  | none => []

/-- Lines 46-61, for one spot. -/
noncomputable def addSpot (ids : Option (List PyStr)) (m : List Metro) (d : Dict PyStr ℝ) (s : Spot) : Dict PyStr ℝ :=
  if s.loc < 0 then d
  else
    match m.find? fun r => r.loc = s.loc with
    | none => d
    | some r =>
      match ids with
      | some l => if r.id ∉ l then d else d.set r.id (Real.sqrt ((s.x - r.x) ^ 2 + (s.y - r.y) ^ 2))
      | none => d.set r.id (Real.sqrt ((s.x - r.x) ^ 2 + (s.y - r.y) ^ 2))

/-- Lines 41-61. -/
noncomputable def distances (ids : Option (List PyStr)) (m : List Metro) (t : List Spot) : Dict PyStr ℝ :=
  t.foldl (addSpot ids m) (start ids)

open Classical in
/-- Positioners with a property of the distance. -/
noncomputable def having (p : ℝ → Prop) (d : Dict PyStr ℝ) : List PyStr := (d.filter fun e => decide (p e.2)).map Prod.fst

/-- Lines 69-74: the numbers printed. -/
noncomputable def counts (d : Dict PyStr ℝ) : List ℕ :=
  [(having (fun v => 0 < v) d).length, (having (fun v => 0 < v ∧ v < 3) d).length, (having (fun v => 0 < v ∧ v < 4) d).length,
   (having (fun v => 0 < v ∧ v < 5) d).length, (having (fun v => 0 < v ∧ v < 6) d).length, (having (fun v => v < 0) d).length]

/-- Lines 77-84: the lists printed. -/
noncomputable def listings (d : Dict PyStr ℝ) : List (List PyStr) :=
  [having (fun v => 6 < v) d, having (fun v => 5 < v ∧ v ≤ 6) d, having (fun v => 4 < v ∧ v ≤ 5) d, having (fun v => 3 < v ∧ v ≤ 4) d]

/-! ## check_moving -/

/-- A row of the table of moves. -/
structure Move where
  posid : PyStr
  index : ℤ
  bus : PyStr
  x : Option ℝ
  y : Option ℝ

/-- Recorded positions (lines 72-75). -/
def recorded (l : List Move) : List (ℝ × Option ℝ) := l.filterMap fun r => r.x.map fun x => (x, r.y)

/-- `dr>0.05` (lines 77-80). -/
noncomputable def moved (a b : ℝ × Option ℝ) : Bool :=
  match a.2, b.2 with
  | some ya, some yb => decide (0.05 < Real.sqrt ((b.1 - a.1) ^ 2 + (yb - ya) ^ 2))
  | _, _ => false

/-- Lines 64-80 for one positioner; `none`: no line. `busid` is that of the first row before sorting. -/
noncomputable def moving (sort : List Move → List Move) (rows : List Move) (p : PyStr) : Option (PyStr × List Bool) :=
  match rows.filter fun r => r.posid = p with
  | [] => none
  | r :: l =>
    let s := recorded (sort (r :: l))
    if s.length < 2 then none else some (r.bus, List.zipWith moved s s.tail)

/-! ## dump_fiducial_centers -/

/-- A row of the metrology; `fid`: the type is FIF or GIF. -/
structure Dot where
  loc : ℤ
  fid : Bool
  id : PyStr
  dev : ℤ
  p : ℝ × ℝ × ℝ

/-- `np.mean`. -/
noncomputable def mean (l : List ℝ) : ℝ := l.sum / l.length

/-- `np.unique`: insertion into a strictly ascending list. -/
def insertLoc (a : ℤ) : List ℤ → List ℤ
  | [] => [a]
  | b :: l => if a < b then a :: b :: l else if a = b then b :: l else b :: insertLoc a l

/-- `fidloc` (line 9). -/
def fidLocs (m : List Dot) : List ℤ := ((m.filter Dot.fid).map Dot.loc).foldr insertLoc []

/-- A printed line. -/
structure Line where
  id : PyStr
  dev : ℤ
  p : ℝ × ℝ × ℝ

/-- Lines 13-18. -/
noncomputable def line? (m : List Dot) (loc : ℤ) : Option Line :=
  match m.filter fun r => r.loc = loc with
  | [] => none
  | r :: l => some ⟨r.id, r.dev, mean ((r :: l).map fun q => q.p.1), mean ((r :: l).map fun q => q.p.2.1), mean ((r :: l).map fun q => q.p.2.2)⟩

/-- The script. -/
noncomputable def centers (m : List Dot) : List Line := (fidLocs m).filterMap (line? m)

end Verif.Model.Distance
