import Verif.Py.Dict
import Verif.Model.MatchPositioners

/-!
# bin/update_focal_plane_metrology_patch

Lines 24-62: new coordinates of the rows of fp-metrology-patch.csv from one or several tables of spots. The lists `xfp[loc]` and
`yfp[loc]`, which always get a value together, are one list of pairs; other columns of the patch are not changed. Coordinates
that are not numbers, the prints and the text of the tables are left out.
-/

namespace Verif.Model.PatchUpdate
open Verif.Py Verif.Model.MatchPositioners

/-- A row of the patch. -/
structure Row where
  petal : ℤ
  device : ℤ
  pinhole : ℤ
  x : ℝ
  y : ℝ

/-- `ploc` (line 28). -/
def ploc (r : Row) : ℤ := r.petal * 10000 + r.device * 10 + r.pinhole

/-- A row of a table with column LOCATION. -/
structure LocSpot where
  location : ℤ
  pinhole : ℤ
  xy : ℝ × ℝ

/-- A row of a table without it. -/
structure PetalSpot where
  petal : ℤ
  device : ℤ
  pinhole : ℤ
  xy : ℝ × ℝ

/-- An input table. -/
inductive File where
  | byLocation (rows : List LocSpot)
  | byPetal (rows : List PetalSpot)

/-- `sloc` with the coordinates (lines 41-44). -/
def sloc : File → List (ℤ × ℝ × ℝ)
  | .byLocation rows => rows.map fun s => (s.location * 10 + s.pinhole, s.xy)
  | .byPetal rows => rows.map fun s => (s.petal * 10000 + s.device * 10 + s.pinhole, s.xy)

/-- Lines 34-36. -/
def start (locs : List ℤ) : Dict ℤ (List (ℝ × ℝ)) := locs.foldl (fun d k => d.set k []) []

/-- Lines 49-52. -/
def collectOne (spots : List (ℤ × ℝ × ℝ)) (d : Dict ℤ (List (ℝ × ℝ))) (k : ℤ) : Dict ℤ (List (ℝ × ℝ)) :=
  match spots.filter fun s => s.1 = k with
  | [s] => d.set k ((d.get? k).getD [] ++ [s.2])
  | _ => d

/-- Lines 48-52. -/
def collect (locs : List ℤ) (d : Dict ℤ (List (ℝ × ℝ))) (f : File) : Dict ℤ (List (ℝ × ℝ)) :=
  locs.foldl (collectOne (sloc f)) d

/-- Lines 55-61. -/
noncomputable def replaceOne (d : Dict ℤ (List (ℝ × ℝ))) (patch : List Row) (k : ℤ) : List Row :=
  match (d.get? k).getD [] with
  | [] => patch
  | v :: l => patch.map fun r => if ploc r = k then
      { r with x := median ((v :: l).map Prod.fst), y := median ((v :: l).map Prod.snd) } else r

/-- Lines 24-62. -/
noncomputable def update (patch : List Row) (files : List File) : List Row :=
  let locs := patch.map ploc
  let d := files.foldl (collect locs) (start locs)
  locs.foldl (replaceOne d) patch

end Verif.Model.PatchUpdate
