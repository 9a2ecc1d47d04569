import Verif.Model.Util
import Verif.Py.Dict
import Mathlib.Data.Finset.Sort

/-!
# Maps and series of spots drawn: bin/plot_canbus, bin/plot_metrology, bin/plot_fvc_spots, bin/plot_positioner

A script gives the list of the curves it draws, each with its label and its points; colours, axes and windows are left out. The table of `load_metrology`
and the tables of spots are parameters; missing values in them are not modelled. `np.unique` of integers is the sorted list of the values; `np.unique` of texts is a parameter
`unique`. A table without a column looked up has a `KeyError`, given for the columns of plot_fvc_spots only.
-/

namespace Verif.Model.Drawn
open Verif.Py

/-- A row of the metrology. -/
structure Dev where
  petal : ℤ
  petalId : ℤ
  type : PyStr
  id : PyStr
  bus : ℤ
  xy : ℝ × ℝ

/-- `np.unique` of integers. -/
def unique (l : List ℤ) : List ℤ := l.toFinset.sort (· ≤ ·)

/-- bin/plot_canbus, lines 8-18. -/
def canbus (hasBus : Bool) (m : List Dev) : Except PyErr (List (ℤ × List (ℝ × ℝ))) :=
  if !hasBus then .error (.sysExit 12)
  else .ok ((unique (m.map Dev.bus)).map fun b => (b, (m.filter fun d => d.bus = b).map Dev.xy))

/-- The label of a curve of plot_metrology. -/
inductive Label
  | gray
  | device (id : PyStr)
  | petal (loc id : ℤ)
  | type (t : PyStr)
  | outline (labelled : Bool)
  deriving DecidableEq

/-- bin/plot_metrology, lines 23-27. -/
def highlighted (m : List Dev) (ids : PyStr) : List (Label × List (ℝ × ℝ)) :=
  (.gray, (m.filter fun d => d.type = "POS".toList || d.type = "FIF".toList || d.type = "GIF".toList).map Dev.xy) ::
    (split [','] ids).map fun i => (.device i, (m.filter fun d => d.id = i).map Dev.xy)

/-- Lines 30-33; the first of no identifiers is an `IndexError`. -/
def petalCurve (m : List Dev) (p : ℤ) : Except PyErr (Label × List (ℝ × ℝ)) :=
  match m.filter fun d => d.petal = p && d.type = "POS".toList with
  | [] => .error .indexError
  | d :: l => .ok (.petal p d.petalId, (d :: l).map Dev.xy)

/-- Lines 35-38. -/
def typeCurves (uniqueS : List PyStr → List PyStr) (m : List Dev) : List (Label × List (ℝ × ℝ)) :=
  ((uniqueS (m.map Dev.type)).filter fun t => t ≠ "POS".toList).map fun t => (.type t, (m.filter fun d => d.type = t).map Dev.xy)

/-- Lines 40-54 for the petals left. -/
def outlines (m : List Dev) (ids : Option PyStr) (first : Bool) : List ℤ → List (Label × List (ℝ × ℝ))
  | [] => []
  | p :: ps =>
    match (m.filter fun d => d.type = "GFA".toList && d.petal = p).map Dev.xy with
    | [] => outlines m ids first ps
    | a :: l => (.outline (first && ids.isNone), a :: l ++ [a]) :: outlines m ids false ps

/-- bin/plot_metrology, lines 14-54. -/
def metrology (uniqueS : List PyStr → List PyStr) (m : List Dev) (ids : Option PyStr) : Except PyErr (List (Label × List (ℝ × ℝ))) := do
  let petals := unique (m.map Dev.petal)
  let curves ← (match ids with
    | some s => .ok (highlighted m s)
    | none => do
      let c ← petals.mapM (petalCurve m)
      .ok (c ++ typeCurves uniqueS m))
  return curves ++ outlines m ids true petals

/-- A row of a table of spots. -/
structure Spot where
  loc : ℤ
  pinhole : ℤ
  pix : ℝ × ℝ
  fp : ℝ × ℝ

/-- A table of spots for plot_fvc_spots, with the columns it has. -/
structure Tab where
  hasX : Bool
  hasY : Bool
  hasLoc : Bool
  hasPin : Bool
  rows : List Spot

/-- Lines 37-46: `d` holds number of the file and pixel for each location. -/
def addSpot (number : ℕ) (d : Dict ℤ (List (ℕ × ℝ × ℝ))) (s : Spot) : Dict ℤ (List (ℕ × ℝ × ℝ)) :=
  match d.get? s.loc with
  | none => d.set s.loc [(number, s.pix)]
  | some l => d.set s.loc (l ++ [(number, s.pix)])

/-- What the loop of plot_fvc_spots has after some files: the points drawn for each file and the three dictionaries. -/
structure Series where
  points : List (List (ℝ × ℝ))
  series : Dict ℤ (List (ℕ × ℝ × ℝ))

/-- Lines 22-46 for one file. -/
def spotFile (st : Series) (f : Tab × ℕ) : Except PyErr Series :=
  if !f.1.hasX then .error (.sysExit 12)
  else if !f.1.hasY || !f.1.hasLoc then .error .keyError
  else
    let ii := f.1.rows.filter fun s => s.loc > 0
    .ok ⟨st.points ++ [ii.map Spot.pix], ii.foldl (addSpot f.2) st.series⟩

/-- `x - np.mean(x)`. -/
noncomputable def centred (l : List ℝ) : List ℝ := l.map fun x => x - l.sum / l.length

/-- The curves of plot_fvc_spots: points for each file, pixels marked (lines 49-52), and those of the two figures of series (lines 54-60). -/
structure SpotPlot where
  points : List (List (ℝ × ℝ))
  marked : List (ℝ × ℝ)
  xs : List (ℤ × List ℕ × List ℝ)
  ys : List (ℤ × List ℕ × List ℝ)

/-- bin/plot_fvc_spots, lines 18-60. Without a file, `table` has no value in line 49. -/
noncomputable def fvcSpots (files : List Tab) : Except PyErr SpotPlot := do
  let st ← files.zipIdx.foldlM spotFile ⟨[], []⟩
  match files.getLast? with
  | none => .error .nameError
  | some t =>
    let marked := if t.hasPin && decide (files.length - 1 = 0) then (t.rows.filter fun s => s.pinhole = 4).map Spot.pix else []
    if files.length > 1 then
      return ⟨st.points, marked, st.series.map fun e => (e.1, e.2.map Prod.fst, centred (e.2.map fun p => p.2.1)),
        st.series.map fun e => (e.1, e.2.map Prod.fst, centred (e.2.map fun p => p.2.2))⟩
    else return ⟨st.points, marked, [], []⟩

/-- bin/plot_positioner, lines 49-54 for one file and location: focal plane and pixel positions of the spots with this location. -/
def addFile (t : List Spot) (d : Dict ℕ (List (List ((ℝ × ℝ) × (ℝ × ℝ))))) (l : ℕ) : Dict ℕ (List (List ((ℝ × ℝ) × (ℝ × ℝ)))) :=
  d.set l ((d.get? l).getD [] ++ [(t.filter fun s => s.loc = (l : ℤ)).map fun s => (s.fp, s.pix)])

/-- bin/plot_positioner, lines 24-61: for each curve its location and, in order of the files, the spots. -/
def positioner (files : List (List Spot)) (locations : PyStr) : Except PyErr (List (ℕ × List (List ((ℝ × ℝ) × (ℝ × ℝ))))) := do
  let ls ← Util.parseFibers (some locations)
  let d0 := ls.foldl (fun d l => Dict.set d l []) []
  let d := files.foldl (fun d t => ls.foldl (addFile t) d) d0
  return ls.map fun l => (l, (d.get? l).getD [])

end Verif.Model.Drawn
