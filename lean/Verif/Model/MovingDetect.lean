import Verif.Model.AverageCoord
import Verif.Model.Fvc2fp
import Verif.Model.Ptl2fp
import Verif.Model.Xy2qs

/-!
# Model of `bin/detect_and_match_moving_positioners`

Inputs are the spot coordinates found by `process_fvc` in the images. Columns of the metrology table that are only copied or removed,
the printed lines and the plots are left out.
-/

namespace Verif.Model.MovingDetect
open Verif.Py Verif.Model.Match Verif.Model.SimpleCorr
open Verif.Model.AverageCoord (Env matchLists average)
open Verif.Model.Fvc2fp (FVC2FP)

/-- Indexing an array with an index array entry. -/
def at? {α : Type} (l : List α) (j : ℕ) : Except PyErr α :=
  match l[j]? with
  | some a => .ok a
  | none => .error .indexError

/-- Lines 81-92: spots of the images after the moves (first) paired with spots of those before. The selection of line 84, which
asks for a distance below 50 pixels, is replaced by that of line 85, which does not. -/
noncomputable def pairUp (env : Env) (after before : List (ℝ × ℝ)) : Except PyErr (List ((ℝ × ℝ) × (ℝ × ℝ))) :=
  let ok := (after.zip (matchLists env after before)).filterMap fun e => e.2.1.map fun j => (e.1, j)
  ok.mapM fun q => do
    let b ← at? before q.2
    return (q.1, b)

/-- A spot: pixels and focal plane coordinates. -/
structure Spot where
  pix : ℝ × ℝ
  xy : ℝ × ℝ

/-- Lines 94-108 and 133-136: the spots that moved. -/
noncomputable def detect (env : Env) (t : FVC2FP) (after before : List (ℝ × ℝ)) (minMove maxMove : ℝ) :
    Except PyErr (List Spot) := do
  let prs ← pairUp env after before
  let corr ← fit fresh (prs.map fun q => ⟨q.2.1, q.2.2, q.1.1, q.1.2⟩)
  let xy1 ← t.fvc2fp (prs.map Prod.fst)
  let xy2 ← t.fvc2fp (prs.map fun q => apply corr q.2.1 q.2.2)
  return ((prs.zip (xy1.zip xy2)).filter fun s => minMove < dist2 s.2.2 s.2.1 ∧ dist2 s.2.2 s.2.1 < maxMove).map
    fun s => ⟨s.1.1, s.2.1⟩

/-- A row of the metrology table. -/
structure Dev (κ : Type) where
  id : κ
  xy : ℝ × ℝ
  ploc : ℕ

/-- A row of the output. -/
structure Row (κ : Type) where
  dev : Dev κ
  spot : Spot
  ptl : ℝ × ℝ
  qs : ℝ × ℝ
  flags : ℕ

/-- Lines 113-149: spots with the index of their device. (The loop of lines 122-129 is that of `match_same_system`.) -/
noncomputable def identify (env : Env) (spots : List Spot) (centres : List (ℝ × ℝ)) (maxRadius : ℝ) : List (Spot × ℕ) :=
  (spots.zip (matchLists env (spots.map Spot.xy) centres)).filterMap fun e =>
    match e.2.1 with
    | some j => if e.2.2 < (maxRadius : WithTop ℝ) then some (e.1, j) else none
    | none => none

/-- Lines 154-180 for one spot. -/
noncomputable def mkRow {κ : Type} (al : Ptl2fp.Dict) (r2z : ℝ → ℝ) (req : List (Dev κ)) (q : Spot × ℕ) : Except PyErr (Row κ) := do
  let dev ← at? req q.2
  let v ← Ptl2fp.fp2ptl al dev.ploc (Ptl2fp.withZ r2z q.1.xy.1 q.1.xy.2)
  return ⟨dev, q.1, (v 0, v 1), Xy2qs.xy2qs (v 0) (v 1), 4⟩

/-- Lines 113-200: the content of the output file; `none` when none is written. -/
noncomputable def label {κ : Type} [DecidableEq κ] (env : Env) (al : Ptl2fp.Dict) (r2z : ℝ → ℝ) (metrology : List (Dev κ))
    (moved : List κ) (spots : List Spot) (maxRadius minDist : ℝ) : Except PyErr (Option (List (Row κ))) := do
  let req := metrology.filter fun d => d.id ∈ moved
  let rows ← (identify env spots (req.map Dev.xy) maxRadius).mapM (mkRow al r2z req)
  let sel := rows.filter fun r => minDist < dist2 r.spot.xy r.dev.xy
  return if sel.length > 0 then some sel else none

/-- The program from the spots in the images to the file written. -/
noncomputable def run {κ : Type} [DecidableEq κ] (env : Env) (t : FVC2FP) (al : Ptl2fp.Dict) (r2z : ℝ → ℝ)
    (metrology : List (Dev κ)) (moved : List κ) (beforeImages afterImages : List (List (ℝ × ℝ)))
    (minMove maxMove maxRadius minDist : ℝ) : Except PyErr (Option (List (Row κ))) := do
  let before ← average env beforeImages
  let after ← average env afterImages
  let spots ← detect env t after before minMove maxMove
  label env al r2z metrology moved spots maxRadius minDist

end Verif.Model.MovingDetect
