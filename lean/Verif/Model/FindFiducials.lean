import Verif.Model.AverageCoord
import Verif.Model.MatchPositioners
import Mathlib.Data.List.MinMax

/-!
# Model of `py/desimeter/findfiducials.py`

The table of spots is represented by the pixel positions of its rows and by the four label
columns; rows are addressed by number, so a column is a function on row numbers.  Log messages
are not modelled.  The transforms are total functions here.
-/

namespace Verif.Model.FindFiducials
open Verif.Py Verif.Model.Match Verif.Model.SimpleCorr Verif.Model.AverageCoord

/-- A pinhole row (DEVICE_TYPE FIF or GIF) of the metrology table. -/
structure Pin where
  loc : ℤ
  id : ℤ
  fp : ℝ × ℝ

/-- An FVC2FP object: `fvc2fp` and `fp2fvc`. -/
structure Tx where
  toFp : ℝ × ℝ → ℝ × ℝ
  toPix : ℝ × ℝ → ℝ × ℝ

/-- A row of `metrology_pinholes_table` with `XPIX`, `YPIX`. -/
structure CPin where
  loc : ℤ
  id : ℤ
  pix : ℝ × ℝ

/-- The module variables: `metrology_pinholes_table` and the rows of it that make
`metrology_fiducials_table`. -/
structure Cache where
  pins : List CPin
  fids : List ℕ

/-- Library routines: those of `match_same_system`, the KD-tree query `k=4` with a distance
bound (the row numbers reported with a distance below it; `⊤` is `np.inf`), and those of
`match_arbitrary_translation_dilatation`. -/
structure Env where
  same : AverageCoord.Env
  knn : List (ℝ × ℝ) → WithTop ℝ → ℕ → List ℕ
  ordx : {n : ℕ} → (Fin n → ℝ × ℝ) → List (Fin n)
  nearTri : List (ℝ × ℝ × ℝ) → (ℝ × ℝ × ℝ) → ℕ
  rank : List ℝ → List ℕ

/-- `pinhole_max_separation_pixels` (lines 31-35); division by zero gives `np.inf`. -/
noncomputable def radius (tx : Tx) (sep : ℝ) : WithTop ℝ :=
  let p := dist2 (tx.toFp (2000 + 1, 0)) (tx.toFp (2000, 0))
  if p = 0 then ⊤ else ((sep / p : ℝ) : WithTop ℝ)

/-- Rows `ii` of a location (line 52). -/
def rowsOf (pins : List CPin) (loc : ℤ) : List ℕ :=
  (List.range pins.length).filter fun i => (pins.map (·.loc))[i]? = some loc

/-- Pixel position of a row. -/
def pixAt (pins : List CPin) (i : ℕ) : ℝ × ℝ := (pins.map (·.pix)).getD i (0, 0)

/-- The most central pinhole of a location: first row nearest to the mean (lines 53-56). -/
noncomputable def central (pins : List CPin) (loc : ℤ) : Option ℕ :=
  let ii := rowsOf pins loc
  let mx := mean (ii.map fun i => (pixAt pins i).1)
  let my := mean (ii.map fun i => (pixAt pins i).2)
  ii.argmin fun i => ((pixAt pins i).1 - mx) ^ 2 + ((pixAt pins i).2 - my) ^ 2

/-- Lines 38-57. -/
noncomputable def build (metro : List Pin) (tx : Tx) : Cache :=
  let pins := metro.map fun p => (⟨p.loc, p.id, tx.toPix p.fp⟩ : CPin)
  ⟨pins, ((pySort id (pins.map (·.loc))).dedup).filterMap (central pins)⟩

/-- `LOCATION`, `PETAL_LOC`, `DEVICE_LOC`, `PINHOLE_ID` of a spot. -/
@[ext] structure Label where
  loc : ℤ
  petal : ℤ
  dev : ℤ
  pin : ℤ

/-- Distances of the matched entries (line 82). -/
noncomputable def matchedDist (m : List (Option ℕ × WithTop ℝ)) : List ℝ :=
  m.filterMap fun e => match e with
    | (some _, some d) => some d
    | _ => none

/-- The iterative fit (lines 78-96); `k` is the number of iterations left.  Returns the
corrected `x2, y2`. -/
noncomputable def iterate (env : Env) (x1 : List (ℝ × ℝ)) : ℕ → List (ℝ × ℝ) → ℝ → Except PyErr (List (ℝ × ℝ))
  | 0, x2, _ => .ok x2
  | k + 1, x2, saved => do
    let m := matchLists env.same x1 x2
    let mdist := MatchPositioners.median (matchedDist m)
    let maxd := if k = 0 then 10 else max 10 (3 * (14 / 10) * mdist)
    let sel := okPairs maxd m
    let corr ← fit fresh (sel.map fun p =>
      ⟨(x2.getD p.2 (0, 0)).1, (x2.getD p.2 (0, 0)).2, (x1.getD p.1 (0, 0)).1, (x1.getD p.1 (0, 0)).2⟩)
    let x2' := x2.map fun q => apply corr q.1 q.2
    if |saved - mdist| < 1 / 10000 then .ok x2' else iterate env x1 k x2' mdist

/-- Pinhole ids that occur more than once (lines 148-154). -/
def duplicates (ids : List ℤ) : List ℤ := ids.filter fun d => 0 < d ∧ 1 < ids.count d

/-- Lines 125-136: labels of the matched spots of one fiducial. -/
def assign (pi1 : List ℕ) (loc : ℤ) (ids : List (Option ℤ)) (lab : ℕ → Label) : ℕ → Label :=
  (pi1.zip ids).foldl (fun lab e => match e.2 with
    | some v => Function.update lab e.1 { lab e.1 with loc := loc, pin := v }
    | none => lab) lab

/-- Lines 118-157: the spots `pi1` of the fiducial at `loc`. -/
noncomputable def labelGroup (env : Env) (c : Cache) (pts : List (ℝ × ℝ)) (pi1 : List ℕ) (loc : ℤ) (lab : ℕ → Label) :
    Except PyErr (ℕ → Label) := do
  let pi2 := rowsOf c.pins loc
  let xy1 : Fin pi1.length → ℝ × ℝ := fun i => pts.getD pi1[i] (0, 0)
  let xy2 : Fin pi2.length → ℝ × ℝ := fun j => pixAt c.pins pi2[j]
  let m ← matchArbitrary (env.ordx xy1) (env.ordx xy2) env.nearTri env.rank xy1 xy2
  let ids : List (Option ℤ) := List.ofFn fun i => (m.1 i).map fun j => (c.pins.map (·.id)).getD pi2[j] 0
  let lab' := assign pi1 loc ids lab
  let dups := duplicates (ids.map (·.getD 0))
  return fun s => if (lab' s).loc = loc ∧ (lab' s).pin ∈ dups then { lab' s with pin := 0 } else lab' s

/-- One fiducial (lines 115-157): candidate spot `e.1`, row `e.2` of the fiducials table. -/
noncomputable def step (env : Env) (c : Cache) (pts : List (ℝ × ℝ)) (r : WithTop ℝ) (lab : ℕ → Label) (e : ℕ × ℕ) :
    Except PyErr (ℕ → Label) :=
  labelGroup env c pts (env.knn pts r e.1) ((c.pins.map (·.loc)).getD (c.fids.getD e.2 0) 0) lab

/-- Lines 159-161. -/
def finish (l : Label) : Label :=
  if 0 ≤ l.loc then { l with petal := l.loc / 1000, dev := l.loc % 1000 } else l

/-- Pairs of the final match (lines 99-103): spot and row of the fiducials table. -/
noncomputable def finalPairs (env : Env) (cand : List ℕ) (x1 x2 : List (ℝ × ℝ)) : List (ℕ × ℕ) :=
  (okPairs 10 (matchLists env.same x2 x1)).map fun p => (cand.getD p.2 0, p.1)

/-- Candidates: at least four spots within the separation, itself included (lines 64-66). -/
noncomputable def candidates (env : Env) (pts : List (ℝ × ℝ)) (r : WithTop ℝ) : List ℕ :=
  (List.range pts.length).filter fun i => 4 ≤ (env.knn pts r i).length

/-- `findfiducials` once the module variables are set (lines 59-167).  `Except.ok` gives the
labels of the spots in order. -/
noncomputable def findWith (env : Env) (c : Cache) (r : WithTop ℝ) (pts : List (ℝ × ℝ)) :
    Except PyErr (List Label) := do
  let cand := candidates env pts r
  let x1 := cand.map fun i => pts.getD i (0, 0)
  let x2 ← iterate env x1 20 (c.fids.map (pixAt c.pins)) 0
  let lab ← (finalPairs env cand x1 x2).foldlM (step env c pts r) (fun _ => ⟨-1, -1, -1, 0⟩)
  return (List.range pts.length).map fun s => finish (lab s)

/-- Arguments of a call: the spots, the outcome of reading the transform, the separation. -/
structure Call where
  pts : List (ℝ × ℝ)
  tx : Except PyErr Tx
  sep : ℝ

/-- `findfiducials(spots,input_transform,pinhole_max_separation_mm)` (lines 18-167) with the
module variables as state. -/
noncomputable def findfiducials (env : Env) (metro : List Pin) (cache : Option Cache) (a : Call) :
    Except PyErr (List Label) × Option Cache :=
  match a.tx with
  | .error e => (.error e, cache)
  | .ok tx =>
    let c := cache.getD (build metro tx)
    (findWith env c (radius tx a.sep) a.pts, some c)

/-- The module variables after a sequence of calls from the start of the process. -/
noncomputable def after (env : Env) (metro : List Pin) (calls : List Call) : Option Cache :=
  calls.foldl (fun cache a => (findfiducials env metro cache a).2) none

end Verif.Model.FindFiducials
