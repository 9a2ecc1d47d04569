import Verif.Model.Match

/-!
# Model of `match_positioners` in `py/desimeter/match_positioners.py`

Tables are functions on `Fin`; `calib` has the columns LENGTH_R1 and LENGTH_R2 (or their
`_STATIC` versions, whichever line 103 selects).  The assignment solver is a parameter.
Scores are 0 or 1, so their float sum is exact.
-/

namespace Verif.Model.MatchPositioners
open Verif.Py Verif.Model.Match

structure FvcRow where
  pinhole : ℤ
  counts : ℝ
  xy : ℝ × ℝ

structure MetrRow (κ : Type) where
  pinhole : ℤ
  device : κ
  xy : ℝ × ℝ

structure CalibRow (κ : Type) where
  pos : κ
  r1 : ℝ
  r2 : ℝ

variable {κ : Type} [LinearOrder κ] {F M C : ℕ}

/-- Lines 93-94. -/
noncomputable def fvcPos (fvc : Fin F → FvcRow) (countthresh : ℝ) : List (Fin F) :=
  (List.finRange F).filter fun j => (fvc j).pinhole = 0 ∧ countthresh < (fvc j).counts

/-- Line 97. -/
def metrPos (metr : Fin M → MetrRow κ) : List (Fin M) :=
  (List.finRange M).filter fun i => (metr i).pinhole = 0

/-- `np.median` of a non-empty list. -/
noncomputable def median (l : List ℝ) : ℝ :=
  let s := pySort id l
  (s.getD ((l.length - 1) / 2) 0 + s.getD (l.length / 2) 0) / 2

/-- Lines 101-106: zero where no calibration row has the device's identifier. -/
noncomputable def rawArms {p : ℕ} (dev : Fin p → κ) (calib : Fin C → CalibRow κ) (fudge : ℝ) :
    Except PyErr (Fin p → ℝ) := do
  let (mm, mc) ← keyMatch dev (fun j => (calib j).pos)
  return (mm.zip mc).foldl (fun a ij => Function.update a ij.1 ((calib ij.2).r1 + (calib ij.2).r2 + fudge)) fun _ => 0

/-- Line 119.  With no non-zero length the median is NaN; then no spot is within reach. -/
noncomputable def fillArms {p : ℕ} (a : Fin p → ℝ) : Except PyErr (Fin p → ℝ) :=
  let nz := ((List.finRange p).map a).filter (· ≠ 0)
  if p = 0 then .error .valueError      -- np.max of an empty array (line 131)
  else if nz = [] then .error .indexError  -- see below: no pair at all
  else .ok fun i => if a i = 0 then median nz else a i

/-- `np.max(metrarmlen)`. -/
noncomputable def maxArm {p : ℕ} (a : Fin p → ℝ) : ℝ :=
  match (List.finRange p).map a with
  | [] => 0
  | x :: l => l.foldl max x

/-- Total score of an assignment (line 202). -/
def total {p q : ℕ} (score : Fin p → Fin q → ℕ) (l : List (Fin p × Fin q)) : ℕ :=
  (l.map fun ij => score ij.1 ij.2).sum

structure Result (F M : ℕ) where
  ret : Fin F → Option (Fin M)
  scores : Fin F → Option ℕ
  score : ℕ
  alternatives : List (Fin F → Option (Fin M))

/-- `ret[columns] = rows` after mapping back with `metrpos`, `fvcpos`. -/
def place {p q : ℕ} (mp : Fin p → Fin M) (fp : Fin q → Fin F) (l : List (Fin p × Fin q)) : Fin F → Option (Fin M) :=
  l.foldl (fun r ij => Function.update r (fp ij.2) (some (mp ij.1))) fun _ => none

/-- Score matrix (lines 129-147): 1 for pairs within the search radius and within reach. -/
noncomputable def scoreMatrix {p q : ℕ} (mxy : Fin p → ℝ × ℝ) (fxy : Fin q → ℝ × ℝ) (arm : Fin p → ℝ)
    (i : Fin p) (j : Fin q) : ℕ :=
  if dist2 (mxy i) (fxy j) ≤ maxArm arm + 0.1 ∧ dist2 (mxy i) (fxy j) < arm i then 1 else 0

/-- Lines 163-175: the solutions of the problem with one edge of the assignment removed that
have the same score. -/
def alternatives {p q : ℕ} (lsa : (Fin p → Fin q → ℕ) → List (Fin p × Fin q)) (score : Fin p → Fin q → ℕ)
    (assignment : List (Fin p × Fin q)) : List (List (Fin p × Fin q)) :=
  assignment.filterMap fun e =>
    let new : Fin p → Fin q → ℕ := fun i j => if i = e.1 ∧ j = e.2 then 0 else score i j
    let alt := lsa new
    if total new alt = total score assignment then some alt else none

/-- `match_positioners` (lines 38-196).  `lsa` is `linear_sum_assignment(-score)`. -/
noncomputable def matchPositioners (lsa : {p q : ℕ} → (Fin p → Fin q → ℕ) → List (Fin p × Fin q))
    (fvc : Fin F → FvcRow) (metr : Fin M → MetrRow κ) (calib : Fin C → CalibRow κ)
    (countthresh fudge : ℝ) (return_alternatives : Bool) : Except PyErr (Result F M) := do
  let fp := (fvcPos fvc countthresh).get
  let mp := (metrPos metr).get
  let raw ← rawArms (fun i => (metr (mp i)).device) calib fudge
  let arm ← fillArms raw
  let mxy := fun i => (metr (mp i)).xy
  let fxy := fun j => (fvc (fp j)).xy
  -- okdistance is an empty float array when the tree finds no pair (lines 132-134)
  if ¬ ∃ i j, dist2 (mxy i) (fxy j) ≤ maxArm arm + 0.1 then .error .indexError else
  let score := scoreMatrix mxy fxy arm
  let assignment := lsa score
  let alts := if return_alternatives then alternatives lsa score assignment else []
  return {
    ret := place mp fp assignment
    scores := assignment.foldl (fun r ij => Function.update r (fp ij.2) (some (score ij.1 ij.2))) fun _ => none
    score := total score assignment
    alternatives := alts.map (place mp fp) }

end Verif.Model.MatchPositioners
