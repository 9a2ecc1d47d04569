import Verif.Model.MatchPositioners
import Verif.Py.Dict
import Mathlib.Analysis.SpecialFunctions.Trigonometric.Inverse

/-!
# Listing of possible matches: match_positioners.py lines 7-22 and 206-283, bin/desi_print_ambigous_groups

Parameters: the KD tree query of all pairs within a radius, the sort of names, the order in which the elements of a set are visited.
A coordinate that is not a number or not finite is `none`. The text of a line is a record.
-/

namespace Verif.Model.Groupings
open Verif.Py Verif.Model.Match Verif.Model.MatchPositioners

/-- `match2d` (lines 7-22): `m1`, `m2` and `d12` side by side; `ball` is `query_ball_tree`. -/
noncomputable def match2d {n m : ℕ} (ball : (Fin n → ℝ × ℝ) → (Fin m → ℝ × ℝ) → ℝ → Fin n → List (Fin m))
    (p : Fin n → ℝ × ℝ) (q : Fin m → ℝ × ℝ) (rad : ℝ) : List (Fin n × Fin m × ℝ) :=
  (List.finRange n).flatMap fun i => (ball p q rad i).map fun j => (i, j, dist2 (p i) (q j))

variable {F M C : ℕ}

/-- The body of the loop in `possible_assignments_dict` (lines 216-220); `none` is -1. -/
def addSpot (a : Fin F → Option (Fin M)) (d : Dict (Fin M) (Finset (Fin F))) (f : Fin F) : Dict (Fin M) (Finset (Fin F)) :=
  match a f with
  | none => d
  | some m => d.set m ((d.get? m).getD ∅ ∪ {f})

/-- `possible_assignments_dict` (lines 206-221). -/
def possible (assignment : Fin F → Option (Fin M)) (alternatives : Option (List (Fin F → Option (Fin M)))) :
    Dict (Fin M) (Finset (Fin F)) :=
  let all := match alternatives with
    | some l => assignment :: l
    | none => [assignment]
  all.foldl (fun d a => (List.finRange F).foldl (addSpot a) d) []

/-- The point printed as elbow (lines 262-280). -/
noncomputable def elbow (r1 r2 : ℝ) (spot centre : ℝ × ℝ) : Except PyErr (Option (ℝ × ℝ)) :=
  let dist := dist2 spot centre
  if r1 + r2 ≤ dist then
    if r1 + r2 = 0 then .ok none
    else .ok (some ((r1 * spot.1 + r2 * centre.1) / (r1 + r2), (r1 * spot.2 + r2 * centre.2) / (r1 + r2)))
  else if |r1 - r2| > dist then .ok (some (centre.1 + 3, centre.2 + 0))
  else if 2 * dist * r1 = 0 then
    if dist ^ 2 + r1 ^ 2 - r2 ^ 2 = 0 then .ok none else .error .assertionError
  else
    let ctheta := (dist ^ 2 + r1 ^ 2 - r2 ^ 2) / (2 * dist * r1)
    if |ctheta| > 1 then .error .assertionError
    else
      let basetheta := atan2 (spot.2 - centre.2) (spot.1 - centre.1)
      .ok (some (centre.1 + r1 * Real.cos (basetheta + Real.arccos ctheta), centre.2 + r1 * Real.sin (basetheta + Real.arccos ctheta)))

/-- The table of calibrations: `lengths` are the columns LENGTH_R1 and LENGTH_R2, if there are columns of this name. -/
structure Calib (κ : Type) (C : ℕ) where
  pos : Fin C → κ
  lengths : Option (Fin C → ℝ × ℝ)

variable {κ : Type} [LinearOrder κ]

/-- Lines 245-250. -/
noncomputable def arms (metr : Fin M → MetrRow κ) (calib : Calib κ C) : Except PyErr (Fin M → ℝ × ℝ) :=
  match keyMatch (fun i => (metr i).device) calib.pos with
  | .error e => .error e
  | .ok (mm, mc) =>
    match calib.lengths with
    | none => .error .keyError
    | some v => .ok ((mm.zip mc).foldl (fun a ij => Function.update a ij.1 (v ij.2)) fun _ => (0, 0))

/-- The same with the test of line 244. -/
noncomputable def tableArms (metr : Fin M → MetrRow κ) (calib : Option (Calib κ C)) : Except PyErr (Option (Fin M → ℝ × ℝ)) :=
  match calib with
  | none => .ok none
  | some c => (arms metr c).map some

/-- A printed line: the positioner and the spot it is about, and its words. -/
structure Line (κ : Type) (F M : ℕ) where
  positioner : Fin M
  spot : Fin F
  device : κ
  xy : ℝ × ℝ
  elbow : Option (Option (ℝ × ℝ))
  number : ℕ

/-- One line (lines 258-283). -/
noncomputable def line (fvc : Fin F → FvcRow) (metr : Fin M → MetrRow κ) (arm : Option (Fin M → ℝ × ℝ)) (m : Fin M) (number : ℕ) (f : Fin F) :
    Except PyErr (Line κ F M) :=
  match arm with
  | none => .ok ⟨m, f, (metr m).device, (fvc f).xy, none, number⟩
  | some a =>
    match elbow (a m).1 (a m).2 (fvc f).xy (metr m).xy with
    | .error e => .error e
    | .ok p => .ok ⟨m, f, (metr m).device, (fvc f).xy, some p, number⟩

/-- `print_groupings` (lines 239-283) without the header. -/
noncomputable def printGroupings (sortNames : (Fin M → κ) → List (Fin M) → List (Fin M)) (visit : Finset (Fin F) → List (Fin F))
    (fvc : Fin F → FvcRow) (metr : Fin M → MetrRow κ) (assignment : Fin F → Option (Fin M))
    (alternatives : Option (List (Fin F → Option (Fin M)))) (calib : Option (Calib κ C)) : Except PyErr (List (Line κ F M)) := do
  let p := possible assignment alternatives
  let arm ← tableArms metr calib
  let ls ← (sortNames (fun m => (metr m).device) p.keys).mapM fun m =>
    let spots := visit ((p.get? m).getD ∅)
    spots.mapM (line fvc metr arm m spots.length)
  return ls.flatten

/-- bin/desi_print_ambigous_groups:36-43: the spots that are kept with `--petal`. -/
noncomputable def petalSpots {n : ℕ} (ball : (Fin F → ℝ × ℝ) → (Fin n → ℝ × ℝ) → ℝ → Fin F → List (Fin n))
    (fvc : Fin F → FvcRow) (centres : Fin n → ℝ × ℝ) (maxlen : ℝ) : List (Fin F) :=
  (List.finRange F).filter fun f => f ∈ (match2d ball (fun f => (fvc f).xy) centres maxlen).map Prod.fst

end Verif.Model.Groupings
