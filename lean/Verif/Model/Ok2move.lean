import Verif.Py.Real

/-!
# bin/ok2move

`argsort` is any permutation that puts the distances in increasing order (given per spot).
-/

namespace Verif.Model.Ok2move
open Verif.Py

variable {n : ℕ}

/-- bin/ok2move:35-37: distance from spot `i`. -/
noncomputable def dist (x y : Fin n → ℝ) (i l : Fin n) : ℝ := hypot (x l - x i) (y l - y i)

/-- bin/ok2move:42-45: the opening angle in degrees; `none` is NaN (a neighbour at distance 0). -/
noncomputable def angle (x y : Fin n → ℝ) (i j k : Fin n) : Option ℝ :=
  let den := dist x y i j * dist x y i k
  if den = 0 then none
  else some (degrees (Real.arccos (((x j - x i) * (x k - x i) + (y j - y i) * (y k - y i)) / den)))

/-- bin/ok2move:16-47 and 66 for one spot. -/
noncomputable def okOne (x y : Fin n → ℝ) (sort : Fin n → List (Fin n)) (tooclose maxangle : ℝ) (i : Fin n) : Except PyErr Bool :=
  match (sort i).drop 1 |>.take 2 with
  | [j, k] =>
    let close := ([j, k].filter fun l => dist x y i l < tooclose).length
    let small := match angle x y i j k with
      | some a => decide (a < maxangle)
      | none => false
    .ok (decide (close < 2) || small)
  | _ => .error .valueError

/-- bin/ok2move:49-67, `ok2move(spots)` with the default limits. -/
noncomputable def ok2move (x y : Fin n → ℝ) (sort : Fin n → List (Fin n)) : Except PyErr (List Bool) :=
  (List.finRange n).mapM (okOne x y sort 3.5 90)

/-- bin/ok2move:156-160: the groups written (empty ones are skipped); `g` is `args.groupsize`
(negative sizes are not modelled). -/
def textGroups {α : Type} (ids : List α) (g : ℕ) : Except PyErr (List (List α)) :=
  if g = 0 then .error .zeroDivision
  else .ok (((List.range (ids.length / g + 1)).map fun i => (ids.drop (i * g)).take g).filter fun l => 0 < l.length)

/-- bin/ok2move:174-177: the groups of the html pages. -/
def htmlGroups {α : Type} (ids : List α) (g : ℕ) : Except PyErr (List (List α)) :=
  if g = 0 then .error .zeroDivision
  else .ok ((List.range (ids.length / g)).map fun i => (ids.drop (i * g)).take g)

end Verif.Model.Ok2move
