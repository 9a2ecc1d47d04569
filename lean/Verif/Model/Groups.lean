import Verif.Py.Real

/-!
# bin/select_groups_of_positioners

The KD tree query is a parameter: for each positioner the list of its (at most) seven nearest
positioners, itself included.
-/

namespace Verif.Model.Groups
open Verif.Py

variable {n : ℕ}

/-- bin/select_groups_of_positioners:33. -/
noncomputable def listed (d : Fin n → Fin n → ℝ) (query : Fin n → List (Fin n)) (i : Fin n) : List (Fin n) :=
  (query i).filter fun j => 0 < d i j ∧ d i j < 12

/-- bin/select_groups_of_positioners:25-35: one group.  State: the group (line 32) and
`running_list_of_neighbors`. -/
def passStep (nbrs : Fin n → List (Fin n)) (all : List (Fin n)) (s : List (Fin n) × List (Fin n)) (i : Fin n) :
    List (Fin n) × List (Fin n) :=
  if i ∈ s.2 then s else if i ∈ all then s else (s.1 ++ [i], s.2 ++ nbrs i)

def pass (nbrs : Fin n → List (Fin n)) (all : List (Fin n)) : List (Fin n) :=
  ((List.finRange n).foldl (passStep nbrs all) ([], [])).1

/-- bin/select_groups_of_positioners:20-38: `k` groups (4 in the script). -/
def groups (nbrs : Fin n → List (Fin n)) : ℕ → List (List (Fin n))
  | 0 => []
  | k + 1 => groups nbrs k ++ [pass nbrs (groups nbrs k).flatten]

end Verif.Model.Groups
