import Verif.Model.Match

/-!
# `compute_triangles_with_arbitrary_orientation` of py/desimeter/match.py (lines 11-58)

A list of points is a function of the index; the triangles are those of `triples` in Model/Match. `np.argsort` of three numbers is
a parameter: the order of equal numbers is not specified. A triangle with two vertices at the same place gives NaN in the code (here
quotients by 0 are 0).
-/

namespace Verif.Model.Triangles
open Verif.Py

/-- Square of a distance. -/
def dist2 (p q : ℝ × ℝ) : ℝ := (q.1 - p.1) ^ 2 + (q.2 - p.2) ^ 2

/-- `tl2` (line 34). -/
def tl2 (P : Fin 3 → ℝ × ℝ) : Fin 3 → ℝ := ![dist2 (P 0) (P 1), dist2 (P 1) (P 2), dist2 (P 2) (P 0)]

/-- `pairs` (line 35). -/
def pairs : Fin 3 → List (Fin 3) := ![[0, 1], [1, 2], [0, 2]]

/-- `np.intersect1d(pairs[a], pairs[b])` assigned to one element (lines 38-40). -/
def common (a b : Fin 3) : Except PyErr (Fin 3) :=
  match (pairs a).filter fun v => v ∈ pairs b with
  | [v] => .ok v
  | _ => .error .valueError

/-- `ordering` (lines 37-40). -/
def ordering (ii : Fin 3 → Fin 3) : Except PyErr (Fin 3 × Fin 3 × Fin 3) := do
  let a ← common (ii 0) (ii 2)
  let b ← common (ii 0) (ii 1)
  let c ← common (ii 1) (ii 2)
  return (a, b, c)

/-- `r`, `c`, `s` (lines 46-51). -/
noncomputable def shape3 (a b c : ℝ × ℝ) : ℝ × ℝ × ℝ :=
  let l01 := dist2 a b
  let l12 := dist2 b c
  let l20 := dist2 c a
  (Real.sqrt (max (max l01 l12) l20 / min (min l01 l12) l20),
   ((b.1 - a.1) * (c.1 - a.1) + (b.2 - a.2) * (c.2 - a.2)) / Real.sqrt (dist2 a b * dist2 a c),
   ((b.1 - a.1) * (c.2 - a.2) - (c.1 - a.1) * (b.2 - a.2)) / Real.sqrt (dist2 a b * dist2 a c))

/-- Lines 26-57 for one triangle: the vertices in their new order and the shape. -/
noncomputable def triangle {n : ℕ} (argsort : (Fin 3 → ℝ) → Fin 3 → Fin 3) (xy : Fin n → ℝ × ℝ) (t : Fin n × Fin n × Fin n) :
    Except PyErr ((Fin n × Fin n × Fin n) × (ℝ × ℝ × ℝ)) := do
  let ijk : Fin 3 → Fin n := ![t.1, t.2.1, t.2.2]
  let o ← ordering (argsort (tl2 fun v => xy (ijk v)))
  return ((ijk o.1, ijk o.2.1, ijk o.2.2), shape3 (xy (ijk o.1)) (xy (ijk o.2.1)) (xy (ijk o.2.2)))

/-- Lines 22-58. -/
noncomputable def triangles {n : ℕ} (argsort : (Fin 3 → ℝ) → Fin 3 → Fin 3) (xy : Fin n → ℝ × ℝ) :
    Except PyErr (List ((Fin n × Fin n × Fin n) × (ℝ × ℝ × ℝ))) :=
  (Match.triples (List.finRange n)).mapM (triangle argsort xy)

end Verif.Model.Triangles
