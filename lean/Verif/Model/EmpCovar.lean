import Verif.Py.Real

/-!
# py/desimeter/turbulence.py lines 608-630: `empirical_covariance`

Columns `x`, `y`, `dx`, `dy` of `data` only. `np.searchsorted` is given for increasing `edges` (its result for other
arrays is not documented). NaN is not modelled.
-/

namespace Verif.Model.EmpCovar
open Verif.Py

/-- Row of `data`. -/
structure Datum where
  x : ℝ
  y : ℝ
  dx : ℝ
  dy : ℝ

/-- All pairs of rows in the order of the flattened square arrays (lines 610-618). -/
def pairs (data : List Datum) : List (Datum × Datum) := data.flatMap fun a => data.map fun b => (a, b)

/-- `pdist` of a pair (lines 610-611). -/
noncomputable def pdist (p : Datum × Datum) : ℝ := Real.sqrt ((p.2.x - p.1.x) ^ 2 + (p.2.y - p.1.y) ^ 2)

/-- `np.min` (line 622). -/
noncomputable def npMin : List ℝ → Except PyErr ℝ
  | [] => .error .valueError
  | a :: l => .ok (l.foldl min a)

/-- `np.max` (line 622). -/
noncomputable def npMax : List ℝ → Except PyErr ℝ
  | [] => .error .valueError
  | a :: l => .ok (l.foldl max a)

/-- `np.linspace(a, b, n + 1)` (line 622). -/
noncomputable def linspace (a b : ℝ) (n : ℕ) : List ℝ := (List.range (n + 1)).map fun (k : ℕ) => a + k * ((b - a) / n)

open Classical in
/-- `np.searchsorted(edges, v, side='right')` for increasing edges (line 623). -/
noncomputable def searchRight (edges : List ℝ) (v : ℝ) : ℕ := (edges.filter fun e => decide (e ≤ v)).length

/-- `np.bincount(ind, weights=w, minlength=n)` (lines 625-628). -/
noncomputable def bincount (l : List (ℕ × ℝ)) (n : ℕ) : List ℝ :=
  (List.range (max n (l.foldr (fun p m => max (p.1 + 1) m) 0))).map fun (k : ℕ) =>
    ((l.filter fun p => decide (p.1 = k)).map Prod.snd).sum

/-- Number of the bin of a pair and its weight; pairs below the first edge (`ind < 0`) are left out (lines 623-624). -/
noncomputable def binned (edges : List ℝ) (w : Datum × Datum → ℝ) (ps : List (Datum × Datum)) : List (ℕ × ℝ) :=
  ps.filterMap fun p => match searchRight edges (pdist p) with
    | 0 => none
    | k + 1 => some (k, w p)

/-- `ncount` (lines 625-626). -/
noncomputable def counts (edges : List ℝ) (ps : List (Datum × Datum)) (n : ℕ) : List ℝ :=
  (bincount (binned edges (fun _ => 1) ps) n).map fun c => c + if c = 0 then 1 else 0

/-- Middles of the bins (line 629). -/
noncomputable def middles (edges : List ℝ) : List ℝ := List.zipWith (fun a b => (a + b) / 2) edges.dropLast edges.tail

/-- Lines 623-629; `bins = len(edges) - 1` in both cases, and a negative `minlength` is a `ValueError`. -/
noncomputable def finish (ps : List (Datum × Datum)) (edges : List ℝ) : Except PyErr (List ℝ × List ℝ × List ℝ) :=
  if edges.length = 0 then .error .valueError
  else
    let bins := edges.length - 1
    let n := counts edges ps bins
    .ok (middles edges,
      List.zipWith (· / ·) (bincount (binned edges (fun p => p.2.dx * p.1.dx) ps) bins) n,
      List.zipWith (· / ·) (bincount (binned edges (fun p => p.2.dy * p.1.dy) ps) bins) n)

/-- `empirical_covariance` (lines 608-629). -/
noncomputable def empiricalCovariance (data : List Datum) (bins : ℤ := 10) (edges : Option (List ℝ) := none) :
    Except PyErr (List ℝ × List ℝ × List ℝ) :=
  let ps := pairs data
  match edges with
  | some e => finish ps e
  | none => do
      let lo ← npMin (ps.map pdist)
      let hi ← npMax (ps.map pdist)
      if bins < 0 then .error .valueError
      else finish ps (linspace lo (hi + 1 / 10) bins.toNat)

end Verif.Model.EmpCovar
