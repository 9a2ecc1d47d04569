import Verif.Py.Real

/-!
# py/desimeter/turbulence.py lines 20-135: correction with local polynomials

`scipy.linalg.basic.lstsq` and the neighbour search (`cKDTree.query_ball_point`) are
parameters. Arrays of fibres are functions on `Fin N`; matrices are lists of rows.
-/

namespace Verif.Model.TurbPoly
open Verif.Py

/-- The pairs `(i1, i2)` in the order of lines 31-33. -/
def exps (ndeg : ℕ) : List (ℕ × ℕ) := (List.range ndeg).flatMap fun d => (List.range (d + 2)).map fun j => (j, d + 1 - j)

/-- Line 36; natural subtraction is `i1 - 1 + (i1 == 0)`. -/
noncomputable def gx (p : ℕ × ℕ) (q : ℝ × ℝ) : ℝ := p.1 * q.1 ^ (p.1 - 1) * q.2 ^ p.2

/-- Line 37. -/
noncomputable def gy (p : ℕ × ℕ) (q : ℝ × ℝ) : ℝ := p.2 * q.1 ^ p.1 * q.2 ^ (p.2 - 1)

/-- `getpoly` (lines 24-39). -/
noncomputable def getpoly (pts : List (ℝ × ℝ)) (ndeg : ℕ) : List (List ℝ) :=
  (exps ndeg).map fun p => pts.map (gx p) ++ pts.map (gy p)

/-- `np.dot` of two vectors. -/
noncomputable def dot (a b : List ℝ) : ℝ := (List.zipWith (· * ·) a b).sum

/-- Least squares solver: number of columns, rows, right hand side. -/
abbrev Lstsq := ℕ → List (List ℝ) → List ℝ → List ℝ

/-- The design matrix: computed, or the first rows of the given one (lines 49-52). -/
noncomputable def design (pts : List (ℝ × ℝ)) (ndeg : ℕ) : Option (List (List ℝ)) → List (List ℝ)
  | none => getpoly pts ndeg
  | some q => q.take ((ndeg + 1) * (ndeg + 2) / 2 - 1)

/-- `predictor` (lines 42-69): predictions in x and y, cross-validation norm, design matrix. -/
noncomputable def predictor (lst : Lstsq) (pts d : List (ℝ × ℝ)) (tofit : List Bool) (ndeg : ℕ) (given : Option (List (List ℝ))) :
    Except PyErr (ℝ × ℝ × ℝ × List (List ℝ)) :=
  let polys := design pts ndeg given
  let dxy := d.map (·.1) ++ d.map (·.2)
  let tofit2 := tofit ++ tofit
  let cols := List.range (2 * pts.length)
  let col := fun j => polys.map (·.getD j 0)
  let fit := fun sub : List ℕ => lst polys.length (sub.map col) (sub.map (dxy.getD · 0))
  let norm := ((List.range 3).map fun i =>
    let c := fit (cols.filter fun j => tofit2.getD j false && j % 3 != i)
    ((cols.filter fun j => tofit2.getD j false && j % 3 == i).map fun j => (dot (col j) c - dxy.getD j 0) ^ 2).sum).sum
  let c := fit (cols.filter fun j => tofit2.getD j false)
  match (cols.filter fun j => !tofit2.getD j false).map fun j => dot (col j) c with
  | [a, b] => .ok (a, b, norm, polys)
  | _ => .error .valueError                                       -- line 68, unpacking

/-- The loop over degrees (lines 118-128), with `bestnorm` and `lastx, lasty`. -/
noncomputable def tryDegrees (lst : Lstsq) (pts d : List (ℝ × ℝ)) (tofit : List Bool) :
    List ℕ → ℝ → Option (ℝ × ℝ) → Option (List (List ℝ)) → Except PyErr (Option (ℝ × ℝ))
  | [], _, last, _ => .ok last
  | n :: rest, best, last, polys => do
    let r ← predictor lst pts d tofit n polys
    if r.2.2.1 < best then tryDegrees lst pts d tofit rest r.2.2.1 (some (r.1, r.2.1)) (some r.2.2.2)
    else tryDegrees lst pts d tofit rest best last (some r.2.2.2)

/-- One pass of the loop over fibres (lines 103-128): `lastx, lasty` afterwards. -/
noncomputable def step (lst : Lstsq) {N : ℕ} (ball : Fin N → List (Fin N)) (m e : Fin N → ℝ × ℝ) (last : Option (ℝ × ℝ)) (i : Fin N) :
    Except PyErr (Option (ℝ × ℝ)) :=
  let xids := ball i
  if xids = [] then .error .indexError                            -- `x[np.array([])]`, line 109
  else
    let pts := xids.map fun j => ((m j).1 - (m i).1, (m j).2 - (m i).2)
    let d := xids.map fun j => ((m j).1 - (e j).1, (m j).2 - (e j).2)
    tryDegrees lst pts d (xids.map fun j => decide (j ≠ i)) [4, 3, 2, 1] 1e9 last none

/-- The loop over fibres (lines 101-131). A name used before it is set is an `UnboundLocalError`. -/
noncomputable def fibres (lst : Lstsq) {N : ℕ} (ball : Fin N → List (Fin N)) (m e : Fin N → ℝ × ℝ) :
    List (Fin N) → Option (ℝ × ℝ) → Except PyErr (List (ℝ × ℝ))
  | [], _ => .ok []
  | i :: rest, last => do
    match ← step lst ball m e last i with
    | none => .error .nameError
    | some p => return p :: (← fibres lst ball m e rest (some p))

/-- `correct_with_pol` (lines 72-132): measured positions `m`, expected ones `e`. `ball i` is
`T0.query_ball_point(X[i], win)`. -/
noncomputable def correctWithPol (lst : Lstsq) {N : ℕ} (ball : Fin N → List (Fin N)) (m e : Fin N → ℝ × ℝ) :
    Except PyErr (List (ℝ × ℝ)) := do
  let p ← fibres lst ball m e (List.finRange N) none
  return List.zipWith (fun i q => ((m i).1 - q.1, (m i).2 - q.2)) (List.finRange N) p

end Verif.Model.TurbPoly
