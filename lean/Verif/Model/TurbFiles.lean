import Verif.Model.Turbulence
import Verif.Model.Match

/-!
# py/desimeter/turbulence.py: data from files, central fibres, loss functions

Lines 166-195 and 231-259 (loss functions), 262-286 (`make_data`), 289-321 (`solve_covar`), 324-365 (`solve_files`). Reading
of the tables is not modelled. NaN is `none`.
-/

namespace Verif.Model.TurbFiles
open Verif.Py Matrix
open Verif.Model.Turbulence Verif.Model.Match

/-- Row of a table: LOCATION, X_FP, Y_FP. -/
structure Row where
  loc : ℤ
  x : ℝ
  y : ℝ

/-- Row of `data`. -/
structure Entry where
  loc : ℤ
  x : ℝ
  y : ℝ
  dx : ℝ
  dy : ℝ

/-- `make_data` (lines 262-286). -/
def makeData {n m : ℕ} (expect : Fin n → Row) (measure : Fin m → Row) : Except PyErr (List Entry) := do
  let k ← keyMatch (fun i => (expect i).loc) (fun j => (measure j).loc)
  return List.zipWith (fun i j => ⟨(expect i).loc, (expect i).x, (expect i).y, (measure j).x - (expect i).x, (measure j).y - (expect i).y⟩) k.1 k.2

/-- Row of the result: the measured row with XNEW, YNEW, DXTURB, DYTURB. -/
structure OutRow where
  row : Row
  new : Option (ℝ × ℝ)
  turb : Option (ℝ × ℝ)

/-- `mode` (line 325). -/
inductive TMode | independent | gradwavefront | other

/-- The new columns (lines 353-364): the contributions `t` of the entries of `data`, by location. -/
def newColumns {m : ℕ} (data : List Entry) (t : List ℝ × List ℝ) (measure : Fin m → Row) : Except PyErr (Fin m → OutRow) := do
  let k ← keyMatch (fun i => (data.get i).loc) (fun j => (measure j).loc)
  if k.1.any fun (i : Fin data.length) => decide (t.1.length ≤ i) || decide (t.2.length ≤ i) then .error .indexError
  else
    return (List.zip k.1 k.2).foldl (fun out ij => Function.update out ij.2
      ⟨measure ij.2, some ((measure ij.2).x - t.1.getD ij.1 0, (measure ij.2).y - t.2.getD ij.1 0), some (t.1.getD ij.1 0, t.2.getD ij.1 0)⟩)
      (fun j => ⟨measure j, none, none⟩)

/-- Choice of the solver (lines 346-351). -/
def runMode (solve : Bool → List Entry → Except PyErr (List ℝ × List ℝ)) (mode : TMode) (data : List Entry) :
    Except PyErr (List ℝ × List ℝ) :=
  match mode with
  | .independent => solve false data
  | .gradwavefront => solve true data
  | .other => .error .valueError

/-- `solve_files` (lines 324-365) after reading; `solve` is `solve_independent` or `solve_gradwavefront` with the
given keywords (x and y contributions; an entry missing there is an `IndexError`). -/
def solveFiles {n m : ℕ} (solve : Bool → List Entry → Except PyErr (List ℝ × List ℝ)) (mode : TMode) (expect : Fin n → Row)
    (measure : Fin m → Row) : Except PyErr (Fin m → OutRow) := do
  let data ← makeData expect measure
  let t ← runMode solve mode data
  newColumns data t measure

/-- The fibres used to find the covariance (lines 306-311). -/
def central (argsort : List ℝ → List ℕ) (data : List Entry) (nuse : ℤ) : List Entry :=
  if nuse > 0 then ((argsort (data.map fun d => d.x ^ 2 + d.y ^ 2)).take nuse.toNat).filterMap (data[·]?) else data

open Classical in
/-- `loss_gradwavefront` (lines 166-187); `chol` is the Cholesky factor. -/
noncomputable def lossGrad {n : ℕ} (chol : Matrix (Fin n ⊕ Fin n) (Fin n ⊕ Fin n) ℝ → Matrix (Fin n ⊕ Fin n) (Fin n ⊕ Fin n) ℝ)
    (data : Data n) (p : Param) : Except PyErr ℝ :=
  if p.alpha.isSome then .error .valueError
  else
    let covar := covGrad p data.pos
    if covar.PosDef then
      let dvec : Fin n ⊕ Fin n → ℝ := Sum.elim data.dx data.dy
      .ok (0.5 * (dvec ⬝ᵥ (covar⁻¹ *ᵥ dvec) + 2 * ∑ i, Real.log (chol covar i i)))
    else .error .linAlgError

open Classical in
/-- `loss_independent` (lines 231-259). -/
noncomputable def lossIndependent {n : ℕ} (chol : Matrix (Fin n) (Fin n) ℝ → Matrix (Fin n) (Fin n) ℝ) (data : Data n) (p : Param) :
    Except PyErr ℝ :=
  let covar := covIndependent p data.pos
  if covar.PosDef then
    .ok (0.5 * (data.dx ⬝ᵥ (covar⁻¹ *ᵥ data.dx) + data.dy ⬝ᵥ (covar⁻¹ *ᵥ data.dy) + 2 * 2 * ∑ i, Real.log (chol covar i i)))
  else .error .linAlgError

end Verif.Model.TurbFiles
