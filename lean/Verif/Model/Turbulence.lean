import Verif.Py.LinAlg
import Verif.Model.MatchPositioners
import Mathlib.LinearAlgebra.Matrix.PosDef
import Mathlib.Analysis.SpecialFunctions.Exp
import Mathlib.Analysis.SpecialFunctions.Pow.Real

/-!
# Model of the Gaussian process part of `py/desimeter/turbulence.py`

One data row per fibre: `Fin n` with measured position and offset.  The optimiser of
`solve_covar` is a parameter (its result, the covariance parameters, is an argument here).
`np.linalg.inv`/`solve` raise `LinAlgError` for singular matrices,
`scipy.linalg.cho_factor` for matrices that are not positive definite.  A length scale of zero
gives NaN in the code.  Matrices in single precision (`dtype='f4'`) are exact here.
-/

namespace Verif.Model.Turbulence
open Verif.Py Matrix
open Verif.Model.MatchPositioners (median)

/-- `data` (e.g. lines 463-469): measured positions and offsets. -/
structure Data (n : ℕ) where
  pos : Fin n → ℝ × ℝ
  dx : Fin n → ℝ
  dy : Fin n → ℝ

/-- `param`: noise, amplitude, length scale, and the fourth parameter if `rq`. -/
structure Param where
  sigma : ℝ
  aa : ℝ
  ll : ℝ
  alpha : Option ℝ

/-- One entry of `make_covar_independent_nonoise` (lines 203-215): row position `b`, column
position `a`. -/
noncomputable def kern (p : Param) (b a : ℝ × ℝ) : ℝ :=
  let dist2 := ((a.1 - b.1) ^ 2 + (a.2 - b.2) ^ 2) / p.ll ^ 2
  match p.alpha with
  | none => p.aa ^ 2 * Real.exp (-dist2 / 2)
  | some alpha =>
    let alpha := min (max alpha 0.1) 1000
    p.aa ^ 2 * (1 + dist2 / (2 * alpha)) ^ (-alpha)

/-- `make_covar_independent_nonoise` (lines 203-215). -/
noncomputable def covNoNoise {n m : ℕ} (p : Param) (at1 : Fin n → ℝ × ℝ) (at2 : Fin m → ℝ × ℝ) :
    Matrix (Fin m) (Fin n) ℝ :=
  Matrix.of fun j i => kern p (at2 j) (at1 i)

/-- `make_covar_independent` (lines 218-234). -/
noncomputable def covIndependent {n : ℕ} (p : Param) (pos : Fin n → ℝ × ℝ) : Matrix (Fin n) (Fin n) ℝ :=
  covNoNoise p pos pos + (p.sigma ^ 2) • (1 : Matrix (Fin n) (Fin n) ℝ)

/-- `make_covar_gradwavefront_nonoise` (lines 145-159), `rq=False`; rows and columns are first
all x components (`inl`), then all y components (`inr`). -/
noncomputable def gradNoNoise {n m : ℕ} (p : Param) (at1 : Fin n → ℝ × ℝ) (at2 : Fin m → ℝ × ℝ) :
    Matrix (Fin m ⊕ Fin m) (Fin n ⊕ Fin n) ℝ :=
  let xd := fun j i => ((at1 i).1 - (at2 j).1) / p.ll
  let yd := fun j i => ((at1 i).2 - (at2 j).2) / p.ll
  let gauss := fun j i => p.aa ^ 2 * Real.exp (-(xd j i ^ 2 + yd j i ^ 2) / 2)
  Matrix.of fun r c => match r, c with
    | .inl j, .inl i => (1 - xd j i * xd j i) * gauss j i
    | .inr j, .inl i => -xd j i * yd j i * gauss j i
    | .inl j, .inr i => -xd j i * yd j i * gauss j i
    | .inr j, .inr i => (1 - yd j i * yd j i) * gauss j i

/-- `make_covar_gradwavefront` (lines 162-177). -/
noncomputable def covGrad {n : ℕ} (p : Param) (pos : Fin n → ℝ × ℝ) :
    Matrix (Fin n ⊕ Fin n) (Fin n ⊕ Fin n) ℝ :=
  gradNoNoise p pos pos + (p.sigma ^ 2) • (1 : Matrix (Fin n ⊕ Fin n) (Fin n ⊕ Fin n) ℝ)

section solve
variable {ι κ : Type} [Fintype ι] [DecidableEq ι]
open Classical

/-- The branch `excludeself` (lines 534-538 and 600-604): `d - Kinv d / diag(Kinv)`. -/
noncomputable def gpExclude (covar : Matrix ι ι ℝ) (d : ι → ℝ) : Except PyErr (ι → ℝ) :=
  if covar.det = 0 then .error .linAlgError
  else
    let kinv := covar⁻¹
    if ∃ i, kinv i i = 0 then .error .nanResult
    else .ok fun i => d i - (kinv *ᵥ d) i / kinv i i

/-- The branch without `predict_at` (lines 525-533 and 591-599). -/
noncomputable def gpDirect (covar : Matrix ι ι ℝ) (sigma : ℝ) (d : ι → ℝ) : Except PyErr (ι → ℝ) :=
  if sigma = 0 then .error .nanResult
  else
    let cninv := (sigma ^ 2)⁻¹ • (1 : Matrix ι ι ℝ)
    let covar := covar - (sigma ^ 2) • (1 : Matrix ι ι ℝ)
    let cpcninv := covar * cninv
    let aa := cpcninv + 1
    if aa.det = 0 then .error .linAlgError
    else .ok (aa⁻¹ *ᵥ (cpcninv *ᵥ d))

/-- The branch with `predict_at` (lines 514-524 and 581-590). -/
noncomputable def gpPredict (covar : Matrix ι ι ℝ) (covarpred : Matrix κ ι ℝ) (d : ι → ℝ) :
    Except PyErr (κ → ℝ) :=
  if covar.PosDef then .ok (covarpred *ᵥ (covar⁻¹ *ᵥ d)) else .error .linAlgError

end solve

/-- `solve_independent` (lines 475-539) with the covariance parameters `p` already found. -/
noncomputable def solveIndependent {n : ℕ} (data : Data n) (excludeself : Bool)
    (predictAt : Option (List (ℝ × ℝ))) (p : Param) : Except PyErr (List ℝ × List ℝ) :=
  if predictAt.isSome && excludeself then .error .valueError
  else if p.ll = 0 then .error .nanResult
  else
    let covar := covIndependent p data.pos
    if !excludeself then
      match predictAt with
      | some pts => do
        let covarpred := covNoNoise p data.pos pts.get
        let x ← gpPredict covar covarpred data.dx
        let y ← gpPredict covar covarpred data.dy
        return (List.ofFn x, List.ofFn y)
      | none => do
        let x ← gpDirect covar p.sigma data.dx
        let y ← gpDirect covar p.sigma data.dy
        return (List.ofFn x, List.ofFn y)
    else do
      let x ← gpExclude covar data.dx
      let y ← gpExclude covar data.dy
      return (List.ofFn x, List.ofFn y)

/-- `solve_gradwavefront` (lines 542-605) with the covariance parameters already found. -/
noncomputable def solveGradwavefront {n : ℕ} (data : Data n) (excludeself : Bool)
    (predictAt : Option (List (ℝ × ℝ))) (p : Param) : Except PyErr (List ℝ × List ℝ) :=
  if predictAt.isSome && excludeself then .error .valueError
  else if p.alpha.isSome then .error .valueError
  else if p.ll = 0 then .error .nanResult
  else
    let covar := covGrad p data.pos
    let dvec : Fin n ⊕ Fin n → ℝ := Sum.elim data.dx data.dy
    if !excludeself then
      match predictAt with
      | some pts => do
        let t ← gpPredict covar (gradNoNoise p data.pos pts.get) dvec
        return (List.ofFn fun j => t (.inl j), List.ofFn fun j => t (.inr j))
      | none => do
        let t ← gpDirect covar p.sigma dvec
        return (List.ofFn fun j => t (.inl j), List.ofFn fun j => t (.inr j))
    else do
      let t ← gpExclude covar dvec
      return (List.ofFn fun j => t (.inl j), List.ofFn fun j => t (.inr j))

/-- The parameters with `fix_covar=True` of `solve_independent` (lines 500-507, without `rq`). -/
noncomputable def fixedParam (scale : ℝ) : Param := ⟨5e-3 * scale, 5e-3 * scale, 50 * scale, none⟩

/-- `correct` (lines 433-472); `opt` is the outcome of the parameter fit of `solve_covar`
(lines 289-321). -/
noncomputable def correct {n : ℕ} (opt : Data n → Param) (xy xy0 : Fin n → ℝ × ℝ) :
    Except PyErr (List ℝ × List ℝ) := do
  let data : Data n := ⟨xy, fun i => (xy i).1 - (xy0 i).1, fun i => (xy i).2 - (xy0 i).2⟩
  let t ← solveIndependent data true none (opt data)
  return (List.zipWith (· - ·) (List.ofFn fun i => (xy i).1) t.1,
          List.zipWith (· - ·) (List.ofFn fun i => (xy i).2) t.2)

/-! ## `correct_using_stationary` -/

/-- One stationary fibre: measured and expected position. -/
structure Stat where
  xy : ℝ × ℝ
  xy0 : ℝ × ℝ

noncomputable def Stat.dx (s : Stat) : ℝ := s.xy.1 - s.xy0.1
noncomputable def Stat.dy (s : Stat) : ℝ := s.xy.2 - s.xy0.2

/-- The structured array made of a list of fibres (lines 388-395). -/
noncomputable def toData (l : List Stat) : Data l.length :=
  ⟨fun i => (l.get i).xy, fun i => (l.get i).dx, fun i => (l.get i).dy⟩

/-- `astropy.stats.mad_std`. -/
noncomputable def madStd (l : List ℝ) : ℝ := 1.482602218505602 * median (l.map fun v => |v - median l|)

/-- `(c > med - 5*sd) & (c < med + 5*sd)` for one element (lines 403-405). -/
noncomputable def within5 (c : List ℝ) (v : ℝ) : Bool :=
  decide (median c - 5 * madStd c < v ∧ v < median c + 5 * madStd c)

/-- numpy boolean indexing `a[mask]`: the lengths must agree. -/
def maskIdx {α : Type} (a : List α) (mask : List Bool) : Except PyErr (List α) :=
  if a.length = mask.length then .ok ((a.zip mask).filterMap fun q => if q.2 then some q.1 else none)
  else .error .indexError

/-- In-place `a &= b` on boolean arrays: `b` is repeated if it has length 1, otherwise the
lengths must agree. -/
def andInto (a b : List Bool) : Except PyErr (List Bool) :=
  if a.length = b.length then .ok (List.zipWith (· && ·) a b)
  else match b with
    | [v] => .ok (a.map (· && v))
    | _ => .error .valueError

/-- `mask[mask] &= t`: the elements of `t` replace the true elements of `mask`, in order. -/
def refine : List Bool → List Bool → List Bool
  | [], _ => []
  | false :: m, t => false :: refine m t
  | true :: m, v :: t => v :: refine m t
  | true :: m, [] => true :: refine m []

/-- The part of the `clip_resid > 0` branch up to the second selection (lines 400-408): data
and mask after removing outliers.  `np.median` of an empty array is NaN, comparisons with it
are false. -/
noncomputable def clipFirst (data : List Stat) (mask : List Bool) : Except PyErr (List Stat × List Bool) := do
  let cx := data.map Stat.dx
  let cy := data.map Stat.dy
  let t ← andInto mask (cx.map (within5 cx))
  let t ← andInto t (cy.map (within5 cy))
  if t.any id then
    let d ← maskIdx data t
    let m ← andInto mask t
    return (d, m)
  else return (data, mask)

/-- The branch `clip_resid > 0` (lines 400-421). -/
noncomputable def clipBoth (data : List Stat) (mask : List Bool) (scale : ℝ) :
    Except PyErr (List Stat × List Bool) := do
  let dm ← clipFirst data mask
  let turb ← solveIndependent (toData dm.1) false none (fixedParam scale)
  let offset := List.zipWith (fun s (t : ℝ × ℝ) => hypot (s.dx - t.1) (s.dy - t.2)) dm.1
    (turb.1.zip turb.2)
  let t := offset.map fun v => decide (v < 0.01)
  let data ← maskIdx dm.1 t
  return (data, refine dm.2 t)

/-- `correct_using_stationary` (lines 363-430).  A fibre with a NaN or infinite entry is
`none`; `pts` are the positions to correct.  Returns the turbulent offsets and the mask. -/
noncomputable def correctUsingStationary (fibres : List (Option Stat)) (pts : List (ℝ × ℝ)) (scale clip : ℝ) :
    Except PyErr ((List ℝ × List ℝ) × List Bool) := do
  let mask := fibres.map Option.isSome
  let data := fibres.filterMap id
  let dm ← if clip > 0 then clipBoth data mask scale else pure (data, mask)
  let turb ← solveIndependent (toData dm.1) false (some pts) (fixedParam scale)
  return (turb, dm.2)

end Verif.Model.Turbulence
