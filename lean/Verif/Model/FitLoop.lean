import Verif.Py.Str
import Verif.Model.Fitter
import Verif.Model.Pos2ptl
import Verif.Model.MatchPositioners
import Verif.Py.Argmax


/-!
# py/desimeter/posparams/fitter.py: the fit inside `fit_params`

Lines 201-317 and 345-397: preparation of the data in dynamic mode, the expected positions, chi2, the loop which discards outliers, the
rms. Positions are in flat coordinates (`ptl2flat`, lines 187-196, is applied before).
The optimiser is a parameter that maps the function to be minimised to the values of the free
parameters (start values and bounds are inside it). Values of parameters are functions of the
name; the vector ordering is in `Model/Fitter`.
-/

namespace Verif.Model.FitLoop
open Verif.Py Verif.Model.Xy2tp Verif.Model.Fitter
open Verif.Model.MatchPositioners (median)

/-- Values of the parameters, by name. -/
abbrev Vals := PyStr → ℝ

def kR1 : PyStr := "LENGTH_R1".toList
def kR2 : PyStr := "LENGTH_R2".toList
def kOT : PyStr := "OFFSET_T".toList
def kOP : PyStr := "OFFSET_P".toList
def kOX : PyStr := "OFFSET_X".toList
def kOY : PyStr := "OFFSET_Y".toList
def kST : PyStr := "SCALE_T".toList
def kSP : PyStr := "SCALE_P".toList

/-- `"EPSILON_T_{}".format(s)` (lines 204, 226, 277). -/
def epsT (s : ℕ) : PyStr := "EPSILON_T_".toList ++ Nat.toDigits 10 s

/-- `"EPSILON_P_{}".format(s)`. -/
def epsP (s : ℕ) : PyStr := "EPSILON_P_".toList ++ Nat.toDigits 10 s

/-- One measurement: row of the input lists, positions in flat coordinates. -/
structure Raw where
  t : ℝ
  p : ℝ
  x : ℝ
  y : ℝ
  xerr : ℝ
  yerr : ℝ
  gearT : ℝ
  gearP : ℝ
  rehome : Bool
  seq : ℕ

/-- One point of the fit. In static mode `t`, `p` are `t_int`, `p_int`; in dynamic mode
`measured_t_int_0`, `measured_p_int_0`, and `dt`, `dp` the moves. -/
structure Pt where
  t : ℝ
  p : ℝ
  dt : ℝ
  dp : ℝ
  x : ℝ
  y : ℝ
  xerr : ℝ
  yerr : ℝ
  seq : ℕ

/-- `sequences_without_recent_rehome` (line 201), as a set. -/
def noRehome (l : List Raw) : List ℕ := ((l.filter fun r => !r.rehome).map (·.seq)).dedup

/-- Points in static mode (lines 170-173). -/
def staticPts (l : List Raw) : List Pt := l.map fun r => ⟨r.t, r.p, 0, 0, r.x, r.y, r.xerr, r.yerr, r.seq⟩

/-- `measured_t_int_0`, `measured_p_int_0` (lines 215-227); `inv` is `loc2int` with the nominal values. -/
noncomputable def measured0 (inv : ℝ × ℝ → ℝ × ℝ) (nom : Vals) (seqs : List ℕ) (r : Raw) : ℝ × ℝ :=
  let m := inv (r.x - nom kOX, r.y - nom kOY)
  if r.seq ∈ seqs then (m.1 - nom (epsT r.seq), m.2 - nom (epsP r.seq)) else m

/-- One move: measurement `a` before, `b` after (lines 230-253). -/
noncomputable def dynamicPt (inv : ℝ × ℝ → ℝ × ℝ) (nom : Vals) (seqs : List ℕ) (a b : Raw) : Pt :=
  let m := measured0 inv nom seqs a
  ⟨m.1, m.2, Pos2ptl.deltaAngle1 a.t b.t 0 / b.gearT, Pos2ptl.deltaAngle1 a.p b.p 0 / b.gearP, b.x, b.y, b.xerr, b.yerr, b.seq⟩

/-- Points in dynamic mode (lines 208-253). -/
noncomputable def dynamicPts (inv : ℝ × ℝ → ℝ × ℝ) (nom : Vals) (l : List Raw) : List Pt :=
  List.zipWith (dynamicPt inv nom (noRehome l)) l l.tail

/-- `p0` after lines 283-284. -/
def withFree (nom : Vals) (free : List PyStr) (params : Vals) : Vals := fun k => if k ∈ free then params k else nom k

/-- `compute_offset_and_delta_tp` (lines 271-279) for one point. -/
noncomputable def offsets (seqs : List ℕ) (v : Vals) (s : ℕ) : ℝ × ℝ :=
  if s ∈ seqs then (v kOT + v (epsT s), v kOP + v (epsP s)) else (v kOT, v kOP)

/-- `expected_xy` (lines 281-305) for one point. -/
noncomputable def expected (mode : Mode) (seqs : List ℕ) (v : Vals) (q : Pt) : ℝ × ℝ :=
  let tp := match mode with
    | .static => (q.t, q.p)
    | .dynamic => (q.t + q.dt * v kST, q.p + q.dp * v kSP)
  let o := offsets seqs v q.seq
  let l := tp2xy (tp.1 + o.1, tp.2 + o.2) (v kR1) (v kR2)
  (l.1 + v kOX, l.2 + v kOY)

/-- `dist` (line 351). -/
noncomputable def distance (mode : Mode) (seqs : List ℕ) (v : Vals) (q : Pt) : ℝ :=
  Real.sqrt (((expected mode seqs v q).1 - q.x) ^ 2 + ((expected mode seqs v q).2 - q.y) ^ 2)

/-- `compute_chi2` (lines 315-317). -/
noncomputable def chi2 (mode : Mode) (seqs : List ℕ) (l : List Pt) (v : Vals) : ℝ :=
  (l.map fun q => (((expected mode seqs v q).1 - q.x) / q.xerr) ^ 2 + (((expected mode seqs v q).2 - q.y) / q.yerr) ^ 2).sum

/-- `sumsq` (lines 309-312). -/
noncomputable def sumsq (mode : Mode) (seqs : List ℕ) (v : Vals) (l : List Pt) : ℝ :=
  (l.map fun q => ((expected mode seqs v q).1 - q.x) ^ 2 + ((expected mode seqs v q).2 - q.y) ^ 2).sum

/-- Parts of the problem that do not change in the loop. -/
structure Env where
  mode : Mode
  seqs : List ℕ
  nom : Vals
  free : List PyStr
  minimise : (Vals → ℝ) → Vals
  reject : Bool

/-- Line 346. -/
noncomputable def Env.best (e : Env) (l : List Pt) : Vals :=
  withFree e.nom e.free (e.minimise fun p => chi2 e.mode e.seqs l (withFree e.nom e.free p))

/-- The loop (lines 345-390) with `k` passes left. `movemask['FIT_FAILED']` (line 386) is a
`KeyError`: the mask has no such bit. `np.argmax` of an empty array is a `ValueError`. -/
noncomputable def loop (e : Env) : ℕ → Vals → List Pt → Except PyErr (Vals × List Pt)
  | 0, last, l => .ok (last, l)
  | k + 1, _, l =>
    if l.length = 0 then .error .valueError else
    let v := e.best l
    let d := l.map (distance e.mode e.seqs v)
    let worst := argmaxReal d
    if !e.reject then .ok (v, l)
    else if d.getD worst 0 < 0.2 ∨ d.getD worst 0 < 2.1 * median d then .ok (v, l)
    else
      let l' := l.eraseIdx worst
      if l'.length < e.free.length then .error .keyError else loop e k v l'

/-- What is reported: parameters, `rms_of_residuals`, number of points. -/
structure Fit where
  vals : Vals
  rms : ℝ
  npts : ℕ

/-- Lines 345-397; `n_pts` is the number of points before the loop. In dynamic mode `params[param_idx['SCALE_T']]`
(lines 290-291) needs both scales to be free. -/
noncomputable def fitLoop (e : Env) (l : List Pt) : Except PyErr Fit := do
  if e.mode = .dynamic ∧ ¬ (kST ∈ e.free ∧ kSP ∈ e.free) then .error .keyError else
  let r ← loop e 20 e.nom l
  return { vals := r.1, rms := Real.sqrt (sumsq e.mode e.seqs r.1 r.2 / l.length), npts := r.2.length }

end Verif.Model.FitLoop
