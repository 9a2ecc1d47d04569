import Verif.Py.Real
import Mathlib.Analysis.SpecialFunctions.Exp
import Mathlib.Analysis.SpecialFunctions.Sqrt
import Mathlib.Data.Finset.Sort
import Mathlib.Order.WithBot

/-!
# Statistics of the errors of positioners (`bin/analyze_pos_performance`, lines 503-538, 703-871, 1277-1306)

Rows are those of the table after all columns have been added.  Errors and radii are real numbers, the levels `sigma` are natural numbers or
infinity.  The quantile of numpy with `interpolation='midpoint'` is modelled by its definition, the mean of the two sorted values around the
position `q (n - 1)`.  The columns not used by the statistics are left out.
-/

namespace Verif.Model.PerfStats
open Verif.Py

/-- The three kinds of targets for which there are statistics (lines 119-125; there is a fourth tag for measurements). -/
inductive Tag
  | tracked
  | requested
  | accepted
  deriving DecidableEq

/-- The columns of the table of moves that are used. -/
structure Row where
  posId : ℕ
  submove : ℕ
  gearT : ℝ
  gearP : ℝ
  errTracked : ℝ
  errRequested : ℝ
  radTracked : ℝ
  radRequested : ℝ
  accepted : Bool

/-- The error with respect to the super tag (lines 150-154): the accepted targets use the errors of the requested ones. -/
def err : Tag → Row → ℝ
  | .tracked, r => r.errTracked
  | .requested, r => r.errRequested
  | .accepted, r => r.errRequested

/-- The radius with respect to the super tag. -/
def radius : Tag → Row → ℝ
  | .tracked, r => r.radTracked
  | .requested, r => r.radRequested
  | .accepted, r => r.radRequested

/-- `get_idxs` without `sigma` (lines 503-522), as a condition on rows. -/
def sel (tag : Tag) (submove : ℕ) (r : Row) : Bool := (r.submove == submove) && (tag != .accepted || r.accepted)

/-- `get_submove_ids` (lines 524-529). -/
def submoveIds (rows : List Row) : List ℕ := (rows.map (·.submove)).toFinset.sort (· ≤ ·)

/-- The six `stat_funcs` (lines 158-160). -/
structure Stats where
  max : ℝ
  min : ℝ
  mean : ℝ
  median : ℝ
  std : ℝ
  rms : ℝ

/-- `np.mean`. -/
noncomputable def mean (l : List ℝ) : ℝ := l.sum / l.length

/-- `np.median`: the middle one of the sorted values, or the mean of the middle two. -/
noncomputable def median (l : List ℝ) : ℝ :=
  let s := l.insertionSort (· ≤ ·)
  if l.length % 2 = 1 then s.getD (l.length / 2) 0 else (s.getD (l.length / 2 - 1) 0 + s.getD (l.length / 2) 0) / 2

/-- The functions on one list of errors; `np.max` of an empty list is an error. -/
noncomputable def stats : List ℝ → Except PyErr Stats
  | [] => .error .valueError
  | a :: t => .ok {
      max := t.foldl Max.max a
      min := t.foldl Min.min a
      mean := mean (a :: t)
      median := median (a :: t)
      std := Real.sqrt (mean ((a :: t).map fun x => (x - mean (a :: t)) ^ 2))
      rms := Real.sqrt (((a :: t).map (· ^ 2)).sum / (a :: t).length) }

/-- One row of the table `stats` of `analyze_one_pos`. -/
structure PosStat where
  posId : ℕ
  submove : ℕ
  gearT : ℝ
  gearP : ℝ
  counts : List ℕ
  values : List Stats

/-- The tags with statistics, in order (line 736). -/
def statTags : List Tag := [.tracked, .requested, .accepted]

/-- The part of `analyze_one_pos` for one submove (lines 744-766); `none` if there is no data for one of the tags. -/
noncomputable def statOne (posId : ℕ) (rows : List Row) (submove : ℕ) : Option PosStat := do
  let errs := statTags.map fun tag => (rows.filter (sel tag submove)).map (err tag)
  let values ← errs.mapM fun l => (stats l).toOption
  match rows.filter (sel .tracked submove) with
  | [] => none
  | a :: t => return {
      posId := posId
      submove := submove
      gearT := (t.map (·.gearT)).foldl Min.min a.gearT
      gearP := (t.map (·.gearP)).foldl Min.min a.gearP
      counts := errs.map List.length
      values := values }

/-- The statistics of `analyze_one_pos` (lines 735-770); `none` stands for the pair of `None`. -/
noncomputable def analyzeStats (posId : ℕ) (rows : List Row) : Option (List PosStat) :=
  if rows.isEmpty then none else (submoveIds rows).mapM (statOne posId rows)

/-- The tables that are kept and merged (lines 1279-1296). -/
noncomputable def merged (tables : List (ℕ × List Row)) : List Row :=
  (tables.filter fun t => (analyzeStats t.1 t.2).isSome).flatMap (·.2)

/-- `sigma_to_quantile` (line 769), with infinity. -/
noncomputable def quantileOf : WithTop ℕ → ℝ
  | ⊤ => 1
  | (s : ℕ) => 1 - Real.exp (-(s : ℝ))

/-- `np.quantile(..., interpolation='midpoint')` (line 803). -/
noncomputable def midQuantile (q : ℝ) (l : List ℝ) : Except PyErr ℝ :=
  if l.isEmpty then .error .indexError
  else
    let s := l.insertionSort (· ≤ ·)
    let x := q * ((l.length : ℝ) - 1)
    .ok ((s.getD ⌊x⌋₊ 0 + s.getD ⌈x⌉₊ 0) / 2)

/-- A row with its `SIGMA_CEILING` and `QUANTILE_CEILING`. -/
abbrev Marked := Row × WithTop ℕ × ℝ

/-- The step of `identify_quantiles` for one submove and one level (lines 801-807). -/
noncomputable def mark (tag : Tag) (submove : ℕ) (l : List Marked) (sigma : WithTop ℕ) : Except PyErr (List Marked) := do
  let cutoff ← midQuantile (quantileOf sigma) ((l.filter fun m => sel tag submove m.1).map fun m => err tag m.1)
  return l.map fun m => if err tag m.1 ≤ cutoff ∧ sel tag submove m.1 = true then (m.1, sigma, quantileOf sigma) else m

/-- `identify_quantiles` (lines 772-809). -/
noncomputable def identify (tag : Tag) (sigmas : List (WithTop ℕ)) (rows : List Row) : Except PyErr (List Marked) :=
  (submoveIds rows).foldlM (fun l submove => (sigmas.insertionSort (· ≥ ·)).foldlM (mark tag submove) l) (rows.map fun r => (r, ⊤, 1))

/-- The levels of `identify_quantiles` by default (line 772). -/
def defaultSigmas : List (WithTop ℕ) := [1, 2, 3, 4, 5, ⊤]

/-- `get_sigmas` (lines 531-537): the levels found in the table with the first quantile beside each. -/
noncomputable def levels (l : List Marked) : List (WithTop ℕ × ℝ) :=
  ((l.map (·.2.1)).toFinset.sort (· ≤ ·)).map fun s => (s, ((l.filter fun m => m.2.1 = s).map (·.2.2)).headD 0)

/-- One row of the table of `summarize_stats`. -/
structure Entry where
  submove : ℕ
  sigma : WithTop ℕ
  quantile : ℝ
  nTargets : ℕ
  values : Stats

/-- The inner part of `summarize_stats` (lines 849-861). -/
noncomputable def entry (tag : Tag) (l : List Marked) (submove : ℕ) (level : WithTop ℕ × ℝ) : Except PyErr Entry := do
  let errs := (l.filter fun m => decide (m.2.2 ≤ level.2) && sel tag submove m.1).map fun m => err tag m.1
  let values ← stats errs
  return { submove := submove, sigma := level.1, quantile := level.2, nTargets := errs.length, values := values }

/-- One submove of `summarize_stats`; the largest and smallest radius of an empty list are errors (lines 842-848). -/
noncomputable def entries (tag : Tag) (l : List Marked) (submove : ℕ) : Except PyErr (List Entry) :=
  if (l.filter fun m => sel tag submove m.1).isEmpty then .error .valueError else (levels l).mapM (entry tag l submove)

/-- The table of `summarize_stats` (lines 811-861). -/
noncomputable def summary (tag : Tag) (l : List Marked) : Except PyErr (List Entry) := do
  let es ← (submoveIds (l.map (·.1))).mapM (entries tag l)
  return es.flatten

/-- `n_targets` and `mean_corr_moves` of the metadata (lines 864-868). -/
noncomputable def metadata (l : List Row) : Except PyErr (ℕ × ℝ) :=
  match (submoveIds l).map fun s => (l.filter (·.submove == s)).length with
  | [] => .error .indexError
  | n :: ns => .ok (n, (((n :: ns).sum : ℕ) : ℝ) / n - 1)

/-- Binning of the merged data for one tag (lines 1301-1305). -/
noncomputable def binned (tag : Tag) (tables : List (ℕ × List Row)) : Except PyErr (List Entry) := do
  let l ← identify tag defaultSigmas (merged tables)
  summary tag l

end Verif.Model.PerfStats
