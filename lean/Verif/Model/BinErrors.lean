import Verif.Py.Real
import Verif.Py.Str
import Mathlib.Data.Real.Basic
import Mathlib.Data.Finset.Sort
import Mathlib.Order.WithBot

/-!
# py/desimeter/posparams/plotter.py: `bin_errors`, `_ticks`, `_colors` (lines 134-286)

Counts of positioners with fit error below thresholds, over time.  A row of the table is the
positioner, the date in seconds and the error of the mode chosen; dates and errors are real
numbers (no missing values), a threshold may be infinite.  The sets of positioners are finite
sets; the order in which Python lists their elements is not modelled.  `dict`s keyed by threshold are functions of the
threshold: the values do not depend on where in the list of thresholds it is.
-/

namespace Verif.Model.BinErrors
open Verif.Py

variable {κ : Type} [DecidableEq κ]

/-- A row of the table. -/
structure Row (κ : Type) where
  id : κ
  date : ℝ
  err : ℝ

/-- Argument `bins`: a number, a sequence of edges, or the text typed after `--bins` of plot_posparams. -/
inductive Bins where
  | count (n : ℤ)
  | edges (l : List (WithTop ℝ))
  | text (s : PyStr)

/-- Smallest of `a` and the list. -/
noncomputable def least (a : ℝ) (l : List ℝ) : ℝ := l.foldl min a
/-- Largest of `a` and the list. -/
noncomputable def greatest (a : ℝ) (l : List ℝ) : ℝ := l.foldl max a

/-- `np.linspace(a, b, n + 1)[1:]`, for `n` at least 0. -/
noncomputable def linspaceTail (a b : ℝ) (n : ℕ) : List (WithTop ℝ) :=
  (List.range n).map fun k => ((a + (b - a) * ((k + 1 : ℕ) : ℝ) / n : ℝ) : WithTop ℝ)

/-- Lines 174-183: `bin_ceilings`. Line 180 catches every exception: of `int`, and of `linspace` with a negative number; the length of a number is a
`TypeError`. For a text that is no number, `np.array` has no dimension and line 183 is an `IndexError`. -/
noncomputable def ceilings (int? : PyStr → Option ℤ) (lo hi : ℝ) : Bins → Except PyErr (List (WithTop ℝ))
  | .count n => if n < -1 then .error .typeError else .ok (linspaceTail lo hi n.toNat)
  | .edges l => .ok l.tail
  | .text s =>
    match int? s with
    | some n => if n < -1 then .error .indexError else .ok (linspaceTail lo hi n.toNat)
    | none => .error .indexError

/-- Line 185, `sorted(set(...))`. -/
noncomputable def periods (t : List (Row κ)) : List ℝ := (t.map Row.date).toFinset.sort (· ≤ ·)

/-- Lines 187-196 (`day_in_sec` is 86400, line 17). -/
noncomputable def subtable (t : List (Row κ)) (first : Bool) (period : ℝ) : List (Row κ) :=
  t.filter fun r => (if first then @decide (period - 86400 ≤ r.date) (Classical.dec _) else @decide (period - 86400 < r.date) (Classical.dec _)) &&
    @decide (r.date ≤ period) (Classical.dec _)

/-- `subtable[err_key] <= ceiling` -/
noncomputable def passes (c : WithTop ℝ) (r : Row κ) : Bool := @decide ((r.err : WithTop ℝ) ≤ c) (Classical.dec _)

/-- Lines 203-220 for one period: the positioners passing and failing; `prev` is the result of the previous period, `none` for the first. -/
noncomputable def status (posids : Finset κ) (c : WithTop ℝ) (sub : List (Row κ)) (prev : Option (Finset κ × Finset κ)) : Finset κ × Finset κ :=
  let failSet := ((sub.filter fun r => !passes c r).map Row.id).toFinset
  let passSet := ((sub.filter (passes c)).map Row.id).toFinset \ failSet
  match prev with
  | none => (passSet, failSet)
  | some p =>
    let unknown := posids \ (passSet ∪ failSet)
    (passSet ∪ (p.1 ∩ unknown), failSet ∪ (p.2 ∩ unknown))

/-- Lines 202-220: all periods after the one with result `p`. -/
noncomputable def follow (t : List (Row κ)) (c : WithTop ℝ) (p : Finset κ × Finset κ) : List ℝ → List (Finset κ × Finset κ)
  | [] => []
  | d :: ds =>
    let q := status (t.map Row.id).toFinset c (subtable t false d) (some p)
    q :: follow t c q ds

/-- Lines 199-220 for one threshold. -/
noncomputable def groups (t : List (Row κ)) (c : WithTop ℝ) : List ℝ → List (Finset κ × Finset κ)
  | [] => []
  | d :: ds =>
    let q := status (t.map Row.id).toFinset c (subtable t true d) none
    q :: follow t c q ds

/-- The result. -/
structure Binned (κ : Type) where
  ceilings : List (WithTop ℝ)
  periods : List ℝ
  totalKnown : List ℕ
  passing : WithTop ℝ → List (Finset κ)
  failing : WithTop ℝ → List (Finset κ)
  passingCounts : WithTop ℝ → List ℕ
  failingCounts : WithTop ℝ → List ℕ
  passingFracs : WithTop ℝ → List ℝ
  failingFracs : WithTop ℝ → List ℝ

/-- Lines 134-254. `min` of no rows is a `ValueError`. Line 237: `total_known` is that of the last threshold; without thresholds it is a
`dict`, which has no `tolist`. -/
noncomputable def binErrors (int? : PyStr → Option ℤ) (t : List (Row κ)) (bins : Bins) : Except PyErr (Binned κ) :=
  match t with
  | [] => .error .valueError
  | r :: rs =>
    match ceilings int? (least r.err (rs.map Row.err)) (greatest r.err (rs.map Row.err)) bins with
    | .error e => .error e
    | .ok cs =>
      match cs.getLast? with
      | none => .error .attributeError
      | some c =>
        let ps := periods (r :: rs)
        let g := fun c => groups (r :: rs) c ps
        let pc := fun c => (g c).map fun q => q.1.card
        let fc := fun c => (g c).map fun q => q.2.card
        let total := fun c => ((pc c).zip (fc c)).map fun n => n.1 + n.2
        .ok ⟨cs, ps, total c, fun c => (g c).map Prod.fst, fun c => (g c).map Prod.snd, pc, fc,
          fun c => ((pc c).zip (total c)).map fun n => (n.1 : ℝ) / n.2, fun c => ((fc c).zip (total c)).map fun n => (n.1 : ℝ) / n.2⟩

/-- Lines 277-286: hues of the colours; `none` is an infinite value, whose sign is 1. Division by zero is not modelled: `ZeroDivisionError` stands for the not-a-number
of a largest finite value 0. -/
noncomputable def hues (v : List (Option ℝ)) : Except PyErr (List ℝ) :=
  match v.filterMap id with
  | [] => .error .valueError
  | a :: l =>
    let vmax := greatest |a| (l.map fun x => |x|)
    if vmax = 0 then .error .zeroDivision
    else .ok (v.map fun x => match x with | some x => |x| / vmax * 0.7 + 0.25 | none => 1)

/-- Lines 270-275, the values of the ticks: `np.arange(times[0], times[-1] + day, 7 * day)`. -/
noncomputable def ticks (times : List ℝ) : Except PyErr (List ℝ) :=
  match times with
  | [] => .error .indexError
  | a :: l => .ok ((List.range ⌈(((a :: l).getLastD 0) + 86400 - a) / (7 * 86400)⌉.toNat).map fun k : ℕ => a + (k : ℝ) * (7 * 86400))

end Verif.Model.BinErrors
