import Verif.Py.LinAlg
import Verif.Py.Argmax
import Verif.Model.MatchPositioners

/-!
# Model of `py/desimeter/circles.py`

Points are pairs; the least squares routine `scipy.optimize.leastsq` is a parameter.
-/

namespace Verif.Model.Circles
open Verif.Py
open Verif.Model.MatchPositioners (median)

/-- `i2=(i1+nn//2-1)%nn` (line 84). -/
def nxt (n i : ℕ) : ℕ := (i + n / 2 - 1) % n

/-- `x[i], y[i]`. -/
noncomputable def pt (pts : List (ℝ × ℝ)) (i : ℕ) : ℝ × ℝ := pts.getD i (0, 0)

/-- Midpoint `mx, my` (lines 87-88). -/
noncomputable def mid (pts : List (ℝ × ℝ)) (i : ℕ) : ℝ × ℝ :=
  let a := pt pts i
  let b := pt pts (nxt pts.length i)
  ((a.1 + b.1) / 2, (a.2 + b.2) / 2)

/-- Normal `nx, ny` (lines 89-90). -/
noncomputable def normal (pts : List (ℝ × ℝ)) (i : ℕ) : ℝ × ℝ :=
  let a := pt pts i
  let b := pt pts (nxt pts.length i)
  (b.2 - a.2, -(b.1 - a.1))

/-- `s1` (lines 97-101). -/
noncomputable def s1 (pts : List (ℝ × ℝ)) (i : ℕ) : ℝ :=
  let j := nxt pts.length i
  let m1 := mid pts i
  let m2 := mid pts j
  let n1 := normal pts i
  let n2 := normal pts j
  let num := n2.2 * m2.1 - n2.1 * m2.2 - n2.2 * m1.1 + n2.1 * m1.2
  let denom := n2.2 * n1.1 - n2.1 * n1.2
  if denom ≠ 0 then num / denom else 0

/-- Intersection of two perpendicular bisectors (lines 104-105). -/
noncomputable def inter (pts : List (ℝ × ℝ)) (i : ℕ) : ℝ × ℝ :=
  ((mid pts i).1 + (normal pts i).1 * s1 pts i, (mid pts i).2 + (normal pts i).2 * s1 pts i)

/-- `np.hypot(x-xc, y-yc)`. -/
noncomputable def radii (pts : List (ℝ × ℝ)) (c : ℝ × ℝ) : List ℝ :=
  pts.map fun p => hypot (p.1 - c.1) (p.2 - c.2)

/-- `np.mean` of a list. -/
noncomputable def meanL (l : List ℝ) : ℝ := l.sum / l.length

/-- `_fast_fit_circle` (lines 67-117): centre and radius.  NaN for no points. -/
noncomputable def fastFit (useMedian : Bool) (pts : List (ℝ × ℝ)) : Except PyErr ((ℝ × ℝ) × ℝ) :=
  if pts.length = 0 then .error .nanResult
  else
    let avg := if useMedian then median else meanL
    let is := (List.range pts.length).map (inter pts)
    let c := (avg (is.map Prod.fst), avg (is.map Prod.snd))
    .ok (c, avg (radii pts c))

/-- `fit_circle` (lines 9-65); `opt pts start` is the result of `leastsq`. -/
noncomputable def fitCircle (opt : List (ℝ × ℝ) → ℝ × ℝ → ℝ × ℝ) (pts : List (ℝ × ℝ)) :
    Except PyErr ((ℝ × ℝ) × ℝ) := do
  let f ← fastFit false pts
  if f.2 < 1 ∨ f.2 > 5 then .error .valueError
  else
    let c := opt pts f.1
    let r := meanL (radii pts c)
    if r < 1 ∨ r > 5 then .error .valueError else .ok (c, r)

/-- `x[ok], y[ok]`. -/
def select (pts : List (ℝ × ℝ)) (ok : List Bool) : List (ℝ × ℝ) :=
  ((pts.zip ok).filter Prod.snd).map Prod.fst

/-- State after the loop of `robust_fit_circle`: the last fit and the mask, or the early return
(lines 133-135). -/
inductive Loop where
  | done (fit : (ℝ × ℝ) × ℝ) (ok : List Bool)
  | gameOver (ok : List Bool)

/-- The loop of `robust_fit_circle` (lines 123-135) with `k` passes left; `last` is the fit of the
previous pass. -/
noncomputable def robustLoop (pts : List (ℝ × ℝ)) (nsig minerr : ℝ) :
    ℕ → (ℝ × ℝ) × ℝ → List Bool → Except PyErr Loop
  | 0, last, ok => .ok (.done last ok)
  | k + 1, _, ok => do
    let f ← fastFit true (select pts ok)
    let res := (radii pts f.1).map fun v => |v - f.2|
    let rms := 1.483 * median res
    let worst := argmaxReal res
    if res.getD worst 0 < nsig * rms ∨ res.getD worst 0 < minerr then .ok (.done f ok)
    else
      let ok := ok.set worst false
      if (ok.filter id).length < 3 then .ok (.gameOver ok)
      else robustLoop pts nsig minerr k f ok

/-- `robust_fit_circle` (lines 120-140). -/
noncomputable def robustFitCircle (opt : List (ℝ × ℝ) → ℝ × ℝ → ℝ × ℝ) (pts : List (ℝ × ℝ)) (nsig minerr : ℝ) :
    Except PyErr (((ℝ × ℝ) × ℝ) × List Bool) := do
  let l ← robustLoop pts nsig minerr 12 ((0, 0), 0) (List.replicate pts.length true)
  match l with
  | .gameOver ok => .ok (((0, 0), 0), ok)
  | .done f ok =>
    match fitCircle opt (select pts ok) with
    | .ok g => .ok (g, ok)
    | .error .valueError => .ok (f, ok)
    | .error e => .error e

end Verif.Model.Circles
