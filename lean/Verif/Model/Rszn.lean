import Verif.Py.Real
import Verif.Model.RsznTable

/-!
# Model of `py/desimeter/transform/rszn_lookups.py`

NaN is modelled as `none`.
-/

namespace Verif.Model.Rszn

/-- Interpolation inside the bounds: the segment holding `x` and the straight
line through its ends (numpy `arr_interp`: for an index `j` with
`xp[j] <= x < xp[j+1]`, `slope*(x - xp[j]) + fp[j]`; for `j = n-1`, `fp[n-1]`). -/
noncomputable def segment : List (ℝ × ℝ) → ℝ → Option ℝ
  | [], _ => none
  | [(_, b)], _ => some b
  | (a, b) :: (a', b') :: t, x =>
    if x < a' then some ((b' - b) / (a' - a) * (x - a) + b) else segment ((a', b') :: t) x

/-- `np.interp(x, xp, fp, left=nan, right=nan)`.  The bound checks come first and
in this order (numpy `binary_search_with_guess`: `key > arr[len-1]`, then
`key < arr[0]`), whether or not `xp` is sorted; an empty `xp` raises and is not
modelled (the tables are literals). -/
noncomputable def interp (x : ℝ) (xp fp : List ℝ) : Option ℝ :=
  match xp.getLast?, xp.head? with
  | some last, some first =>
    if x > last then none else if x < first then none else segment (xp.zip fp) x
  | _, _ => none

/-- A table column as real numbers (rszn_lookups.py lines 27-34). -/
noncomputable def column (c : List Int) : List ℝ := c.map (fun m : Int => (m : ℝ) / 10 ^ 9)

noncomputable def R : List ℝ := column RsznTable.R
noncomputable def Z : List ℝ := column RsznTable.Z
noncomputable def S : List ℝ := column RsznTable.S
noncomputable def N : List ℝ := column RsznTable.N

/-- `r2s` (rszn_lookups.py lines 36-38). -/
noncomputable def r2s (r : ℝ) : Option ℝ := interp r R S
/-- `s2r` (lines 40-42). -/
noncomputable def s2r (s : ℝ) : Option ℝ := interp s S R
/-- `r2z` (lines 44-46). -/
noncomputable def r2z (r : ℝ) : Option ℝ := interp r R Z
/-- `z2r` (lines 48-50). -/
noncomputable def z2r (z : ℝ) : Option ℝ := interp z Z R
/-- `r2n` (lines 52-54). -/
noncomputable def r2n (r : ℝ) : Option ℝ := interp r R N
/-- `n2r` (lines 56-58). -/
noncomputable def n2r (n : ℝ) : Option ℝ := interp n N R
/-- `s2n` (lines 60-63); interpolating NaN gives NaN. -/
noncomputable def s2n (s : ℝ) : Option ℝ := (s2r s).bind r2n
/-- `s2z` (lines 65-68). -/
noncomputable def s2z (s : ℝ) : Option ℝ := (s2r s).bind r2z
/-- `z2s` (lines 70-73). -/
noncomputable def z2s (z : ℝ) : Option ℝ := (z2r z).bind r2s
/-- `n2s` (lines 75-78). -/
noncomputable def n2s (n : ℝ) : Option ℝ := (n2r n).bind r2s

end Verif.Model.Rszn
