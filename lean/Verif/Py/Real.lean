import Mathlib.Analysis.SpecialFunctions.Complex.Arg
import Mathlib.Analysis.SpecialFunctions.Trigonometric.Inverse
import Mathlib.Algebra.Order.Floor.Ring

/-!
# Meaning of the Python / numpy numeric primitives used by desimeter

Numbers are real numbers (no rounding).  See DESIGN.md, trusted base.
-/

namespace Verif.Py

/-- Errors a modelled Python function can end with.  `sysExit n` is
`sys.exit(n)`; the others are the Python exception classes of the same name. -/
inductive PyErr where
  | zeroDivision
  | valueError
  | keyError
  | indexError
  | typeError
  | nameError
  | attributeError
  | assertionError
  | runtimeError
  | linAlgError
  | eofError
  | fileNotFound
  /-- not an exception: the value computed is NaN or infinite (numpy only warns) -/
  | nanResult
  | sysExit (code : Int)
  deriving DecidableEq, Repr

/-- Python / numpy float modulo `a % b`: result has the sign of the divisor,
`a - b*floor(a/b)`.  For `b = 0` Python raises and numpy gives NaN; callers
below never use `b = 0`. -/
noncomputable def fmod (a b : ℝ) : ℝ := a - b * (⌊a / b⌋ : ℤ)

/-- `math.atan2(y, x)` / `np.arctan2(y, x)`, in radians, in (-π, π];
`atan2(0,0) = 0`.  (Signed zeros are not modelled.) -/
noncomputable def atan2 (y x : ℝ) : ℝ := Complex.arg (Complex.mk x y)

/-- `math.degrees` / `np.degrees`. -/
noncomputable def degrees (a : ℝ) : ℝ := a * (180 / Real.pi)

/-- `math.radians` / `np.radians`. -/
noncomputable def radians (a : ℝ) : ℝ := a * (Real.pi / 180)

/-- `np.hypot(x, y)` and `(x**2 + y**2)**0.5`. -/
noncomputable def hypot (x y : ℝ) : ℝ := Real.sqrt (x ^ 2 + y ^ 2)

/-- `np.sign`. -/
noncomputable def sign (a : ℝ) : ℝ := if a < 0 then -1 else if 0 < a then 1 else 0

/-- Insertion of `a` in front of the first element whose key is not smaller:
one step of `pySort`. -/
def pyInsert {α κ : Type*} [LinearOrder κ] (key : α → κ) (a : α) : List α → List α
  | [] => [a]
  | b :: l => if key a ≤ key b then a :: b :: l else b :: pyInsert key a l

/-- Python `list.sort(key=...)`: the stable sort by increasing key (given here
as insertion sort; a stable sorting result is unique). -/
def pySort {α κ : Type*} [LinearOrder κ] (key : α → κ) : List α → List α
  | [] => []
  | a :: l => pyInsert key a (pySort key l)

end Verif.Py
