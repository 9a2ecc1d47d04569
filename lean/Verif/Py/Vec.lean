import Verif.Py.Real

/-!
# One-dimensional numpy arrays and Python lists, as far as desimeter needs them
-/

namespace Verif.Py

/-- numpy binary operation on two one-dimensional arrays with broadcasting:
equal lengths go element by element, a length-1 array is repeated, any other
combination raises `ValueError` (operands could not be broadcast). -/
def bcast2 {α β γ : Type*} (f : α → β → γ) (a : List α) (b : List β) : Except PyErr (List γ) :=
  if a.length = b.length then .ok (List.zipWith f a b)
  else match a, b with
    | [x], b => .ok (b.map (f x))
    | a, [y] => .ok (a.map (fun x => f x y))
    | _, _ => .error .valueError

/-- Python `L[i]` for a non-negative index. -/
def getIdx {α : Type*} (l : List α) (i : Nat) : Except PyErr α :=
  match l[i]? with
  | some x => .ok x
  | none => .error .indexError

/-- A Python loop `for i in range(n): out.append(step(i))` whose step may raise. -/
def forRange {α : Type*} (n : Nat) (step : Nat → Except PyErr α) : Except PyErr (List α) :=
  (List.range n).mapM step

end Verif.Py
