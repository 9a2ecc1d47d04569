import Mathlib.Data.List.SplitOn

/-!
# Python strings as lists of characters

Only ASCII digits count as digits here (`str.isdigit` also accepts other Unicode digits,
which are not modelled).
-/

namespace Verif.Py

abbrev PyStr := List Char

def isDig (c : Char) : Bool := '0' ≤ c && c ≤ '9'

/-- `s.isdigit()`. -/
def isDigits (s : PyStr) : Bool := !s.isEmpty && s.all isDig

/-- `int(s)` for a string of digits. -/
def toInt (s : PyStr) : Nat := s.foldl (fun v c => 10 * v + (c.toNat - '0'.toNat)) 0

/-- `sub in s`. -/
def pyIn (sub : PyStr) : PyStr → Bool
  | [] => sub.isEmpty
  | c :: t => sub.isPrefixOf (c :: t) || pyIn sub t

/-- Worker of `split`: `cur` is the current piece (reversed), `skip` the number of
separator characters still to skip. -/
def splitAux (sep : PyStr) : PyStr → Nat → PyStr → List PyStr
  | cur, _, [] => [cur.reverse]
  | cur, k + 1, _ :: t => splitAux sep cur k t
  | cur, 0, c :: t =>
    if sep.isPrefixOf (c :: t) then cur.reverse :: splitAux sep [] (sep.length - 1) t
    else splitAux sep (c :: cur) 0 t

/-- `s.split(sep)` for a non-empty separator. -/
def split (sep s : PyStr) : List PyStr := splitAux sep [] 0 s

end Verif.Py
