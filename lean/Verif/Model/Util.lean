import Verif.Py.Str
import Verif.Py.Real

/-!
# Model of `py/desimeter/util.py`
-/

namespace Verif.Model.Util
open Verif.Py

/-- One symbol of the loop of `parse_fibers` (lines 39-47): a range when the item is two
digit strings around the symbol. -/
def tryOne (symbol sub : PyStr) : Option (List Nat) :=
  if pyIn symbol sub then
    match split symbol sub with
    | [a, b] => if isDigits a && isDigits b then some (List.range' (toInt a) (toInt b - toInt a)) else none
    | _ => none
  else none

/-- One comma separated item of `parse_fibers` (lines 33-50).  The loop over the three
symbols with its `match` flag is "the first symbol that gives two digit strings". -/
def parseSub (sub : PyStr) : Except PyErr (List Nat) :=
  let sub := sub.filter (· ≠ ' ')
  if isDigits sub then .ok [toInt sub] else
  match [[':'], ['.', '.'], ['-']].findSome? fun symbol => tryOne symbol sub with
  | some l => .ok l
  | none => .error (.sysExit 1)

/-- `parse_fibers` (lines 7-52); `None` gives the empty array, other objects are first
converted by `str`. -/
def parseFibers : Option PyStr → Except PyErr (List Nat)
  | none => .ok []
  | some s =>
    if s.all fun c => c = ' ' || c = '\t' then .ok [] else do
    let parts ← (s.splitOn ',').mapM parseSub
    return parts.flatten

end Verif.Model.Util
