import Verif.Py.Real
import Verif.Py.Dict

/-!
# Model of `py/desimeter/log.py`

The module dictionary `_loggers` is the state.  `logging.getLogger` hands out one object per
name and nobody else uses the names `desimeter.<level>`.  Opening the log file may fail
(`canOpen`).  Propagation to the root logger (which has no handler unless the program adds
one) is not modelled.
-/

namespace Verif.Model.Log
open Verif.Py

inductive Target where
  | stderr
  | file (path : String)
  deriving DecidableEq

/-- One handler: where it writes, its threshold, whether its format has a time stamp. -/
structure Handler where
  target : Target
  level : Nat
  timestamps : Bool
  deriving DecidableEq

structure Logger where
  level : Nat
  handlers : List Handler
  deriving DecidableEq

/-- Arguments and environment of one call: `level`, `path`, `timestamps`, the value of
`DESI_LOGLEVEL`, and whether `path` can be opened for appending. -/
structure Call where
  level : Option String
  path : Option String
  timestamps : Bool
  env : Option String
  canOpen : Bool

/-- Lines 21-22. -/
def effLevel (c : Call) : String := match c.level with
  | some l => l
  | none => (c.env.getD "INFO").toUpper

/-- Lines 24-35, with the numeric levels of the `logging` module. -/
def loglevel (level : String) : Except PyErr Nat :=
  if level = "DEBUG" then .ok 10
  else if level = "INFO" then .ok 20
  else if level = "WARN" ∨ level = "WARNING" then .ok 30
  else if level = "ERROR" then .ok 40
  else if level = "FATAL" ∨ level = "CRITICAL" then .ok 50
  else .error .valueError

abbrev State := Dict String Logger

/-- `if path:` -/
def hasPath (c : Call) : Bool := match c.path with
  | some p => p ≠ ""
  | none => false

/-- Lines 38-70: the new logger; the failing `open` of the file handler raises (an OSError,
not told apart from the other errors: `runtimeError`). -/
def newLogger (c : Call) (lv : Nat) : Except PyErr Logger :=
  if hasPath c then
    if c.canOpen then .ok ⟨lv, [⟨.stderr, lv, c.timestamps⟩, ⟨.file (c.path.getD ""), lv, c.timestamps⟩]⟩
    else .error .runtimeError
  else .ok ⟨lv, [⟨.stderr, lv, c.timestamps⟩]⟩

/-- `get_logger` (lines 7-74): result and new state. -/
def getLogger (st : State) (c : Call) : Except PyErr Logger × State :=
  let level := effLevel c
  match loglevel level with
  | .error e => (.error e, st)
  | .ok lv =>
    match st.get? level with
    | some lg => (.ok lg, st)
    | none =>
      match newLogger c lv with
      | .error e => (.error e, st)
      | .ok lg => (.ok lg, st.set level lg)

/-- The state after a history of calls. -/
def run (calls : List Call) : State := calls.foldl (fun st c => (getLogger st c).2) []

/-- The places a message of severity `s` is written to by a logger. -/
def emit (lg : Logger) (s : Nat) : List Target :=
  if lg.level ≤ s then (lg.handlers.filter fun h => h.level ≤ s).map (·.target) else []

end Verif.Model.Log
