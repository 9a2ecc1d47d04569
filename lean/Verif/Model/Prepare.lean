import Verif.Py.Real
import Verif.Py.Str

/-!
# bin/prepare_posparams_for_instr

The interactive script that turns fit results into a table of values to commit.  What the
user types is a list of lines; reading past the end of it is `EOFError`.  `force_no_scale`
(line 52) makes `allow_scale` always False, so only the STATIC fits are checked.

Simplified: only the columns used by the checks are kept; log messages are dropped; the
rationale strings of enabling mode are not modelled; a missing value of a required column
is a flag of the row (`masked`), the other values of such a row being arbitrary.
-/

namespace Verif.Model.Prepare
open Verif.Py

/-- Answers of `yesnohelp`. -/
inductive Answer where
  | yes | no | help
  deriving DecidableEq, Repr

/-- `str.lower` (ASCII). -/
def lower (s : PyStr) : PyStr := s.map Char.toLower

/-- bin/prepare_posparams_for_instr:130-137, `input2` applied to a typed line. -/
def input2 (line : PyStr) : PyStr := if line = [] then "(no entry)".toList else line

/-- bin/prepare_posparams_for_instr:141-166.  Note the recursive call of line 166, which does
not pass the restrictions on. -/
def yesnohelp (yes no help exit : Bool) : List PyStr → Except PyErr (Answer × List PyStr)
  | [] => if yes || no || help || exit then .error .eofError else .error .assertionError
  | l :: rest =>
    if !(yes || no || help || exit) then .error .assertionError
    else
      let a := lower (input2 l)
      if help && a ∈ ["h".toList, "help".toList, "doc".toList, "man".toList] then .ok (.help, rest)
      else if no && a ∈ ["n".toList, "no".toList, "false".toList] then .ok (.no, rest)
      else if yes && a ∈ ["y".toList, "yes".toList, "true".toList] then .ok (.yes, rest)
      else if exit && a ∈ ["exit".toList] then .error (.sysExit 0)
      else yesnohelp true true true true rest

/-! ## The table -/

/-- The six static parameters (fitter.py:59). -/
inductive Param where
  | lengthR1 | lengthR2 | offsetT | offsetP | offsetX | offsetY
  deriving DecidableEq, Repr

def params : List Param := [.lengthR1, .lengthR2, .offsetT, .offsetP, .offsetX, .offsetY]

/-- fitter.py:26-34, default bounds. -/
noncomputable def bounds : Param → ℝ × ℝ
  | .lengthR1 => (2.5, 3.5)
  | .lengthR2 => (2.5, 3.5)
  | .offsetT => (-200, 200)
  | .offsetP => (-30, 30)
  | .offsetX => (-500, 500)
  | .offsetY => (-500, 500)

structure Row (κ : Type) where
  posId : κ
  deviceLoc : ℤ
  flags : ℕ
  numPoints : ℤ
  numInFit : ℤ
  fitError : ℝ
  param : Param → ℝ
  masked : Bool
  disabled : Bool

variable {κ : Type} [DecidableEq κ]

/-- Lines 209-242, `_eliminate_rows`: mark (enabling mode) or remove the rows. -/
def eliminate (setEnabling : Bool) (elim : Row κ → Bool) (t : List (Row κ)) : List (Row κ) :=
  if setEnabling then t.map fun r => { r with disabled := r.disabled || elim r }
  else t.filter fun r => !elim r

/-- Lines 257-265: one elimination per flag bit. -/
def checkFlags (e : Bool) (t : List (Row κ)) : List (Row κ) :=
  (List.range 5).foldl (fun t i => eliminate e (fun r => decide (2 ^ i &&& r.flags ≠ 0)) t) t

/-- Lines 267-290. -/
noncomputable def checkBounds (e : Bool) (tighten : ℝ) (t : List (Row κ)) : List (Row κ) :=
  params.foldl (fun t p =>
    let mm := bounds p
    let delta := max mm.1 mm.2 - min mm.1 mm.2
    let t := eliminate e (fun r => decide (r.param p < min mm.1 mm.2 + delta * tighten)) t
    eliminate e (fun r => decide (max mm.1 mm.2 - delta * tighten < r.param p)) t) t

/-- Nominal centre of a device in the table of nominal locations: `float(...)` of the selected
rows fails unless exactly one row matches (line 306). -/
def nominal (locs : List (ℤ × ℝ × ℝ)) (loc : ℤ) : Except PyErr (ℝ × ℝ) :=
  match locs.filter (fun l => l.1 = loc) with
  | [l] => .ok l.2
  | _ => .error .typeError

/-- Lines 301-313 for one row: is it to be eliminated? -/
noncomputable def xyBad (locs : List (ℤ × ℝ × ℝ)) (tol : ℝ) (r : Row κ) : Except PyErr Bool :=
  match nominal locs r.deviceLoc with
  | .error e => .error e
  | .ok c => .ok (decide (tol < |r.param .offsetX - c.1|) || decide (tol < |r.param .offsetY - c.2|))

/-- Lines 292-316.  `locs` is the result of `load_nominal_positioner_locations()`. -/
noncomputable def checkXY (e : Bool) (locs : Except PyErr (List (ℤ × ℝ × ℝ))) (tol : ℝ) (t : List (Row κ)) :
    Except PyErr (List (Row κ)) :=
  match locs with
  | .error err => .error err
  | .ok locs =>
    match t.mapM (xyBad locs tol) with
    | .error err => .error err
    | .ok _ => .ok (eliminate e (fun r => match xyBad locs tol r with | .ok b => b | .error _ => false) t)

/-- Lines 318-338. -/
noncomputable def checkArms (e : Bool) (tol : ℝ) (t : List (Row κ)) : List (Row κ) :=
  eliminate e (fun r => decide (tol < |r.param .lengthR1 - 3|) || decide (tol < |r.param .lengthR2 - 3|)) t

/-- Lines 340-354, key STATIC. -/
noncomputable def checkFitError (e : Bool) (tol : ℝ) (t : List (Row κ)) : List (Row κ) :=
  eliminate e (fun r => decide (tol < r.fitError)) t

/-- Lines 356-372, key STATIC. -/
noncomputable def checkOutliers (e : Bool) (tol : ℝ) (t : List (Row κ)) : Except PyErr (List (Row κ)) :=
  if 0 ≤ tol then .ok (eliminate e (fun r => decide (tol < ((r.numPoints - r.numInFit : ℤ) : ℝ))) t)
  else .error .assertionError

/-! ## Uniqueness -/

/-- `np.flatnonzero(table['POS_ID'] == posid)`, for any column. -/
def rowIdxs {α : Type} (id : α → κ) (t : List α) (p : κ) : List ℕ :=
  (t.zipIdx.filter fun x => decide (id x.1 = p)).map Prod.snd

/-- `table.remove_rows(idxs)`. -/
def removeRows {α : Type} (t : List α) (idxs : List ℕ) : List α :=
  (t.zipIdx.filter fun x => decide (x.2 ∉ idxs)).map Prod.fst

/-- Lines 409-423: the question for one positioner with rows `idxs`.  `int(user_input)` is the
number `i` with `str(i) == user_input`. -/
def askOption {α : Type} (id : α → κ) (t : List α) (p : κ) (idxs : List ℕ) : List PyStr → Except PyErr (List α × List PyStr)
  | [] => .error .eofError
  | l :: rest =>
    let a := input2 l
    if lower a ∈ ["skip".toList, "s".toList] then .ok (removeRows t idxs, rest)
    else match (List.range idxs.length).find? (fun i => decide (Nat.toDigits 10 i = a)) with
    | some k =>
      let new := removeRows t (idxs.filter fun j => decide (j ≠ k))
      if (rowIdxs id new p).length = 1 then .ok (new, rest) else .error .assertionError
    | none => askOption id t p idxs rest

/-- Lines 396-423, the loop over `unique_posids` (a set: `order` lists it in any order). -/
def uniqLoop {α : Type} (id : α → κ) : List κ → List α → List PyStr → Except PyErr (List α × List PyStr)
  | [], t, inp => .ok (t, inp)
  | p :: ps, t, inp =>
    let idxs := rowIdxs id t p
    if idxs.length = 1 then uniqLoop id ps t inp
    else match askOption id t p idxs inp with
      | .error e => .error e
      | .ok (t', inp') => uniqLoop id ps t' inp'

/-- Lines 385-427. -/
def checkUniqueness {α : Type} (id : α → κ) (order : List κ) (t : List α) (inp : List PyStr) :
    Except PyErr (List α × List PyStr) :=
  match uniqLoop id order t inp with
  | .error e => .error e
  | .ok (t', inp') => if (t'.map id).Nodup then .ok (t', inp') else .error .assertionError

/-! ## Adjusting the tolerance of a check -/

/-- `yesnohelp` with all options on, applied to one line: `none` asks again, `some none` is
`sys.exit(0)`. -/
def classify (l : PyStr) : Option (Option Answer) :=
  let a := lower (input2 l)
  if a ∈ ["h".toList, "help".toList, "doc".toList, "man".toList] then some (some .help)
  else if a ∈ ["n".toList, "no".toList, "false".toList] then some (some .no)
  else if a ∈ ["y".toList, "yes".toList, "true".toList] then some (some .yes)
  else if a ∈ ["exit".toList] then some none
  else none

/-- What the adjustment dialogue is waiting for. -/
inductive Prompt where
  | again   -- 'Repeat ... with modified args?' (line 469)
  | value   -- 'Enter new ... value' (line 479)
  deriving DecidableEq, Repr

variable {τ : Type}

/-- Lines 463-499, `run_and_adjust` after a run with value `v` that gave `out`: only the first
keyword argument can be changed (the `return` of line 490 is inside the loop over the
arguments), and the check is run again, on the table given at first, when the value changed.
`parse` is `str2float`. -/
noncomputable def adjust (parse : PyStr → Option ℝ) (run : ℝ → Except PyErr τ) :
    Prompt → ℝ → τ → List PyStr → Except PyErr (τ × List PyStr)
  | _, _, _, [] => .error .eofError
  | .again, v, out, l :: rest =>
    match classify l with
    | none => adjust parse run .again v out rest
    | some none => .error (.sysExit 0)
    | some (some .help) => adjust parse run .again v out rest
    | some (some .no) => .ok (out, rest)
    | some (some .yes) => adjust parse run .value v out rest
  | .value, v, out, l :: rest =>
    if l = [] ∨ l = "(no entry)".toList then .ok (out, rest)
    else if l = "exit".toList then .error (.sysExit 0)
    else match parse l with
      | none => adjust parse run .value v out rest
      | some w =>
        if w = v then .ok (out, rest)
        else match run w with
          | .error e => .error e
          | .ok out' => adjust parse run .again w out' rest

/-- Lines 492-499. -/
noncomputable def runAndAdjust (parse : PyStr → Option ℝ) (run : ℝ → Except PyErr τ) (v : ℝ) (inp : List PyStr) :
    Except PyErr (τ × List PyStr) :=
  match run v with
  | .error e => .error e
  | .ok out => adjust parse run .again v out inp

/-- Line 467: 'Press enter to acknowledge'. -/
def acknowledge (out : τ) : List PyStr → Except PyErr (τ × List PyStr)
  | [] => .error .eofError
  | _ :: rest => .ok (out, rest)

/-! ## Committing -/

/-- Lines 533-535. -/
inductive CommitKey where
  | param (p : Param) | scaleT | scaleP | rangeT | rangeP | disable
  deriving DecidableEq, Repr

def commitKeys : List CommitKey :=
  params.map .param ++ [.scaleT, .scaleP, .rangeT, .rangeP, .disable]

/-- Lines 553-575: ask until yes or no. -/
def askCommit : List PyStr → Except PyErr (Bool × List PyStr)
  | [] => .error .eofError
  | l :: rest =>
    match classify l with
    | none => askCommit rest
    | some none => .error (.sysExit 0)
    | some (some .help) => askCommit rest
    | some (some .no) => .ok (false, rest)
    | some (some .yes) => .ok (true, rest)

/-- Lines 538-551: keys that are never offered (`present k` says whether the column exists). -/
def skipped (present : CommitKey → Bool) (k : CommitKey) : Bool :=
  k == .rangeT || k == .rangeP || k == .scaleT || k == .scaleP || !present k

/-- A row of the output table. -/
structure OutRow (κ : Type) where
  row : Row κ
  commit : CommitKey → Bool

/-- Lines 545-586. -/
def commitLoop (present : CommitKey → Bool) : List CommitKey → List (OutRow κ) → List PyStr →
    Except PyErr (List (OutRow κ) × List PyStr)
  | [], t, inp => .ok (t, inp)
  | k :: ks, t, inp =>
    match (if skipped present k then .ok (false, inp) else askCommit inp) with
    | .error e => .error e
    | .ok (val, inp') =>
      commitLoop present ks (t.map fun o =>
        { o with commit := Function.update o.commit k (val && (k == .disable || o.row.disabled == false)) }) inp'

/-! ## The script -/

structure Config (κ : Type) where
  setEnabling : Bool
  locs : Except PyErr (List (ℤ × ℝ × ℝ))
  parse : PyStr → Option ℝ
  /-- enumeration order of the set of POS_ID values of a table -/
  order : List κ → List κ
  present : CommitKey → Bool

/-- Lines 502-506: the confirmation of enabling mode; the answer is not looked at. -/
def confirmMode (setEnabling : Bool) (inp : List PyStr) : Except PyErr (List PyStr) :=
  if setEnabling then
    match yesnohelp true false false true inp with
    | .error e => .error e
    | .ok (_, rest) => .ok rest
  else .ok inp

/-- The whole script: the table written, for a given input table and typed lines.  The column
`DEVICE_CLASSIFIED_NONFUNCTIONAL` starts as False (line 125). -/
noncomputable def prepare (c : Config κ) (table : List (Row κ)) (inp : List PyStr) : Except PyErr (List (OutRow κ)) :=
  let e := c.setEnabling
  let t0 := table.map fun r => { r with disabled := false }
  let t1 := eliminate e (fun r => r.masked) t0
  (confirmMode e inp).bind fun i0 =>
  (runAndAdjust c.parse (fun v => checkOutliers e v t1) 2 i0).bind fun (t2, i1) =>
  (runAndAdjust c.parse (fun v => .ok (checkFitError e v t2)) 0.03 i1).bind fun (t3, i2) =>
  (acknowledge (checkFlags e t3) i2).bind fun (t4, i3) =>
  (runAndAdjust c.parse (fun v => .ok (checkBounds e v t4)) 0.001 i3).bind fun (t5, i4) =>
  (runAndAdjust c.parse (fun v => checkXY e c.locs v t5) 0.5 i4).bind fun (t6, i5) =>
  (runAndAdjust c.parse (fun v => .ok (checkArms e v t6)) 0.5 i5).bind fun (t7, i6) =>
  (checkUniqueness Row.posId (c.order (t7.map Row.posId)) t7 i6).bind fun (t8, i7) =>
  (acknowledge t8 i7).bind fun (t9, i8) =>
  (commitLoop c.present commitKeys (t9.map fun r => ⟨r, fun _ => false⟩) i8).bind fun (t10, _) =>
  .ok t10

end Verif.Model.Prepare
