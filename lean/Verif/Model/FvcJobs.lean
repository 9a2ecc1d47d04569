import Verif.Py.Str
import Verif.Py.Real

/-!
# bin/write_fvc_image_processing_scripts

An image file of the input list is described by its entries (one per image extension with a usable
date, in order, those before the first exception when reading the file fails, lines 58-104).  The
name of an entry is its output table (line 79).  `exist` tells that both output files are there
(line 85).  The shell commands written per entry (lines 90-101) are executed by `step`; `grep` is
taken as a search for the text itself (the special meaning of the dot is not modelled).
-/

namespace Verif.Model.FvcJobs
open Verif.Py

structure Entry where
  name : PyStr
  exist : Bool

/-- lines 79-80: "{outdir}/{image}-{extname}-{date}.csv". -/
def outName (outdir image ext date : PyStr) : PyStr :=
  outdir ++ '/' :: (image ++ '-' :: (ext ++ '-' :: date)) ++ ".csv".toList

/-- The jobs closed so far, the tasks of the open job, `count`, and the listing (lines 82-83). -/
structure St where
  closed : List (List PyStr)
  cur : List PyStr
  count : ℕ
  listing : List PyStr

/-- lines 81-103 for one entry. -/
def addEntry (s : St) (e : Entry) : St :=
  let s := { s with listing := s.listing ++ [e.name] }
  if e.exist then s
  else { s with cur := s.cur ++ [e.name], count := s.count + 1 }

/-- lines 47-104 for one line of the input (files named "primary" are skipped, line 50). -/
def addFile (ntasks : ℕ) (s : St) (file : Bool × List Entry) : St :=
  if file.1 then s
  else
    let s := if s.count ≥ ntasks then { s with closed := s.closed ++ [s.cur], cur := [], count := 0 } else s
    file.2.foldl addEntry s

/-- The job scripts (tasks in order) and the listing written at the end (lines 114-125). -/
def jobs (ntasks : ℕ) (files : List (Bool × List Entry)) : List (List PyStr) × List PyStr :=
  let s := files.foldl (addFile ntasks) ⟨[], [], 0, []⟩
  (s.closed ++ [s.cur], s.listing)

/-- What is on disk and what was run: the lines of DONE.txt, the calls of `desi_fvc_proc` made and
the tables written by them. -/
structure Disk where
  done : List PyStr
  calls : List PyStr
  tables : List PyStr

/-- lines 90-91: `grep name DONE.txt | wc -l`. -/
def isDone (d : Disk) (t : PyStr) : Bool := d.done.any fun l => pyIn t l

/-- lines 90-101: the commands of one task; `ok` tells whether the program succeeds. -/
def step (d : Disk) (t : PyStr) (ok : Bool) : Disk :=
  if isDone d t then d
  else ⟨d.done ++ [t], d.calls ++ [t], if ok then d.tables ++ [t] else d.tables⟩

/-- The same when the job is killed after the call was started and before its `echo`. -/
def killed (d : Disk) (t : PyStr) (ok : Bool) : Disk :=
  if isDone d t then d
  else ⟨d.done, d.calls ++ [t], if ok then d.tables ++ [t] else d.tables⟩

/-- One thing that happens to a task while jobs are run, killed and run again. -/
structure Event where
  task : PyStr
  ok : Bool
  kill : Bool

def exec (d : Disk) (e : Event) : Disk := if e.kill then killed d e.task e.ok else step d e.task e.ok

end Verif.Model.FvcJobs
