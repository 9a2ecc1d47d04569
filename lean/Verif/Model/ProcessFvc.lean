import Verif.Py.Str
import Verif.Py.Real

/-!
# py/desimeter/processfvc.py

`process_fvc` (lines 22-80) and the decisions of `fvc_proc` (lines 83-163 and 205-390).

The file system is the function from paths to tables.  `proc` is what `desi_fvc_proc` computes for
an image: the table it writes, or its non zero error code.  (Exceptions inside it are not modelled.)
-/

namespace Verif.Model.ProcessFvc
open Verif.Py

/-- `s.replace(old, new)`. -/
def replace (old new s : PyStr) : PyStr := new.intercalate (split old s)

/-- `s.endswith(e)`. -/
def endsWith (e s : PyStr) : Bool := e.isSuffixOf s

/-- `os.path.basename`. -/
def basename (s : PyStr) : PyStr := (s.reverse.takeWhile (· ≠ '/')).reverse

/-- `s.find(sub) > 0`: the first occurrence is not at the start. -/
def findPos (sub s : PyStr) : Bool := !sub.isPrefixOf s && pyIn sub s

/-- lines 75-80. -/
def outfilename (path : PyStr) : PyStr :=
  "/tmp/".toList ++ basename (replace ".fits".toList ".csv".toList (replace ".fits.fz".toList ".csv".toList path))

abbrev Fs (T : Type) := PyStr → Option T

/-- `Table.read`. -/
def read {T : Type} (fs : Fs T) (path : PyStr) : Except PyErr T :=
  match fs path with
  | some t => .ok t
  | none => .error .fileNotFound

/-- Running `desi_fvc_proc -i filename -o out` (lines 58-68 with lines 86-88): result code and new
files. -/
def run {T : Type} (proc : PyStr → Except Int T) (filename out : PyStr) (fs : Fs T) : Int × Fs T :=
  if endsWith ".csv".toList out then
    match proc filename with
    | .ok t => (0, Function.update fs out (some t))
    | .error c => (c, fs)
  else (12, fs)

/-- `process_fvc`, lines 22-73: the value returned (`none` is None) and the files afterwards. -/
def processFvc {T : Type} (proc : PyStr → Except Int T) (filename : PyStr) (overwrite : Bool) (fs : Fs T) :
    Except PyErr (Option T) × Fs T :=
  if findPos ".csv".toList filename then ((read fs filename).map some, fs)
  else if !pyIn ".fits".toList filename then (.error (.sysExit 12), fs)
  else
    let out := outfilename filename
    if (fs out).isSome && !overwrite then ((read fs out).map some, fs)
    else
      let r := run proc filename out fs
      if r.1 ≠ 0 then (.ok none, r.2) else ((read r.2 out).map some, r.2)

/-! ## `fvc_proc` -/

/-- An image of the list: number of spots, number of matched fiducials, and its extension name when
the input is a FITS file. -/
structure Image where
  nspots : ℕ
  nfid : ℕ
  ext : Option PyStr

/-- Options used by the decisions. -/
structure Args where
  infile : PyStr
  outfile : PyStr
  /-- `--threshold` given -/
  threshold : Bool
  minSpots : Option ℕ
  maxSpots : Option ℕ
  noMatch : Bool
  sequence : Bool

/-- `'{:04d}'.format(i)`. -/
def fmt4 (i : ℕ) : PyStr :=
  let s := Nat.toDigits 10 i
  List.replicate (4 - s.length) '0' ++ s

/-- lines 218-225. -/
def skipped (a : Args) (im : Image) : Bool :=
  (match a.minSpots with | some m => decide (im.nspots < m) | none => false) ||
  (match a.maxSpots with | some m => decide (im.nspots > m) | none => false)

/-- lines 227-232. -/
def outOf (a : Args) (seqid : ℕ) (im : Image) : PyStr :=
  if a.sequence then
    match im.ext with
    | some e => replace ".csv".toList (('-' :: e) ++ ".csv".toList) a.outfile
    | none => replace ".csv".toList ("-F".toList ++ fmt4 seqid ++ ".csv".toList) a.outfile
  else a.outfile

/-- lines 216-390: return code and files written, in order. -/
def procLoop (a : Args) : List (Image × ℕ) → List PyStr → Int × List PyStr
  | [], w => (0, w)
  | (im, i) :: l, w =>
    if skipped a im then procLoop a l w
    else if a.noMatch then procLoop a l (w ++ [outOf a i im])
    else if im.nfid < 3 then (13, w)
    else procLoop a l (w ++ [outOf a i im])

/-- lines 205-390 with `preproc` (83-118) and `get_spots_list` (121-163); `images` are the images
read from the input file. -/
def fvcProc (a : Args) (images : List Image) : Int × List PyStr :=
  if !endsWith ".csv".toList a.outfile then (12, [])
  else if a.threshold then (1, [])
  else if !findPos ".fits".toList a.infile && !findPos ".csv".toList a.infile then (13, [])
  else procLoop a images.zipIdx []

/-- lines 140-147: the extension chosen for `--extname last` among the (lower case) names. -/
def lastExt (names : List PyStr) : Option PyStr :=
  (List.range names.length).foldl (fun r i => if ('f' :: fmt4 i) ∈ names then some ('f' :: fmt4 i) else r) none

end Verif.Model.ProcessFvc
