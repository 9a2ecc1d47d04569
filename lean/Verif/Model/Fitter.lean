import Verif.Py.Dict
import Verif.Py.Str
import Verif.Py.Real

/-!
# py/desimeter/posparams/fitter.py: what `fit_params` reads and changes

`fit_params` (63-425) with the module dictionaries `default_values` and `default_bounds`, which are
used directly, not copied, when the corresponding argument is None (lines 119-122), and which the
function writes into (lines 205-206 and 338-339).

Parameters of the model: the evaluation of the move flags and the circle fits (their results are
part of the input, being functions of the data only), the sorted order of the parameter names, and
the optimisation (lines 345-390; a function of the data, of the names, start values and bounds of the
free parameters and of the fixed values).  Covariances are in `CovTable`.  The checks on the lengths
and types of the data lists are assumed to have passed.
-/

namespace Verif.Model.Fitter
open Verif.Py

inductive Mode where
  | static | dynamic
  deriving DecidableEq

/-- fitter.py:59. -/
def staticKeys : List PyStr :=
  ["LENGTH_R1".toList, "LENGTH_R2".toList, "OFFSET_T".toList, "OFFSET_P".toList, "OFFSET_X".toList, "OFFSET_Y".toList]

/-- fitter.py:60. -/
def dynamicKeys : List PyStr := ["SCALE_T".toList, "SCALE_P".toList]

/-- fitter.py:61. -/
def allKeys : List PyStr := staticKeys ++ dynamicKeys

/-- fitter.py:17-25. -/
noncomputable def defaultValues : Dict PyStr ℝ :=
  [("LENGTH_R1".toList, 3), ("LENGTH_R2".toList, 3), ("OFFSET_T".toList, 0), ("OFFSET_P".toList, 0),
   ("OFFSET_X".toList, 0), ("OFFSET_Y".toList, 0), ("SCALE_T".toList, 1), ("SCALE_P".toList, 1)]

/-- fitter.py:27-35. -/
noncomputable def defaultBounds : Dict PyStr (ℝ × ℝ) :=
  [("LENGTH_R1".toList, (2.5, 3.5)), ("LENGTH_R2".toList, (2.5, 3.5)), ("OFFSET_T".toList, (-200, 200)),
   ("OFFSET_P".toList, (-30, 30)), ("OFFSET_X".toList, (-500, 500)), ("OFFSET_Y".toList, (-500, 500)),
   ("SCALE_T".toList, (0, 1)), ("SCALE_P".toList, (0, 1))]

/-- `"EPSILON_T_{}".format(s)` and `"EPSILON_P_{}".format(s)`, line 204. -/
def epsKeys (s : ℕ) : List PyStr :=
  ["EPSILON_T_".toList ++ Nat.toDigits 10 s, "EPSILON_P_".toList ++ Nat.toDigits 10 s]

/-- Arguments of one call, apart from `nominals` and `bounds`. -/
structure Input (δ : Type) where
  mode : Mode
  /-- the data lists -/
  data : δ
  /-- line 145 -/
  flags : ℕ
  /-- line 154 -/
  anyRehome : Bool
  /-- line 201: the sequences without recent rehome -/
  seqs : List ℕ
  /-- lines 319-337: medians of the circle centres, if any circle could be fitted -/
  circle : Option (ℝ × ℝ)
  keepFixed : List PyStr

/-- What is returned: only flags, or the best parameters. -/
inductive Result where
  | failed (flags : ℕ)
  | fitted (best : Dict PyStr ℝ) (flags : ℕ)

/-- lines 427-431. -/
noncomputable def wrapAt180 (a : ℝ) : ℝ := if fmod a 360 > 180 then fmod a 360 - 360 else fmod a 360

/-- `d.update(...)` with a list of pairs. -/
def update {ν : Type} (d : Dict PyStr ν) (l : List (PyStr × ν)) : Dict PyStr ν := l.foldl (fun d p => d.set p.1 p.2) d

/-- `[d[k] for k in keys]`. -/
def lookups {ν : Type} (d : Dict PyStr ν) : List PyStr → Except PyErr (List ν)
  | [] => .ok []
  | k :: l =>
    match d.get? k with
    | none => .error .keyError
    | some v =>
      match lookups d l with
      | .error e => .error e
      | .ok vs => .ok (v :: vs)

/-- `k.find("EPSILON") >= 0`. -/
def isEps (k : PyStr) : Bool := pyIn "EPSILON".toList k

/-- lines 163-166 and 257-262: the parameters kept fixed. -/
def fixedKeys {δ : Type} (i : Input δ) (nom : Dict PyStr ℝ) : List PyStr :=
  match i.mode with
  | .static => i.keepFixed ++ dynamicKeys
  | .dynamic => i.keepFixed ++ staticKeys ++ (Dict.keys nom).filter isEps

/-- lines 201-206. -/
noncomputable def addEps {δ : Type} (i : Input δ) (nom : Dict PyStr ℝ) : Dict PyStr ℝ :=
  match i.mode with
  | .static => update nom ((i.seqs.flatMap epsKeys).map fun k => (k, 0))
  | .dynamic => nom

noncomputable def addEpsBounds {δ : Type} (i : Input δ) (bnd : Dict PyStr (ℝ × ℝ)) : Dict PyStr (ℝ × ℝ) :=
  match i.mode with
  | .static => update bnd ((i.seqs.flatMap epsKeys).map fun k => (k, (-200, 200)))
  | .dynamic => bnd

/-- lines 319-340. -/
noncomputable def addCircle {δ : Type} (i : Input δ) (fixed : List PyStr) (nom : Dict PyStr ℝ) : Dict PyStr ℝ :=
  match i.mode, i.circle with
  | .static, some (x, y) =>
    let nom := if "OFFSET_X".toList ∈ fixed then nom else nom.set "OFFSET_X".toList x
    if "OFFSET_Y".toList ∈ fixed then nom else nom.set "OFFSET_Y".toList y
  | _, _ => nom

/-- Optimisation: data, mode, free parameters with start values and bounds, values of all parameters. -/
abbrev Opt (δ : Type) := Mode → δ → List PyStr → List ℝ → List (ℝ × ℝ) → Dict PyStr ℝ → List ℝ

/-- lines 63-425 on given dictionaries: result, and the dictionaries afterwards. -/
noncomputable def fitParams {δ : Type} (sortKeys : List PyStr → List PyStr) (opt : Opt δ) (i : Input δ)
    (nom : Dict PyStr ℝ) (bnd : Dict PyStr (ℝ × ℝ)) :
    Except PyErr Result × Dict PyStr ℝ × Dict PyStr (ℝ × ℝ) :=
  if ¬ ((∀ k ∈ allKeys, k ∈ Dict.keys nom) ∧ (∀ k ∈ allKeys, k ∈ Dict.keys bnd) ∧ ∀ k ∈ i.keepFixed, k ∈ allKeys) then
    (.error .assertionError, nom, bnd)                                           -- lines 130-132
  else if i.flags &&& 3 > 0 then (.ok (.failed (i.flags ||| 4)), nom, bnd)         -- lines 145-152
  else if !i.anyRehome then (.ok (.failed (i.flags ||| 4)), nom, bnd)              -- lines 154-160
  else
    let nom1 := addEps i nom
    let bnd1 := addEpsBounds i bnd
    if i.mode = .dynamic ∧ ∃ k ∈ i.seqs.flatMap epsKeys, k ∉ Dict.keys nom1 then
      (.error .keyError, nom1, bnd1)                                             -- lines 226-227
    else
      let fixed := fixedKeys i nom1
      let free := sortKeys ((Dict.keys nom1).filter fun k => k ∉ fixed)           -- lines 264-265
      let nom2 := addCircle i fixed nom1
      match lookups nom2 free, lookups bnd1 free with                             -- lines 342-343
      | .ok x0, .ok b =>
        let x := opt i.mode i.data free x0 b nom1
        match lookups nom2 fixed with
        | .error e => (.error e, nom2, bnd1)
        | .ok fx =>
          let best := update (free.zip x) (fixed.zip fx)                          -- lines 393-395
          let best := best.set "OFFSET_T".toList (wrapAt180 ((best.get? "OFFSET_T".toList).getD 0))
          (.ok (.fitted best i.flags), nom2, bnd1)
      | .error e, _ => (.error e, nom2, bnd1)
      | _, .error e => (.error e, nom2, bnd1)

/-- The module dictionaries. -/
structure State where
  values : Dict PyStr ℝ
  bounds : Dict PyStr (ℝ × ℝ)

/-- State when the module is imported. -/
noncomputable def State.init : State := ⟨defaultValues, defaultBounds⟩

/-- A call `fit_params(..., nominals=nominals, bounds=bounds)`; None uses the module dictionaries
themselves (lines 119-122).  Result, dictionaries of the module afterwards, and the dictionary
given as `nominals` afterwards. -/
noncomputable def call {δ : Type} (sortKeys : List PyStr → List PyStr) (opt : Opt δ) (st : State) (i : Input δ)
    (nominals : Option (Dict PyStr ℝ)) (bounds : Option (Dict PyStr (ℝ × ℝ))) :
    Except PyErr Result × State × Dict PyStr ℝ :=
  let r := fitParams sortKeys opt i (nominals.getD st.values) (bounds.getD st.bounds)
  (r.1, ⟨if nominals.isSome then st.values else r.2.1, if bounds.isSome then st.bounds else r.2.2⟩, r.2.1)

/-- State after a history of calls. -/
noncomputable def after {δ : Type} (sortKeys : List PyStr → List PyStr) (opt : Opt δ)
    (h : List (Input δ × Option (Dict PyStr ℝ) × Option (Dict PyStr (ℝ × ℝ)))) : State :=
  h.foldl (fun st c => (call sortKeys opt st c.1 c.2.1 c.2.2).2.1) State.init

/-- fithandler.py:363-378: the calls of one pass over the windows; the dictionary of nominal values
is the same object in all of them, and the bounds are the module dictionary. -/
noncomputable def pass {δ : Type} (sortKeys : List PyStr → List PyStr) (opt : Opt δ) :
    State → Dict PyStr ℝ → List (Input δ) → List (Except PyErr Result)
  | _, _, [] => []
  | st, nom, i :: l =>
    let r := call sortKeys opt st i (some nom) none
    r.1 :: pass sortKeys opt r.2.1 r.2.2 l

end Verif.Model.Fitter
