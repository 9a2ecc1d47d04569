import Verif.Py.Dict
import Verif.Py.Str
import Verif.Model.SimpleCorr
import Verif.Model.Spotmatch

/-!
# Model of `py/desimeter/transform/gfa2fp.py` and `FieldModel.all_gfa2fp`

A transform with NaN coefficients is `none`, and so are the coordinates it returns.
-/

namespace Verif.Model.Gfa2fp
open Verif.Py Verif.Model.SimpleCorr Classical

/-- A row of the metrology table. -/
structure GRow where
  devType : PyStr
  petal : ℤ
  pin : ℤ
  x : ℝ
  y : ℝ
  z : ℝ

/-- The transforms by petal location. -/
abbrev Transforms := Dict ℤ (Option Corr)

/-- The GFA rows of a petal in order of `PINHOLE_ID` (lines 69-71, 82-86). -/
def petalRows (met : List GRow) (p : ℤ) : List GRow :=
  (pySort (·.pin) (met.filter fun r => r.devType = "GFA".toList)).filter fun r => r.petal = p

/-- `np.array([...]); x /= np.sqrt(np.sum(x**2))` (lines 93-96); `none` is NaN. -/
noncomputable def unitEdge (a b : GRow) : Option (ℝ × ℝ × ℝ) :=
  let v := (b.x - a.x, b.y - a.y, b.z - a.z)
  let n := Real.sqrt (v.1 ^ 2 + v.2.1 ^ 2 + v.2.2 ^ 2)
  if n = 0 then none else some (v.1 / n, v.2.1 / n, v.2.2 / n)

/-- `np.cross`. -/
def cross (a b : ℝ × ℝ × ℝ) : ℝ × ℝ × ℝ :=
  (a.2.1 * b.2.2 - a.2.2 * b.2.1, a.2.2 * b.1 - a.1 * b.2.2, a.1 * b.2.1 - a.2.1 * b.1)

/-- Lines 107-109: the shift for the thickness of the filter; `none` is NaN or infinity. -/
noncomputable def filterShift (a b c : GRow) : Option (ℝ × ℝ) := do
  let e ← unitEdge a b
  let f ← unitEdge b c
  let n := cross e f
  if n.2.2 = 0 then none else some (2.23 * n.1 / n.2.2, 2.23 * n.2.1 / n.2.2)

/-- The body of the loop (lines 84-114). -/
noncomputable def fitPetal : List GRow → Except PyErr (Option Corr)
  | [a, b, c, d] =>
    match fit fresh [⟨0, 0, a.x, a.y⟩, ⟨2047, 0, b.x, b.y⟩, ⟨2047, 1031, c.x, c.y⟩, ⟨0, 1031, d.x, d.y⟩] with
    | .error .nanResult => .ok none
    | .error e => .error e
    | .ok corr => .ok ((filterShift a b c).map fun s => { corr with dx := corr.dx + s.1, dy := corr.dy + s.2 })
  | _ => .error .assertionError

/-- `fit_gfa2fp` (lines 59-116). -/
noncomputable def fitGfa (met : List GRow) : Except PyErr Transforms :=
  (((List.range 10).map fun (p : ℕ) => (p : ℤ)).filter fun p => petalRows met p ≠ []).mapM fun p =>
    match fitPetal (petalRows met p) with
    | .error e => .error e
    | .ok c => .ok (p, c)

/-- Lines 25-28, 48-51: the module variable `_gfa_transforms`; `load` is `io.load_metrology()`. -/
noncomputable def getTransforms (cache : Option Transforms) (load : Except PyErr (List GRow)) :
    Except PyErr Transforms × Option Transforms :=
  match cache with
  | some t => (.ok t, some t)
  | none =>
    match load with
    | .error e => (.error e, none)
    | .ok met =>
      match fitGfa met with
      | .error e => (.error e, none)
      | .ok t => (.ok t, some t)

/-- `_gfa_transforms[petal_loc]`. -/
def lookup (t : Transforms) (p : ℤ) : Except PyErr (Option Corr) :=
  match t.get? p with
  | some c => .ok c
  | none => .error .keyError

/-- `gfa2fp` for arrays (lines 14-36). -/
noncomputable def gfa2fp (cache : Option Transforms) (load : Except PyErr (List GRow)) (p : ℤ) (g : List (ℝ × ℝ)) :
    Except PyErr (List (Option (ℝ × ℝ))) × Option Transforms :=
  let s := getTransforms cache load
  (do let t ← s.1
      let c ← lookup t p
      return g.map fun q => c.map fun c => apply c q.1 q.2, s.2)

/-- `fp2gfa` for arrays (lines 38-57). -/
noncomputable def fp2gfa (cache : Option Transforms) (load : Except PyErr (List GRow)) (p : ℤ) (g : List (ℝ × ℝ)) :
    Except PyErr (List (Option (ℝ × ℝ))) × Option Transforms :=
  let s := getTransforms cache load
  (do let t ← s.1
      let c ← lookup t p
      return g.map fun q => c.map fun c => applyInverse c q.1 q.2, s.2)

/-- A star: petal location and pixel coordinates. -/
structure Star where
  petal : ℤ
  pix : ℝ × ℝ

/-- `x_fp[ii] = x`: put the values `v` into the places where the mask is true. -/
def putMask {α : Type} : List Bool → List α → List α → List α
  | true :: m, _ :: l, v :: vs => v :: putMask m l vs
  | true :: m, a :: l, [] => a :: putMask m l []
  | false :: m, a :: l, vs => a :: putMask m l vs
  | _, l, _ => l

/-- One pass of the loop of `all_gfa2fp` (fieldmodel.py lines 288-295). -/
noncomputable def petalStep (load : Except PyErr (List GRow)) (stars : List Star)
    (st : Except PyErr (List (Option (ℝ × ℝ))) × Option Transforms) (petal : ℤ) :
    Except PyErr (List (Option (ℝ × ℝ))) × Option Transforms :=
  match st.1 with
  | .error e => (.error e, st.2)
  | .ok out =>
    let r := gfa2fp st.2 load petal ((stars.filter fun s => s.petal = petal).map (·.pix))
    match r.1 with
    | .ok v => (.ok (putMask (stars.map fun s => decide (s.petal = petal)) out v), r.2)
    | .error .keyError => (.ok out, r.2)
    | .error e => (.error e, r.2)

/-- `FieldModel.all_gfa2fp` (fieldmodel.py lines 281-297). -/
noncomputable def allGfa2fp (cache : Option Transforms) (load : Except PyErr (List GRow)) (stars : List Star) :
    Except PyErr (List (Option (ℝ × ℝ))) × Option Transforms :=
  (Spotmatch.unique (stars.map (·.petal))).foldl (petalStep load stars) (.ok (stars.map fun _ => some (0, 0)), cache)

end Verif.Model.Gfa2fp
