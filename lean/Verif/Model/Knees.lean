import Verif.Model.MatchPositioners
import Verif.Model.Ptl2fp
import Verif.Model.Xy2qs
import Verif.Py.Str

/-!
# bin/analyze_bright_image (lines 52-136)

The script finds the knees of the positioners (the centres of rotation of the outer arm) from a front illuminated image and joins the metrology.
`process_fvc` and `detect_phi_arms` (C55) come before: a spot here has its angle, in radians. The fit of the transform (C61, C63) is a
parameter `refit`; the transform it gives is a pair of functions. Angles that are NaN are not modelled. Pixels and metrology are
finite numbers, and a query of the tree with a position that is not finite is a ValueError. `int` of petals is left out.
-/

namespace Verif.Model.Knees
open Verif.Py Verif.Model.MatchPositioners Verif.Model.Match
open Verif.Model.Ptl2fp (V3)

variable {δ μ : Type}

/-- A spot: pixel, focal plane position of the first processing, angle and the other columns. -/
structure Tip (δ : Type) where
  pix : ℝ × ℝ
  fp : ℝ × ℝ
  angle : ℝ
  rest : δ

/-- A row of the metrology: type, position, petal and the other columns copied. -/
structure Dev (μ : Type) where
  type : PyStr
  fp : ℝ × ℝ
  petal : ℕ
  rest : μ

/-- A transform between pixels and focal plane. -/
structure Transfo where
  fvc2fp : ℝ × ℝ → ℝ × ℝ
  fp2fvc : ℝ × ℝ → ℝ × ℝ

/-- Options; `minccf` is an option of the script. -/
structure Args where
  minccf : ℝ
  xpix : Option PyStr
  ypix : Option PyStr

/-- `[float(v) for v in s.split(",")]`. -/
noncomputable def floats (parse : PyStr → Option ℝ) (s : PyStr) : Except PyErr (List ℝ) :=
  (split [','] s).mapM fun v =>
    match parse v with
    | some x => .ok x
    | none => .error .valueError

open Classical in
/-- Line 57 for one spot and pixel. -/
noncomputable def near (s : Tip δ) (p : ℝ × ℝ) : Bool := decide (Real.sqrt ((s.pix.1 - p.1) ^ 2 + (s.pix.2 - p.2) ^ 2) < 10)

/-- Lines 52-58. -/
noncomputable def selectPix (parse : PyStr → Option ℝ) (a : Args) (spots : List (Tip δ)) : Except PyErr (List (Tip δ)) :=
  match a.xpix with
  | none => .ok spots
  | some xs => do
    let x ← floats parse xs
    let y ← match a.ypix with
      | none => .error .attributeError
      | some ys => floats parse ys
    return spots.filter fun s => (x.zip y).any (near s)

/-- Lines 83-88. -/
noncomputable def pixToMm (tx : Transfo) (spots : List (Tip δ)) : ℝ :=
  let kx := |median (spots.map fun s => (tx.fvc2fp (s.pix.1 + 1, s.pix.2)).1 - (tx.fvc2fp s.pix).1)|
  let ky := |median (spots.map fun s => (tx.fvc2fp (s.pix.1, s.pix.2 + 1)).2 - (tx.fvc2fp s.pix).2)|
  Real.sqrt (kx * ky)

/-- Lines 90-93, in pixels. -/
noncomputable def knee (pixMm : ℝ) (s : Tip δ) : ℝ × ℝ :=
  let radius := 3 / pixMm
  (s.pix.1 + radius * Real.cos s.angle, s.pix.2 + radius * Real.sin s.angle)

/-- A row of the output. -/
structure Out (δ μ : Type) where
  tip : Tip δ
  kneePix : ℝ × ℝ
  kneeFp : ℝ × ℝ
  metroFp : ℝ × ℝ
  metroPix : ℝ × ℝ
  petal : ℕ
  rest : μ
  ptl : ℝ × ℝ
  qs : ℝ × ℝ
  flags : ℕ

/-- Lines 100-102. -/
def fibers (metrology : List (Dev μ)) : List (Dev μ) :=
  metrology.filter fun m => decide (m.type = "POS".toList ∨ m.type = "ETC".toList)

/-- Line 105: index of the device of a spot. -/
noncomputable def device {n m : ℕ} (r : (Fin n → Option ℕ) × (Fin n → WithTop ℝ)) (devs : Fin m → Dev μ) (i : Fin n) : Option (Dev μ) :=
  match r.1 i with
  | some j => if h : j < m then (if r.2 i < ((4 : ℝ) : WithTop ℝ) then some (devs ⟨j, h⟩) else none) else none
  | none => none

/-- Lines 92-98 and 107-131 for one spot with its device. -/
noncomputable def row (al : Ptl2fp.Dict) (r2z : ℝ → ℝ) (tx : Transfo) (pixMm : ℝ) (s : Tip δ) (d : Dev μ) : Except PyErr (Out δ μ) := do
  let k := knee pixMm s
  let p ← Ptl2fp.fp2ptl al d.petal (Ptl2fp.withZ r2z s.fp.1 s.fp.2)
  return ⟨s, k, tx.fvc2fp k, d.fp, tx.fp2fvc d.fp, d.petal, d.rest, (p 0, p 1), Xy2qs.xy2qs (p 0) (p 1), 4⟩

/-- Lines 52-131: the table written. -/
noncomputable def analyze (parse : PyStr → Option ℝ) (refit : List (Tip δ) → Except PyErr Transfo) (al : Ptl2fp.Dict) (r2z : ℝ → ℝ)
    (argsort : List (WithTop ℝ) → List ℕ) (nearest : (d : List (Dev μ)) → 0 < d.length → ℝ × ℝ → Fin d.length)
    (a : Args) (spots : List (Tip δ)) (metrology : List (Dev μ)) : Except PyErr (List (Out δ μ)) := do
  let spots ← selectPix parse a spots
  let tx ← refit spots
  let k := pixToMm tx spots
  if k = 0 then throw .valueError
  let devs := fibers metrology
  let r := matchSame argsort (nearest devs) (fun i : Fin spots.length => tx.fvc2fp (knee k (spots.get i))) (fun j => (devs.get j).fp) true
  let sel := (List.finRange spots.length).filterMap fun i => (device r devs.get i).map fun d => (spots.get i, d)
  sel.mapM fun p => row al r2z tx k p.1 p.2

end Verif.Model.Knees
