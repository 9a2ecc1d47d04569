import Verif.Py.Vec
import Verif.Model.Xy2tp

/-!
# Model of `py/desimeter/transform/pos2ptl.py`

Every argument is taken after `_to_numpy` / `_to_list` (lines 360-380): a
scalar is a one-element list.  (Integer arrays and 2-d arrays are not modelled.)
-/

namespace Verif.Model.Pos2ptl
open Verif.Py Verif.Model.Xy2tp

/-- `_default_t_int_range` and `_default_p_int_range` (pos2ptl.py lines 77-78). -/
noncomputable def defaultT : ℝ × ℝ := (-180 + epsilon, 180)
noncomputable def defaultP : ℝ × ℝ := (-20, 200)

/-- `_add_offset` (pos2ptl.py lines 382-386). -/
noncomputable def addOffset (u offset : List ℝ) : Except PyErr (List ℝ) :=
  bcast2 (· + ·) u offset

/-- `flat2loc` (pos2ptl.py lines 98-114) and `ext2int` (lines 215-231): the same code. -/
noncomputable def flat2loc (u offset : List ℝ) : Except PyErr (List ℝ) :=
  addOffset u (offset.map (fun o => -o))

/-- `ext2int` (pos2ptl.py lines 215-231). -/
noncomputable def ext2int (u offset : List ℝ) : Except PyErr (List ℝ) :=
  addOffset u (offset.map (fun o => -o))

/-- `loc2flat` (pos2ptl.py lines 116-131). -/
noncomputable def loc2flat (u offset : List ℝ) : Except PyErr (List ℝ) := addOffset u offset

/-- `int2ext` (pos2ptl.py lines 233-248). -/
noncomputable def int2ext (u offset : List ℝ) : Except PyErr (List ℝ) := addOffset u offset

/-- `_extend_list` (pos2ptl.py lines 388-392). -/
def extendList {α : Type*} (L : List α) (n : Nat) : Except PyErr (List α) :=
  if L.length ≠ n then
    match L with
    | [] => .error .indexError
    | a :: _ => .ok (List.replicate n a)
  else .ok L

/-- `ext_ranges` of one point (pos2ptl.py lines 175-178). -/
noncomputable def extRanges (tOff pOff : ℝ) : Ranges :=
  ⟨(defaultT.1 + tOff, defaultT.2 + tOff), (defaultP.1 + pOff, defaultP.2 + pOff)⟩

/-- `loc2ext` (pos2ptl.py lines 133-195). -/
noncomputable def loc2ext (x y r1 r2 tOff pOff : List ℝ) (tGuess : List (Option ℝ))
    (tol : List ℝ) : Except PyErr (List ℝ × List ℝ × List Bool) := do
  let n := x.length
  let r1 ← extendList r1 n
  let r2 ← extendList r2 n
  let tOff ← extendList tOff n
  let pOff ← extendList pOff n
  let tGuess ← extendList tGuess n
  let tol ← extendList tol n
  let out ← forRange n (fun i => do
    let rg := extRanges (← getIdx tOff i) (← getIdx pOff i)
    xy2tp (← getIdx x i) (← getIdx y i) (← getIdx r1 i) (← getIdx r2 i) rg
      (← getIdx tGuess i) (← getIdx tol i))
  return (out.map (·.1.1), out.map (·.1.2), out.map (·.2))

/-- `ext2loc` (pos2ptl.py lines 197-213). -/
noncomputable def ext2loc (t p r1 r2 : List ℝ) : Except PyErr (List ℝ × List ℝ) := do
  let t' := t.map radians
  let tp ← bcast2 (· + ·) t' (p.map radians)
  let x ← bcast2 (· + ·) (← bcast2 (· * ·) r1 (t'.map Real.cos)) (← bcast2 (· * ·) r2 (tp.map Real.cos))
  let y ← bcast2 (· + ·) (← bcast2 (· * ·) r1 (t'.map Real.sin)) (← bcast2 (· * ·) r2 (tp.map Real.sin))
  return (x, y)

/-- `int2loc` (pos2ptl.py lines 305-315). -/
noncomputable def int2loc (t p r1 r2 tOff pOff : List ℝ) : Except PyErr (List ℝ × List ℝ) := do
  let te ← int2ext t tOff
  let pe ← int2ext p pOff
  ext2loc te pe r1 r2

/-- `loc2int` (pos2ptl.py lines 317-333); `none` is `t_int_guess=None`. -/
noncomputable def loc2int (x y r1 r2 tOff pOff : List ℝ) (tGuess : Option (List ℝ))
    (tol : List ℝ) : Except PyErr (List ℝ × List ℝ × List Bool) := do
  let g : List (Option ℝ) ← match tGuess with
    | none => pure [none]
    | some g => do pure ((← int2ext g tOff).map some)
  let (te, pe, unreach) ← loc2ext x y r1 r2 tOff pOff g tol
  let ti ← ext2int te tOff
  let pi ← ext2int pe pOff
  return (ti, pi, unreach)

/-- `delta_angle` for one element (pos2ptl.py lines 292-303). -/
noncomputable def deltaAngle1 (start final direction : ℝ) : ℝ :=
  let natural := final - start
  let dir0 := sign direction
  let dir := if dir0 = 0 then sign natural else dir0
  let delta := if dir ≠ sign natural then fmod natural (dir * 360) else natural
  if fmod natural 360 = 0 then |natural| * dir else delta

/-- `delta_angle` on arrays (pos2ptl.py lines 292-303).  The boolean mask
`zero_dir` has the length of the broadcast of `u_start` and `direction`, the
array it indexes the length of the broadcast of `u_start` and `u_final`;
numpy raises `IndexError` when they differ. -/
noncomputable def deltaAngle (start final direction : List ℝ) : Except PyErr (List ℝ) := do
  let dir ← bcast2 (fun (_ d : ℝ) => d) start direction
  let natural ← bcast2 (fun s f => (s, f)) start final
  if dir.length ≠ natural.length then .error .indexError
  else .ok (List.zipWith (fun sf d => deltaAngle1 sf.1 sf.2 d) natural dir)

end Verif.Model.Pos2ptl
