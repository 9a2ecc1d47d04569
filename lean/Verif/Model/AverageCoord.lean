import Verif.Model.Match
import Verif.Model.SimpleCorr

/-!
# Model of `py/desimeter/averagecoord.py`

The table is represented by the coordinates `(x, y)` of its rows in the columns `xkey`, `ykey`
(no other column is touched; the first table is modified in place and returned).  The printed
statistics are not modelled.
-/

namespace Verif.Model.AverageCoord
open Verif.Py Verif.Model.Match Verif.Model.SimpleCorr

/-- `np.argsort` and the KD tree query used by `match_same_system`. -/
structure Env where
  argsort : List (WithTop ℝ) → List ℕ
  nearest : {m : ℕ} → (Fin m → ℝ × ℝ) → 0 < m → ℝ × ℝ → Fin m

/-- `match_same_system(x1,y1,x2,y2)` on lists: for each row index (`none` is -1) and distance. -/
noncomputable def matchLists (env : Env) (l1 l2 : List (ℝ × ℝ)) : List (Option ℕ × WithTop ℝ) :=
  let r := matchSame env.argsort (env.nearest l2.get) l1.get l2.get true
  List.ofFn fun i => (r.1 i, r.2 i)

/-- `x1,y1`, `indices` and `xx,yy` after some tables. -/
structure State where
  cur : List (ℝ × ℝ)
  idx : List ℕ
  cols : List (List (ℝ × ℝ))

/-- `indices_1` and `indices_2` after the selection of lines 33-36 (there with the limit 5). -/
noncomputable def okPairs (lim : ℝ) (m : List (Option ℕ × WithTop ℝ)) : List (ℕ × ℕ) :=
  m.zipIdx.filterMap fun e =>
    match e.1.1 with
    | some j => if e.1.2 < (lim : WithTop ℝ) then some (e.2, j) else none
    | none => none

/-- One further table (lines 31-52). -/
noncomputable def step (env : Env) (st : State) (t2 : List (ℝ × ℝ)) : Except PyErr State := do
  let ps := okPairs 5 (matchLists env st.cur t2)
  let cur := ps.map fun p => st.cur.getD p.1 (0, 0)
  let x2 := ps.map fun p => t2.getD p.2 (0, 0)
  let corr ← fit fresh (List.zipWith (fun a b : ℝ × ℝ => ⟨a.1, a.2, b.1, b.2⟩) x2 cur)
  return { cur := cur, idx := ps.map fun p => st.idx.getD p.1 0,
           cols := (st.cols.map fun c => ps.map fun p => c.getD p.1 (0, 0)) ++
             [x2.map fun q => apply corr q.1 q.2] }

/-- `np.mean(xx,axis=0)`, `np.mean(yy,axis=0)` at one row (lines 58-59). -/
noncomputable def meanAt (cols : List (List (ℝ × ℝ))) (k : ℕ) : ℝ × ℝ :=
  (mean (cols.map fun c => (c.getD k (0, 0)).1), mean (cols.map fun c => (c.getD k (0, 0)).2))

/-- `average_coordinates` (lines 5-67): the coordinates of the returned table.  Without tables
`np.vstack` raises ValueError. -/
noncomputable def average (env : Env) : List (List (ℝ × ℝ)) → Except PyErr (List (ℝ × ℝ))
  | [] => .error .valueError
  | t :: ts => do
    let st ← ts.foldlM (step env) { cur := t, idx := List.range t.length, cols := [t] }
    return (st.idx.zipIdx).foldl (fun out e => out.set e.1 (meanAt st.cols e.2)) t

end Verif.Model.AverageCoord
