import Verif.Py.Real
import Mathlib.Data.Fintype.Basic
import Mathlib.Data.Real.Sqrt
import Mathlib.Order.WithBot
import Mathlib.Data.List.FinRange

/-!
# Model of `py/desimeter/match.py` (lines 62-202) and of `match` in
`py/desimeter/match_positioners.py` (lines 25-35)

Arrays of length `n` are functions on `Fin n`.  `scipy`'s KD-tree query is a parameter that
returns the index of a nearest entry; `np.argsort` (which is not stable) is a parameter that
returns some sorting permutation.  Index arrays use `none` for -1.
-/

namespace Verif.Model.Match
open Verif.Py

/-- `np.sum((a-b)**2)**0.5` for points of the plane: the distance reported by the tree. -/
noncomputable def dist2 (p q : ℝ × ℝ) : ℝ := Real.sqrt ((p.1 - q.1) ^ 2 + (p.2 - q.2) ^ 2)

/-- Result of a KD-tree query with `k=1`: distance and index.  For an empty tree scipy
reports an infinite distance and the index `n = 0`. -/
noncomputable def query {m : ℕ} (nearest : 0 < m → ℝ × ℝ → Fin m) (xy2 : Fin m → ℝ × ℝ) (p : ℝ × ℝ) : WithTop ℝ × ℕ :=
  if h : 0 < m then (dist2 p (xy2 (nearest h p)), nearest h p) else (⊤, 0)

/-- Values of `indices_2` (`none` is -1), as `np.unique` lists them. -/
def uniqueVals {n : ℕ} (idx : Fin n → Option ℕ) : List ℕ :=
  (pySort id ((List.finRange n).filterMap idx)).dedup

/-- One step of the loop of `match_same_system` (lines 128-132). -/
def dropFar {n : ℕ} (argsort : List (WithTop ℝ) → List ℕ) (d : Fin n → WithTop ℝ) (idx : Fin n → Option ℕ)
    (i2 : ℕ) : Fin n → Option ℕ :=
  let jj := (List.finRange n).filter fun j => idx j = some i2
  if jj.length > 1 then
    let kk := argsort (jj.map d)
    let rem := kk.tail.filterMap fun k => jj[k]?
    fun j => if j ∈ rem then none else idx j
  else idx

/-- `match_same_system` (lines 102-135): `indices_2` and `distances` (`⊤` is `np.inf`). -/
noncomputable def matchSame {n m : ℕ} (argsort : List (WithTop ℝ) → List ℕ) (nearest : 0 < m → ℝ × ℝ → Fin m)
    (xy1 : Fin n → ℝ × ℝ) (xy2 : Fin m → ℝ × ℝ) (remove_duplicates : Bool) :
    (Fin n → Option ℕ) × (Fin n → WithTop ℝ) :=
  let distances := fun i => (query nearest xy2 (xy1 i)).1
  let indices : Fin n → Option ℕ := fun i => some (query nearest xy2 (xy1 i)).2
  let indices' :=
    if remove_duplicates then
      let u := uniqueVals indices
      let n_duplicates : ℤ := n - u.length
      if n_duplicates > 0 then u.foldl (dropFar argsort distances) indices else indices
    else indices
  (indices', fun i => if indices' i = none then ⊤ else distances i)

/-! ### Triangles -/

/-- Pairs of a list, in the order of the loops `for j`, `for k > j`. -/
def pairs {α : Type*} : List α → List (α × α)
  | [] => []
  | a :: l => l.map (fun b => (a, b)) ++ pairs l

/-- Triples of a list, in the order of the loops over `i < j < k` (lines 83-99). -/
def triples {α : Type*} : List α → List (α × α × α)
  | [] => []
  | a :: l => (pairs l).map (fun bc => (a, bc.1, bc.2)) ++ triples l

/-- The three shape properties of a triangle (lines 93-98): ratio of the longest to the
shortest side, cosine of the angle at the first vertex, cosine of the first side.
Degenerate triangles give NaN in the code (here 0). -/
noncomputable def descriptor (a b c : ℝ × ℝ) : ℝ × ℝ × ℝ :=
  let l01 := (b.1 - a.1) ^ 2 + (b.2 - a.2) ^ 2
  let l12 := (c.1 - b.1) ^ 2 + (c.2 - b.2) ^ 2
  let l02 := (a.1 - c.1) ^ 2 + (a.2 - c.2) ^ 2
  (Real.sqrt (max (max l01 l12) l02 / min (min l01 l12) l02),
   ((b.1 - a.1) * (c.1 - a.1) + (b.2 - a.2) * (c.2 - a.2)) /
     Real.sqrt (((b.1 - a.1) ^ 2 + (b.2 - a.2) ^ 2) * ((c.1 - a.1) ^ 2 + (c.2 - a.2) ^ 2)),
   (b.1 - a.1) / Real.sqrt ((b.1 - a.1) ^ 2 + (b.2 - a.2) ^ 2))

/-- A triangle: the indices of its vertices. -/
abbrev Tri (n : ℕ) := Fin n × Fin n × Fin n

/-- `compute_triangles_with_fixed_orientation` (lines 62-100); `ordering` is
`np.argsort(x)`. -/
noncomputable def triangles {n : ℕ} (ordering : List (Fin n)) (xy : Fin n → ℝ × ℝ) : List (Tri n × (ℝ × ℝ × ℝ)) :=
  (triples ordering).map fun t => (t, descriptor (xy t.1) (xy t.2.1) (xy t.2.2))

/-- Distance of two descriptors. -/
noncomputable def dist3 (p q : ℝ × ℝ × ℝ) : ℝ :=
  Real.sqrt ((p.1 - q.1) ^ 2 + (p.2.1 - q.2.1) ^ 2 + (p.2.2 - q.2.2) ^ 2)

/-- A matched pair of triangles with its distance. -/
abbrev Pair (n m : ℕ) := Tri n × Tri m × ℝ

/-- The pair made of a triangle of the first catalogue and the most similar one of the second
(lines 168-169, 181-182). -/
noncomputable def pairOf {n m : ℕ} (t2 : List (Tri m × (ℝ × ℝ × ℝ)))
    (nearest : List (ℝ × ℝ × ℝ) → (ℝ × ℝ × ℝ) → ℕ) (t : Tri n × (ℝ × ℝ × ℝ)) : Except PyErr (Pair n m) :=
  match t2[nearest (t2.map Prod.snd) t.2]? with
  | some u => .ok (t.1, u.1, dist3 t.2 u.2)
  | none => .error .indexError

/-- `np.any((indices_2[k1]>=0)&(indices_2[k1]!=k2))` (line 185). -/
def conflict {n m : ℕ} (idx : Fin n → Option (Fin m)) (k1 : Tri n) (k2 : Tri m) : Bool :=
  let bad (i : Fin n) (j : Fin m) : Bool := (idx i).isSome && decide (idx i ≠ some j)
  bad k1.1 k2.1 || bad k1.2.1 k2.2.1 || bad k1.2.2 k2.2.2

/-- `a[k1] = v` for three indices. -/
def set3 {n : ℕ} {α : Type*} (f : Fin n → α) (k : Tri n) (v : α × α × α) : Fin n → α :=
  Function.update (Function.update (Function.update f k.1 v.1) k.2.1 v.2.1) k.2.2 v.2.2

/-- The loop over ranked pairs (lines 179-193). -/
def pairLoop {n m : ℕ} : List (Pair n m) → (Fin n → Option (Fin m)) → (Fin n → ℝ) →
    (Fin n → Option (Fin m)) × (Fin n → ℝ)
  | [], idx, d => (idx, d)
  | (k1, k2, dist) :: rest, idx, d =>
    if conflict idx k1 k2 then pairLoop rest idx d else
    let idx' := set3 idx k1 (some k2.1, some k2.2.1, some k2.2.2)
    let d' := set3 d k1 (dist, dist, dist)
    if ∀ i, (idx' i).isSome = true then (idx', d') else pairLoop rest idx' d'

/-- The final loop (lines 196-200). -/
def dropDup {n m : ℕ} (idx : Fin n → Option (Fin m)) : Fin n → Option (Fin m) :=
  ((List.finRange m).filter fun j => ∃ i, idx i = some j).foldl
    (fun idx j => if ((List.finRange n).filter fun i => idx i = some j).length > 1
      then fun i => if idx i = some j then none else idx i else idx) idx

/-- `match_arbitrary_translation_dilatation` (lines 137-202).  `ord1`, `ord2` are the two
`np.argsort(x)`, `nearest` the KD-tree query over the triangles of the second catalogue,
`rank` is `np.argsort(triangle_distances)`. -/
noncomputable def matchArbitrary {n m : ℕ} (ord1 : List (Fin n)) (ord2 : List (Fin m))
    (nearest : List (ℝ × ℝ × ℝ) → (ℝ × ℝ × ℝ) → ℕ) (rank : List ℝ → List ℕ)
    (xy1 : Fin n → ℝ × ℝ) (xy2 : Fin m → ℝ × ℝ) : Except PyErr ((Fin n → Option (Fin m)) × (Fin n → ℝ)) := do
  let t1 := triangles ord1 xy1
  let t2 := triangles ord2 xy2
  let matched ← t1.mapM (pairOf t2 nearest)
  let ranked := (rank (matched.map fun p => p.2.2)).filterMap fun k => matched[k]?
  let r := pairLoop ranked (fun _ => none) (fun _ => 0)
  return (dropDup r.1, r.2)

/-! ### `match` of match_positioners.py -/

/-- `np.searchsorted(s, v)` (left side) for a sorted list. -/
def searchsorted {κ : Type*} [LinearOrder κ] (s : List κ) (v : κ) : ℕ := (s.filter fun x => x < v).length

/-- `match(a, b)` (match_positioners.py lines 25-35).  Keys are distinct when the sort
matters, so the sorting permutation is the only one.  `ind < len(a)` is "`sa[ind]` exists". -/
def keyMatch {κ : Type*} [LinearOrder κ] {n m : ℕ} (a : Fin n → κ) (b : Fin m → κ) :
    Except PyErr (List (Fin n) × List (Fin m)) :=
  let sa := pySort a (List.finRange n)
  if (pySort id (List.ofFn a)).dedup.length ≠ n then .error .valueError else
  let ind := fun j => searchsorted (sa.map a) (b j)
  let mb := (List.finRange m).filter fun j =>
    match sa[ind j]? with
    | some i => decide (a i = b j)
    | none => false
  .ok (mb.filterMap (fun j => sa[ind j]?), mb)

end Verif.Model.Match
