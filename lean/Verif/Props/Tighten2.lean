import Verif.Model.FitLoop
import Verif.Model.PosCoords
import Verif.Model.PerfMoves
import Verif.Model.MovesFvc
import Verif.Model.MovesDates
import Verif.Model.PerfRead
import Verif.Model.MoveFlags
import Verif.Model.Dbutil
import Verif.Model.FpMetrology
import Verif.Model.GfaPatch
import Verif.Model.RayTrace
import Verif.Model.PerfStats
import Verif.Model.RayFit
import Mathlib.Tactic.IntervalCases
import Mathlib.Tactic.Common

/-!
# Further statements added after mutation tests
-/

namespace Verif.Props
open Verif.Py

/-- **C71** The parameters of the drift of move sequence `s` are called `EPSILON_T_s` and `EPSILON_P_s`, `s` in decimal notation. -/
theorem C71_drift_names (s : ℕ) :
    Model.FitLoop.epsT s = "EPSILON_T_".toList ++ (toString s).toList ∧
    Model.FitLoop.epsP s = "EPSILON_P_".toList ++ (toString s).toList := by
  have h : (toString s).toList = Nat.toDigits 10 s := by
    show (Nat.repr s).toList = _
    unfold Nat.repr
    simp
  rw [h]
  exact ⟨rfl, rfl⟩

/-- **C77** Without an exposure a first petal that has no moves stops the script with an index error. -/
theorem C77_no_moves {ι : Type} (db : Model.PosCoords.Db ι) (al : Model.Ptl2fp.Dict) (r2z : ℝ → ℝ) (p : ℤ) (petals : List ℤ) (iter loc : ℤ)
    (hp : Model.Dbutil.getPetalLoc p = .ok loc) (h : db.moves p = []) :
    Model.PosCoords.run db al r2z (p :: petals) none iter = .error .indexError := by
  have e : Model.PosCoords.petalTable db none iter p = .error .indexError := by
    unfold Model.PosCoords.petalTable Model.PosCoords.query
    rw [hp, h]
    rfl
  unfold Model.PosCoords.run
  rw [List.mapM_cons, e]
  rfl

example : Model.Dbutil.getPetalLoc 4 = .ok 0 := rfl

/-- **C84** A component of the correction that is not a number makes the same component of the requested position not a number; for commands in
the coordinates of the observer, which are rotated, both components. -/
theorem C84_not_a_number (coord : PyStr) (loc : ℤ) (prev : ℝ × ℝ) (d : Option ℝ × Option ℝ) :
    ((Model.PerfMoves.corrected coord loc prev d).1 = none ↔ d.1 = none ∨ coord = "obsdXdY".toList ∧ d.2 = none) ∧
    ((Model.PerfMoves.corrected coord loc prev d).2 = none ↔ d.2 = none ∨ coord = "obsdXdY".toList ∧ d.1 = none) := by
  have e : ("obsdXdY".toList : PyStr) = ['o', 'b', 's', 'd', 'X', 'd', 'Y'] := rfl
  unfold Model.PerfMoves.corrected
  rw [e]
  generalize (['o', 'b', 's', 'd', 'X', 'd', 'Y'] : PyStr) = w
  obtain ⟨_ | dx, _ | dy⟩ := d
  · simp
  · by_cases h : coord = w <;> simp [h]
  · by_cases h : coord = w <;> simp [h]
  · simp

/-- **C81** When no selected image has a file of measurements and none can be processed the script stops with a value error. -/
theorem C81_no_table {ι : Type} (head : PyStr → Option (Option ℤ × Option ℤ)) (files : List PyStr) (ids iters : Option (List Model.MovesFvc.Item))
    (dir : PyStr) (proc : PyStr → Option (List (Model.MovesFvc.Spot ι))) (fs : Model.MovesFvc.Files ι) (devCol : Bool) (met : List (ℤ × ι))
    (h : ∀ i ∈ Model.MovesFvc.selectImages ids iters (Model.MovesFvc.images head files),
      fs (Model.MovesFvc.dataName dir i.file) = none ∧ proc i.file = none) :
    Model.MovesFvc.measurements head files ids iters dir proc fs devCol met = .error .valueError := by
  have e : ∀ l : List Model.MovesFvc.Img, (∀ i ∈ l, fs (Model.MovesFvc.dataName dir i.file) = none ∧ proc i.file = none) →
      Model.MovesFvc.process dir proc fs l = (fs, []) := by
    intro l
    induction l with
    | nil => intro _; rfl
    | cons i l ih =>
      intro h
      unfold Model.MovesFvc.process
      rw [(h i List.mem_cons_self).1, (h i List.mem_cons_self).2]
      exact ih fun j hj => h j (List.mem_cons_of_mem _ hj)
  unfold Model.MovesFvc.measurements
  rw [e _ h]
  rfl

/-- **C82** The script and the function for petals of the package agree about the location of every petal but number 0, for which only the
function knows one; for all other numbers both end with a key error. -/
theorem C82_petals_agree (id : ℕ) (h : id ≠ 0) : Model.MovesDates.petalLoc id = Model.Dbutil.getPetalLoc id := by
  by_cases h' : id ≤ 11
  · interval_cases id <;> first | exact absurd rfl h | rfl
  · have e : Model.MovesDates.petalLoc id = .error .keyError := by
      unfold Model.MovesDates.petalLoc
      split <;> first | omega | rfl
    have e2 : Model.Dbutil.petalId2loc =
        [(2, 7), (3, 3), (4, 0), (5, 1), (6, 2), (7, 8), (8, 4), (9, 9), (10, 5), (11, 6), (1, 0), (0, 0)] := rfl
    rw [e]
    unfold Model.Dbutil.getPetalLoc
    have e3 : Model.Dbutil.petalId2loc.get? (id : ℤ) = none := by
      rw [e2]
      simp only [Dict.get?]
      repeat rw [if_neg (by omega)]
    rw [e3]

/-- **C83** The names of flags used for the performance are those of the positioner flags of the package. -/
theorem C83_flags_agree : Model.PerfRead.flagDefs = Model.MoveFlags.posflagsDefs := rfl

/-- **C79** A positioner or fiducial whose location is not in the table of identifiers stops the script with a key error. -/
theorem C79_unknown_location {π τ : Type} (table : List (Model.FpMetrology.Idx τ)) (r : Model.FpMetrology.Row π) (l : ℤ)
    (h : r.kind = .pos ∨ r.kind = .fif ∨ r.kind = .gif) (hl : r.loc = some l) (ht : ∀ x ∈ table, 1000 * (x.ploc : ℤ) + x.dloc ≠ l) :
    Model.FpMetrology.idsFor table r = .error .keyError := by
  have e : table.reverse.find? (fun x => decide (1000 * (x.ploc : ℤ) + x.dloc = l)) = none := by
    rw [List.find?_eq_none]
    intro x hx
    rw [decide_eq_true_eq]
    exact ht x (List.mem_reverse.1 hx)
  unfold Model.FpMetrology.idsFor Model.FpMetrology.hasIds
  rw [if_pos (by simpa using h), hl]
  dsimp only
  unfold Model.FpMetrology.idsOf
  rw [e]
  rfl

/-- **C80** There are ten petals: a larger number is a key error. -/
theorem C80_unknown_petal (p : ℕ) : (∃ id, Model.GfaPatch.petalId p = .ok id) ∧ p < 10 ∨ Model.GfaPatch.petalId p = .error .keyError ∧ 10 ≤ p := by
  by_cases h : p < 10
  · left
    refine ⟨?_, h⟩
    interval_cases p
    all_goals exact ⟨_, rfl⟩
  · right
    refine ⟨?_, by omega⟩
    obtain ⟨k, rfl⟩ : ∃ k, p = k + 10 := ⟨p - 10, by omega⟩
    rfl

/-- **C82** A move for which there is no calibration before it stops the script with an index error, unless calibrations are not wanted. -/
theorem C82_no_calibration {γ : Type} (calibs : List (Model.MovesDates.Calib γ)) (t : ℤ) (h : ∀ c ∈ calibs, t ≤ c.t) :
    Model.MovesDates.calibOf false calibs t = .error .indexError ∧ Model.MovesDates.calibOf true calibs t = .ok none := by
  have e : (calibs.filter fun c => decide (c.t < t)) = [] := by
    rw [List.filter_eq_nil_iff]
    intro c hc
    have := h c hc
    rw [decide_eq_true_eq]
    omega
  constructor
  · unfold Model.MovesDates.calibOf Model.MovesDates.lastCalib
    rw [e]
    rfl
  · rfl

/-- **C84** No moves at all are an index error. -/
theorem C84_empty {ρ : Type} (n : Model.PerfMoves.Num) : Model.PerfMoves.identify n ([] : List (Model.PerfMoves.Row ρ)) = .error .indexError := rfl

/-- **C84** Corrections that are not in the coordinates of the observer are added component by component to the position of the row before; one
that is not a number does not affect the other component. -/
theorem C84_components (coord : PyStr) (loc : ℤ) (prev : ℝ × ℝ) (d : Option ℝ × Option ℝ) (h : coord ≠ "obsdXdY".toList) :
    Model.PerfMoves.corrected coord loc prev d = (d.1.map (prev.1 + ·), d.2.map (prev.2 + ·)) := by
  unfold Model.PerfMoves.corrected Model.PerfMoves.turn
  obtain ⟨_ | dx, _ | dy⟩ := d
  · rfl
  · simp only [if_neg h]; rfl
  · simp only [if_neg h]; rfl
  · simp only [if_neg h]; rfl

example : ("poslocdXdY".toList : PyStr) ≠ "obsdXdY".toList := by decide

/-- **C86** The statistics of a list of errors end in an error exactly for an empty list, with `ValueError`. -/
theorem C86_empty (l : List ℝ) (e : PyErr) : Model.PerfStats.stats l = .error e ↔ l = [] ∧ e = .valueError := by
  cases l with
  | nil => exact ⟨fun h => ⟨rfl, (Except.error.inj h).symm⟩, fun h => by rw [h.2]; rfl⟩
  | cons a t => exact ⟨fun h => (nomatch h), fun h => (nomatch h.1)⟩

/-- **C95** (finding). At the edge of the conic, where the point a little ahead (or behind) is not on it, the slope used in Newton's method is
taken as if the surface met the ray there. -/
theorem C95_edge (S : RayTrace.Surf) (r : RayTrace.Ray) (d g : ℝ) :
    (RayTrace.func S r (d + 0.00001) = none → RayTrace.func S r (d - 0.00001) = some g →
      RayTrace.deriv S r d = (0 - g) / 0.00002) ∧
    (RayTrace.func S r (d + 0.00001) = some g → RayTrace.func S r (d - 0.00001) = none →
      RayTrace.deriv S r d = (g - 0) / 0.00002) := by
  unfold RayTrace.deriv
  constructor <;> intro h1 h2 <;> simp only [h1, h2, Option.getD_none, Option.getD_some] <;> norm_num

/-- **C98** (columns). The fit of the table of run.py uses the two angles of the corrector, the tangent plane coordinates and the
first two coordinates on the focal plane, row by row. -/
theorem C98_columns (out : List RayTrace.OutRow) (i : ℕ) (r : RayTrace.OutRow) (h : out[i]? = some r) :
    ∃ q, (out.map Model.RayFit.ofRun)[i]? = some q ∧ q.adc1 = r.adc1 ∧ q.adc2 = r.adc2 ∧ q.tan.1 = r.xtan ∧ q.tan.2 = r.ytan ∧
      q.fp.1 = r.fp.x ∧ q.fp.2 = r.fp.y := by
  refine ⟨Model.RayFit.ofRun r, ?_, rfl, rfl, rfl, rfl, rfl, rfl⟩
  rw [List.getElem?_map, h]
  rfl

/-- **C98** The fit of a table without rows is a ValueError. -/
theorem C98_empty : Model.RayFit.fit [] = .error .valueError := by
  unfold Model.RayFit.fit
  rw [if_pos rfl]

end Verif.Props
