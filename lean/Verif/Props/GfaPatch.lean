import Verif.Model.GfaPatch
import Verif.Model.Dbutil
import Verif.Props.Gfa2fp
import Verif.Props.FpMetrology

/-!
# Property C80: camera corners from the star-based calibration (`bin/write_gfa_patch`)
-/

namespace Verif.Props.GfaPatch
open Verif.Py Verif.Model.GfaPatch Verif.Props.Gfa2fp
open Verif.Model.Ptl2fp (V3 ptl2fp fp2ptl withZ)
open Verif.Props.FpMetrology (bind_inv mapM_ok_of forall₂_mem forall₂_mem')

/-! ### What is expected -/

/-- The calibration from stars: focal plane position `o + gx u + gy v` of pixel `(gx, gy)`. -/
inductive Calib : ℕ → ℝ × ℝ → ℝ × ℝ → ℝ × ℝ → Prop where
  | p0 : Calib 0 (91.8290008897, -396.9957752088) (0.0142564754, 0.0046691204) (-0.0046540723, 0.0141891317)
  | p2 : Calib 2 (405.7272754413, -35.2976124185) (0.0000436514, 0.0150007008) (-0.0149327409, 0.0000343108)
  | p3 : Calib 3 (348.8824487879, 210.2297400065) (-0.0088595464, 0.0121055754) (-0.0120471442, -0.0088252019)
  | p5 : Calib 5 (-91.8627781345, 396.8617645949) (-0.0142609354, -0.0046561284) (0.0046420089, -0.0141934371)
  | p7 : Calib 7 (-405.7801509760, 35.4811212256) (-0.0000106187, -0.0150023601) (0.0149351226, -0.0000019735)
  | p8 : Calib 8 (-349.3793836387, -209.8801602520) (0.0087573071, -0.0121796381) (0.0121231345, 0.0087240329)

/-- Pixel of corner `i + 1` of a sensor of 2048 by 1032 pixels. -/
def pix : Fin 4 → ℝ × ℝ := ![(0, 0), (2047, 0), (2047, 1031), (0, 1031)]

/-- Position of a pixel in the calibration. -/
def starPos (o u v : ℝ × ℝ) (g : ℝ × ℝ) : ℝ × ℝ := (o.1 + g.1 * u.1 + g.2 * v.1, o.2 + g.1 * u.2 + g.2 * v.2)

/-- Normal of a sensor with sides along the calibration and heights `z` of its corners. -/
noncomputable def tilt (u v : ℝ × ℝ) (z : Fin 4 → ℝ) : ℝ × ℝ × ℝ :=
  normal (u.1, u.2, (z 1 - z 0) / 2047) (v.1, v.2, (z 2 - z 1) / 1031)

/-- Petals whose cameras were measured. -/
def Measured (p : ℕ) : Prop := p = 0 ∨ p = 1 ∨ p = 2 ∨ p = 4 ∨ p = 5 ∨ p = 6 ∨ p = 8 ∨ p = 9

instance (p : ℕ) : Decidable (Measured p) := inferInstanceAs (Decidable (_ ∨ _))

/-- Rows of the metrology about a corner of a camera. -/
def cornerRows (t : List MRow) (p : ℕ) (i : Fin 4) : List MRow :=
  t.filter fun r => decide (r.isGfa = true ∧ r.petal = p ∧ r.pin = (i : ℤ) + 1)

/-- Rows about a corner, of all measured cameras. -/
def measuredRows (t : List MRow) (i : Fin 4) : List MRow :=
  t.filter fun r => decide (r.isGfa = true ∧ Measured r.petal ∧ r.pin = (i : ℤ) + 1)

/-- Where a corner is before the calibration: measured, or average of the measured cameras taken to the petal. -/
def Before (al : Model.Ptl2fp.Dict) (r2z : ℝ → ℝ) (pkg met : List MRow) (p : ℕ) (i : Fin 4) (w : V3) : Prop :=
  if Measured p then ∃ r, cornerRows met p i = [r] ∧ w = r.fp
  else ∃ m : V3, (∀ k, m k * 8 = ((measuredRows pkg i).map fun r => r.ptl k).sum) ∧
    (∃ q, ptl2fp al p ![m 0, m 1, r2z (Real.sqrt (m 0 ^ 2 + m 1 ^ 2))] = .ok q ∧ w = ![q 0, q 1, m 2])

/-- The first three corners seen from above are on a line. -/
def Flat (w : Fin 4 → V3) : Prop :=
  (w 1 0 - w 0 0) * (w 2 1 - w 1 1) - (w 1 1 - w 0 1) * (w 2 0 - w 1 0) = 0

/-! ### Offsets and iteration -/

theorem offs_eq (x y z : Fin 4 → ℝ) : offs x y z =
    if (normal (x 1 - x 0, y 1 - y 0, z 1 - z 0) (x 2 - x 1, y 2 - y 1, z 2 - z 1)).2.2 = 0 then none
    else some (2.23 * (normal (x 1 - x 0, y 1 - y 0, z 1 - z 0) (x 2 - x 1, y 2 - y 1, z 2 - z 1)).1 /
        (normal (x 1 - x 0, y 1 - y 0, z 1 - z 0) (x 2 - x 1, y 2 - y 1, z 2 - z 1)).2.2,
      2.23 * (normal (x 1 - x 0, y 1 - y 0, z 1 - z 0) (x 2 - x 1, y 2 - y 1, z 2 - z 1)).2.1 /
        (normal (x 1 - x 0, y 1 - y 0, z 1 - z 0) (x 2 - x 1, y 2 - y 1, z 2 - z 1)).2.2) :=
  filterShift_eq ⟨[], 0, 0, x 0, y 0, z 0⟩ ⟨[], 0, 0, x 1, y 1, z 1⟩ ⟨[], 0, 0, x 2, y 2, z 2⟩

theorem offs_shift (x y z : Fin 4 → ℝ) (a b : ℝ) : offs (fun i => x i - a) (fun i => y i - b) z = offs x y z := by
  unfold offs
  simp only [sub_sub_sub_cancel_right]

theorem physical_eq (p : (Fin 4 → ℝ) × (Fin 4 → ℝ)) (z : Fin 4 → ℝ) (g : (Fin 4 → ℝ) × (Fin 4 → ℝ)) :
    physical p z g = if offs g.1 g.2 z = none then none else (offs p.1 p.2 z).map fun d => (fun i => p.1 i - d.1, fun i => p.2 i - d.2) := by
  have hnone : ∀ n, (turn p z)^[n] none = none := by
    intro n
    induction n with
    | zero => rfl
    | succ n ih => rw [Function.iterate_succ_apply]; exact ih
  have hsome : ∀ g d, offs g.1 g.2 z = some d → turn p z (some g) = some (fun i => p.1 i - d.1, fun i => p.2 i - d.2) := by
    intro g d h
    unfold turn
    show ((offs g.1 g.2 z) >>= _) = _
    rw [h]
    rfl
  have hbad : ∀ g, offs g.1 g.2 z = none → turn p z (some g) = none := by
    intro g h
    unfold turn
    show ((offs g.1 g.2 z) >>= _) = _
    rw [h]
    rfl
  unfold physical
  rw [Function.iterate_succ_apply]
  cases h : offs g.1 g.2 z with
  | none => rw [if_pos rfl, hbad g h, hnone]
  | some d =>
    rw [if_neg (by simp), hsome g d h]
    have hmv : ∀ d : ℝ × ℝ, offs (fun i => p.1 i - d.1) (fun i => p.2 i - d.2) z = offs p.1 p.2 z := fun d => offs_shift _ _ _ _ _
    cases hp : offs p.1 p.2 z with
    | none =>
      rw [Function.iterate_succ_apply, hbad _ (by rw [hmv, hp]), hnone]
      rfl
    | some e =>
      have hfix : ∀ (n : ℕ) (d : ℝ × ℝ), (turn p z)^[n + 1] (some (fun i => p.1 i - d.1, fun i => p.2 i - d.2)) =
          some (fun i => p.1 i - e.1, fun i => p.2 i - e.2) := by
        intro n
        induction n with
        | zero => intro d; exact hsome _ e (by rw [hmv, hp])
        | succ n ih =>
          intro d
          rw [Function.iterate_succ_apply, hsome _ e (by rw [hmv, hp])]
          exact ih e
      exact hfix 8 d

/-- **C80** The iteration does not depend on the positions it starts from (as long as they are not on a line): from the second turn on it
gives the positions of the calibration, shifted by the offsets for these positions and the measured heights. -/
theorem C80_fixed_point (p : (Fin 4 → ℝ) × (Fin 4 → ℝ)) (z : Fin 4 → ℝ) (g g' : (Fin 4 → ℝ) × (Fin 4 → ℝ))
    (hg : (g.1 1 - g.1 0) * (g.2 2 - g.2 1) - (g.2 1 - g.2 0) * (g.1 2 - g.1 1) ≠ 0)
    (hg' : (g'.1 1 - g'.1 0) * (g'.2 2 - g'.2 1) - (g'.2 1 - g'.2 0) * (g'.1 2 - g'.1 1) ≠ 0) :
    physical p z g = physical p z g' ∧ ∀ q, physical p z g = some q → turn p z (some q) = some q := by
  have h1 : ∀ g : (Fin 4 → ℝ) × (Fin 4 → ℝ), (g.1 1 - g.1 0) * (g.2 2 - g.2 1) - (g.2 1 - g.2 0) * (g.1 2 - g.1 1) ≠ 0 →
      offs g.1 g.2 z ≠ none := by
    intro g hg
    rw [offs_eq]
    split
    · rename_i hc; exact absurd hc hg
    · simp
  rw [physical_eq, physical_eq, if_neg (h1 g hg), if_neg (h1 g' hg')]
  refine ⟨rfl, ?_⟩
  intro q hq
  cases hp : offs p.1 p.2 z with
  | none => rw [hp] at hq; cases hq
  | some e =>
    rw [hp] at hq
    injection hq with hq
    subst hq
    unfold turn
    show ((offs (fun i => p.1 i - e.1) (fun i => p.2 i - e.2) z) >>= _) = _
    rw [offs_shift, hp]
    rfl

example : ∃ g : (Fin 4 → ℝ) × (Fin 4 → ℝ), (g.1 1 - g.1 0) * (g.2 2 - g.2 1) - (g.2 1 - g.2 0) * (g.1 2 - g.1 1) ≠ 0 :=
  ⟨(![0, 1, 1, 0], ![0, 0, 1, 1]), by simp⟩

/-! ### Calibration tables -/

theorem pinholeGfa_eq (i : Fin 4) : pinholeGfa i = pix i := by
  fin_cases i <;> simp [pinholeGfa, pix] <;> norm_num

theorem planar_eq {p : ℕ} {o u v : ℝ × ℝ} (h : Calib p o u v) :
    planar p = .ok (fun i => (starPos o u v (pix i)).1, fun i => (starPos o u v (pix i)).2) := by
  have key : ∀ cx cy : ℝ × ℝ × ℝ, coeffX p = some cx → coeffY p = some cy → o = (cx.1, cy.1) → u = (cx.2.1, cy.2.1) → v = (cx.2.2, cy.2.2) →
      planar p = .ok (fun i => (starPos o u v (pix i)).1, fun i => (starPos o u v (pix i)).2) := by
    rintro cx cy h1 h2 rfl rfl rfl
    unfold planar
    rw [h1, h2]
    dsimp only
    congr 1
    ext i
    · dsimp only; rw [pinholeGfa_eq]; simp only [evalPlane, starPos]; ring
    · dsimp only; rw [pinholeGfa_eq]; simp only [evalPlane, starPos]; ring
  cases h <;> exact key _ _ rfl rfl rfl rfl rfl

theorem tilt_ne {p : ℕ} {o u v : ℝ × ℝ} (h : Calib p o u v) (z : Fin 4 → ℝ) : (tilt u v z).2.2 ≠ 0 ∧ u.1 + v.2 ≠ 0 := by
  cases h <;> simp only [tilt, normal] <;> norm_num

theorem offs_calib {p : ℕ} {o u v : ℝ × ℝ} (h : Calib p o u v) (z : Fin 4 → ℝ) :
    offs (fun i => (starPos o u v (pix i)).1) (fun i => (starPos o u v (pix i)).2) z =
      some (2.23 / (tilt u v z).2.2 * (tilt u v z).1, 2.23 / (tilt u v z).2.2 * (tilt u v z).2.1) := by
  have hn := (tilt_ne h z).1
  have e : normal ((starPos o u v (pix 1)).1 - (starPos o u v (pix 0)).1, (starPos o u v (pix 1)).2 - (starPos o u v (pix 0)).2, z 1 - z 0)
      ((starPos o u v (pix 2)).1 - (starPos o u v (pix 1)).1, (starPos o u v (pix 2)).2 - (starPos o u v (pix 1)).2, z 2 - z 1) =
      (2047 * 1031 * (tilt u v z).1, 2047 * 1031 * (tilt u v z).2.1, 2047 * 1031 * (tilt u v z).2.2) := by
    simp only [normal, tilt, starPos, pix, Matrix.cons_val]
    ext
    · simp only; ring
    · simp only; ring
    · simp only; ring
  rw [offs_eq, e]
  dsimp only
  rw [if_neg (mul_ne_zero (by norm_num) hn)]
  congr 1
  ext
  · simp only; field_simp
  · simp only; field_simp

/-! ### Rows -/

/-- The columns of a row about corner `q.2 + 1` of the camera of petal `q.1`. -/
structure Good (al : Model.Ptl2fp.Dict) (r2z : ℝ → ℝ) (pkg met : List MRow) (q : ℕ × Fin 4) (r : PRow) : Prop where
  petal : r.petal = q.1
  pin : r.pin = (q.2 : ℤ) + 1
  id : Model.Dbutil.getPetalLoc r.petalId = .ok (q.1 : ℤ) ∧ 2 ≤ r.petalId
  device : [10, 5, 6, 2, 7, 8, 13, 1, 4, 3][q.1]? = some r.device
  fp : ∃ w : Fin 4 → V3, (∀ j, Before al r2z pkg met q.1 j (w j)) ∧ r.z = w q.2 2 ∧ (Flat w → r.fp = none) ∧
    (¬ Flat w → ∃ o u v, Calib q.1 o u v ∧ ∃ x y, r.fp = some (x, y) ∧
      (raised (x, y, r.z) (tilt u v fun j => w j 2)).1 = (starPos o u v (pix q.2)).1 ∧
      (raised (x, y, r.z) (tilt u v fun j => w j 2)).2.1 = (starPos o u v (pix q.2)).2)
  ptl : if Measured q.1 then r.ptl = none else ∀ f, r.fp = some f →
    ∃ v, fp2ptl al q.1 ![f.1, f.2, r2z (Real.sqrt (f.1 ^ 2 + f.2 ^ 2))] = .ok v ∧ r.ptl = some (v 0, v 1, r.z)
  nan : r.fp = none → r.ptl = none

theorem hasReal_eq (p : ℕ) : hasReal p = if p < 10 then .ok (decide (Measured p)) else .error .assertionError := by
  unfold hasReal
  by_cases h : p < 10
  · rw [if_pos h, if_pos (by simp only [List.mem_cons, List.not_mem_nil, or_false]; omega)]
    congr 1
    apply decide_eq_decide.2
    unfold Measured
    simp
  · rw [if_neg h, if_neg (by simp only [List.mem_cons, List.not_mem_nil, or_false]; omega)]

theorem realFlags_iff (pkg : List MRow) (l : List Bool) :
    realFlags pkg = .ok l ↔ (∀ r ∈ pkg, r.petal < 10) ∧ l = pkg.map fun r => decide (Measured r.petal) := by
  unfold realFlags
  rw [Gpm.mapM_iff]
  constructor
  · intro h
    induction h with
    | nil => exact ⟨by simp, rfl⟩
    | cons hab _ ih =>
      rw [hasReal_eq] at hab
      split at hab
      · rename_i hlt
        injection hab with hab
        refine ⟨?_, by rw [ih.2, ← hab]; rfl⟩
        intro r hr
        rcases List.mem_cons.1 hr with rfl | hr
        · exact hlt
        · exact ih.1 r hr
      · cases hab
  · rintro ⟨h, rfl⟩
    induction pkg with
    | nil => exact List.Forall₂.nil
    | cons r t ih =>
      refine List.Forall₂.cons ?_ (ih fun x hx => h x (List.mem_cons_of_mem _ hx))
      rw [hasReal_eq, if_pos (h r (by simp))]

theorem zip_filter (pkg : List MRow) (i : Fin 4) (f : MRow → ℝ) :
    ((pkg.zip (pkg.map fun r => decide (Measured r.petal))).filter fun q => decide (q.1.pin = (i : ℤ) + 1 ∧ q.1.isGfa = true ∧ q.2 = true)).map
      (fun q => f q.1) = (measuredRows pkg i).map f := by
  unfold measuredRows
  induction pkg with
  | nil => rfl
  | cons r t ih =>
    rw [List.map_cons, List.zip_cons_cons, List.filter_cons, List.filter_cons]
    by_cases h : r.isGfa = true ∧ Measured r.petal ∧ r.pin = (i : ℤ) + 1
    · rw [if_pos (by simp only [decide_eq_true_eq]; exact ⟨h.2.2, h.1, h.2.1⟩), if_pos (by simpa using h), List.map_cons, List.map_cons, ih]
    · rw [if_neg (by simp only [decide_eq_true_eq]; exact fun hc => h ⟨hc.2.1, hc.2.2, hc.1⟩), if_neg (by simpa using h), ih]

theorem ptlAvg_iff (pkg : List MRow) (i : Fin 4) (k : Fin 3) (m : ℝ) : ptlAvg pkg i k = .ok m ↔
    (∀ r ∈ pkg, r.petal < 10) ∧ (measuredRows pkg i).length = 8 ∧ m * 8 = ((measuredRows pkg i).map fun r => r.ptl k).sum := by
  unfold ptlAvg
  cases h : realFlags pkg with
  | error e =>
    constructor
    · intro h'; cases h'
    · rintro ⟨h1, -⟩
      have := (realFlags_iff pkg _).2 ⟨h1, rfl⟩
      rw [h] at this
      cases this
  | ok l =>
    obtain ⟨h1, rfl⟩ := (realFlags_iff pkg l).1 h
    have e1 := zip_filter pkg i fun r => r.ptl k
    have e2 := congrArg List.length e1
    rw [List.length_map, List.length_map] at e2
    show (if _ = 8 then _ else _) = _ ↔ _
    rw [e2, e1]
    constructor
    · intro h'
      split at h'
      · rename_i h8
        injection h' with h'
        refine ⟨h1, h8, ?_⟩
        rw [← h']
        unfold mean
        rw [List.length_map, h8]
        push_cast
        ring
      · cases h'
    · rintro ⟨-, h8, hm⟩
      rw [if_pos h8]
      congr 1
      unfold mean
      rw [List.length_map, h8, ← hm]
      push_cast
      ring

theorem realMetrology_iff (met : List MRow) (p : ℕ) (i : Fin 4) (hp : Measured p) (w : V3) :
    realMetrology met p i = .ok w ↔ ∃ r, cornerRows met p i = [r] ∧ w = r.fp := by
  have hlt : p < 10 := by unfold Measured at hp; omega
  unfold realMetrology
  rw [hasReal_eq, if_pos hlt, decide_eq_true hp]
  show (match met.filter (fun r => decide (r.pin = (i : ℤ) + 1 ∧ r.isGfa = true ∧ r.petal = p)) with | [r] => Except.ok r.fp | _ => .error PyErr.assertionError) = _ ↔ _
  have e : (met.filter fun r => decide (r.pin = (i : ℤ) + 1 ∧ r.isGfa = true ∧ r.petal = p)) = cornerRows met p i := by
    unfold cornerRows
    congr 1
    funext r
    apply decide_eq_decide.2
    tauto
  rw [e]
  rcases cornerRows met p i with _ | ⟨a, _ | ⟨b, l⟩⟩
  · constructor
    · intro h; cases h
    · rintro ⟨r, h, -⟩; cases h
  · constructor
    · intro h; injection h with h; exact ⟨a, rfl, h.symm⟩
    · rintro ⟨r, h, rfl⟩; injection h with h; rw [h]
  · constructor
    · intro h; cases h
    · rintro ⟨r, h, -⟩; cases h

theorem guess_iff (al : Model.Ptl2fp.Dict) (r2z : ℝ → ℝ) (pkg met : List MRow) (p : ℕ) (hp : p < 10) (i : Fin 4) (w : V3) :
    guess al r2z pkg met p i = .ok w ↔ Before al r2z pkg met p i w ∧
      (¬ Measured p → (∀ r ∈ pkg, r.petal < 10) ∧ (measuredRows pkg i).length = 8) := by
  unfold guess Before
  rw [hasReal_eq, if_pos hp]
  by_cases hm : Measured p
  · rw [decide_eq_true hm, if_pos hm]
    show realMetrology met p i = _ ↔ _
    rw [realMetrology_iff met p i hm]
    exact ⟨fun h => ⟨h, fun hn => absurd hm hn⟩, fun h => h.1⟩
  · rw [decide_eq_false hm, if_neg hm]
    show fpAvgGuess al r2z pkg p i = _ ↔ _
    constructor
    · intro h
      obtain ⟨x, hx, h⟩ := bind_inv h
      obtain ⟨y, hy, h⟩ := bind_inv h
      obtain ⟨z, hz, h⟩ := bind_inv h
      obtain ⟨q, hq, h⟩ := bind_inv h
      injection h with h
      obtain ⟨h1, h2, h3⟩ := (ptlAvg_iff pkg i 0 x).1 hx
      refine ⟨⟨![x, y, z], ?_, q, hq, h.symm⟩, fun _ => ⟨h1, h2⟩⟩
      intro k
      fin_cases k
      · exact h3
      · exact ((ptlAvg_iff pkg i 1 y).1 hy).2.2
      · exact ((ptlAvg_iff pkg i 2 z).1 hz).2.2
    · rintro ⟨⟨m, hm', q, hq, rfl⟩, h2⟩
      obtain ⟨h1, h8⟩ := h2 hm
      unfold fpAvgGuess
      rw [(ptlAvg_iff pkg i 0 (m 0)).2 ⟨h1, h8, hm' 0⟩, (ptlAvg_iff pkg i 1 (m 1)).2 ⟨h1, h8, hm' 1⟩,
        (ptlAvg_iff pkg i 2 (m 2)).2 ⟨h1, h8, hm' 2⟩]
      show (ptl2fp al p (withZ r2z (m 0) (m 1)) >>= _) = _
      rw [show withZ r2z (m 0) (m 1) = ![m 0, m 1, r2z (Real.sqrt (m 0 ^ 2 + m 1 ^ 2))] from rfl, hq]
      rfl

theorem four_iff {α : Type} (f : Fin 4 → Except PyErr α) (g : Fin 4 → α) : four f = .ok g ↔ ∀ i, f i = .ok (g i) := by
  unfold four
  constructor
  · intro h
    obtain ⟨a, ha, h⟩ := bind_inv h
    obtain ⟨b, hb, h⟩ := bind_inv h
    obtain ⟨c, hc, h⟩ := bind_inv h
    obtain ⟨d, hd, h⟩ := bind_inv h
    injection h with h
    subst h
    intro i
    fin_cases i
    · exact ha
    · exact hb
    · exact hc
    · exact hd
  · intro h
    rw [h 0, h 1, h 2, h 3]
    show Except.ok _ = Except.ok _
    congr 1
    funext i
    fin_cases i <;> rfl

theorem petal_calib {p : ℕ} (hp : p ∈ [0, 2, 3, 5, 7, 8]) : p < 10 ∧ ∃ o u v, Calib p o u v := by
  simp only [List.mem_cons, List.not_mem_nil, or_false] at hp
  rcases hp with rfl | rfl | rfl | rfl | rfl | rfl
  · exact ⟨by omega, _, _, _, Calib.p0⟩
  · exact ⟨by omega, _, _, _, Calib.p2⟩
  · exact ⟨by omega, _, _, _, Calib.p3⟩
  · exact ⟨by omega, _, _, _, Calib.p5⟩
  · exact ⟨by omega, _, _, _, Calib.p7⟩
  · exact ⟨by omega, _, _, _, Calib.p8⟩

theorem physical_calib {p : ℕ} {o u v : ℝ × ℝ} (h : Calib p o u v) (w : Fin 4 → V3) :
    physical (fun i => (starPos o u v (pix i)).1, fun i => (starPos o u v (pix i)).2) (fun i => w i 2) (fun i => w i 0, fun i => w i 1) =
      if (w 1 0 - w 0 0) * (w 2 1 - w 1 1) - (w 1 1 - w 0 1) * (w 2 0 - w 1 0) = 0 then none else
      some (fun i => (starPos o u v (pix i)).1 - 2.23 / (tilt u v fun j => w j 2).2.2 * (tilt u v fun j => w j 2).1,
        fun i => (starPos o u v (pix i)).2 - 2.23 / (tilt u v fun j => w j 2).2.2 * (tilt u v fun j => w j 2).2.1) := by
  rw [physical_eq]
  dsimp only
  rw [offs_calib h]
  have e := offs_eq (fun i => w i 0) (fun i => w i 1) (fun i => w i 2)
  by_cases hf : (w 1 0 - w 0 0) * (w 2 1 - w 1 1) - (w 1 1 - w 0 1) * (w 2 0 - w 1 0) = 0
  · split at e
    · rw [if_pos hf, if_pos e]
    · rename_i hc; exact absurd hf hc
  · split at e
    · rename_i hc; exact absurd hc hf
    rw [if_neg hf, if_neg (by rw [e]; simp)]
    rfl

theorem ids_eq {p : ℕ} (hp : p < 10) : ∃ id dev, petalId p = .ok id ∧ gfaDevice p = .ok dev ∧ Model.Dbutil.getPetalLoc id = .ok (p : ℤ) ∧
    2 ≤ id ∧ [10, 5, 6, 2, 7, 8, 13, 1, 4, 3][p]? = some dev := by
  interval_cases p <;> exact ⟨_, _, rfl, rfl, rfl, by norm_num, rfl⟩

theorem toPtl_ok (al : Model.Ptl2fp.Dict) (r2z : ℝ → ℝ) (p : ℕ) (fp ptl : Fin 4 → Option (ℝ × ℝ)) (h : toPtl al r2z p fp = .ok ptl) (i : Fin 4) :
    (fp i = none → ptl i = none) ∧ (∀ f, fp i = some f → ∃ v, fp2ptl al p ![f.1, f.2, r2z (Real.sqrt (f.1 ^ 2 + f.2 ^ 2))] = .ok v ∧
      ptl i = some (v 0, v 1)) := by
  unfold toPtl at h
  have := (four_iff _ _).1 h i
  constructor
  · intro hn
    rw [hn] at this
    obtain ⟨_, _, this⟩ := bind_inv this
    injection this with this
    exact this.symm
  · intro f hf
    rw [hf] at this
    obtain ⟨v, hv, this⟩ := bind_inv this
    injection this with this
    exact ⟨v, hv, this.symm⟩

theorem petalRows_good (al : Model.Ptl2fp.Dict) (r2z : ℝ → ℝ) (pkg met : List MRow) (p : ℕ) (hp : p ∈ [0, 2, 3, 5, 7, 8]) (rows : List PRow)
    (h : petalRows al r2z pkg met p = .ok rows) :
    List.Forall₂ (Good al r2z pkg met) ([0, 1, 2, 3].map fun i => (p, i)) rows ∧ (al p).isSome ∧
    (Measured p → ∀ i, ∃ r, cornerRows met p i = [r]) ∧
    (¬ Measured p → (∀ r ∈ pkg, r.petal < 10) ∧ ∀ i, (measuredRows pkg i).length = 8) := by
  obtain ⟨hlt, o, u, v, hcal⟩ := petal_calib hp
  unfold petalRows at h
  obtain ⟨c, hc, h⟩ := bind_inv h
  obtain ⟨ptl, hptl, h⟩ := bind_inv h
  unfold derive at hc
  obtain ⟨w, hw, hc⟩ := bind_inv hc
  obtain ⟨pl, hpl, hc⟩ := bind_inv hc
  rw [planar_eq hcal] at hpl
  injection hpl with hpl
  subst hpl
  injection hc with hc
  rw [physical_calib hcal] at hc
  have hw' := fun i => (guess_iff al r2z pkg met p hlt i (w i)).1 ((four_iff _ _).1 hw i)
  obtain ⟨id, dev, hid, hdev, k1, k2, k3⟩ := ids_eq hlt
  have hsome : (al p).isSome := by
    have := (four_iff _ _).1 hptl 0
    cases ha : al p with
    | some a => rfl
    | none =>
      exfalso
      dsimp only at this
      cases c with
      | none =>
        obtain ⟨_, hl, _⟩ := bind_inv this
        unfold Model.Ptl2fp.lookup at hl
        rw [ha] at hl
        cases hl
      | some c =>
        obtain ⟨_, hl, _⟩ := bind_inv this
        unfold fp2ptl Model.Ptl2fp.lookup at hl
        rw [ha] at hl
        cases hl
  refine ⟨?_, hsome, ?_, ?_⟩
  · rw [Gpm.mapM_iff] at h
    rw [List.forall₂_map_left_iff]
    refine h.imp ?_
    intro i r hr
    unfold row at hr
    rw [hasReal_eq, if_pos hlt] at hr
    obtain ⟨real, hreal, hr⟩ := bind_inv hr
    injection hreal with hreal
    subst hreal
    obtain ⟨z, hz, hr⟩ := bind_inv hr
    rw [hid, hdev] at hr
    injection hr with hr
    have hzw : z = w i 2 := by
      have hb := (hw' i).1
      unfold height at hz
      by_cases hm : Measured p
      · rw [decide_eq_true hm, if_pos rfl] at hz
        cases hrm : realMetrology met p i with
        | error e => rw [hrm] at hz; cases hz
        | ok x =>
          rw [hrm] at hz
          injection hz with hz
          unfold Before at hb
          rw [if_pos hm] at hb
          rw [(realMetrology_iff met p i hm (w i)).2 hb] at hrm
          injection hrm with hrm
          rw [← hz, hrm]
      · rw [decide_eq_false hm, if_neg (by simp)] at hz
        unfold Before at hb
        rw [if_neg hm] at hb
        obtain ⟨m, hm1, q, -, hq⟩ := hb
        have := ((ptlAvg_iff pkg i 2 z).1 hz).2.2
        rw [hq]
        show z = m 2
        have h2 := hm1 2
        linarith
    obtain ⟨t1, t2⟩ := toPtl_ok al r2z p _ ptl hptl i
    subst hr
    refine ⟨rfl, rfl, ⟨k1, k2⟩, k3, ⟨w, fun j => (hw' j).1, hzw, ?_, ?_⟩, ?_, ?_⟩
    · intro hfl
      unfold Flat at hfl
      rw [if_pos hfl] at hc
      subst hc
      rfl
    · intro hfl
      unfold Flat at hfl
      rw [if_neg hfl] at hc
      subst hc
      refine ⟨o, u, v, hcal, _, _, rfl, ?_, ?_⟩
      · simp only [raised]; ring
      · simp only [raised]; ring
    · dsimp only
      by_cases hm : Measured p
      · rw [if_pos hm, if_pos (decide_eq_true hm)]
      · rw [if_neg hm, if_neg (by simpa using hm)]
        intro f hf
        obtain ⟨v, hv, hv'⟩ := t2 f hf
        exact ⟨v, hv, by rw [hv']; rfl⟩
    · dsimp only
      intro hn
      rw [t1 hn]
      split <;> rfl
  · intro hm i
    have hb := (hw' i).1
    unfold Before at hb
    rw [if_pos hm] at hb
    obtain ⟨r, hr, -⟩ := hb
    exact ⟨r, hr⟩
  · intro hm
    exact ⟨((hw' 0).2 hm).1, fun i => ((hw' i).2 hm).2⟩

/-- The 24 corners in the order of the output. -/
def corners : List (ℕ × Fin 4) := [0, 2, 3, 5, 7, 8].flatMap fun p => [0, 1, 2, 3].map fun i => (p, i)

/-- What the script needs: alignments of the six petals, one row for each corner of the measured ones among them, and eight measured
cameras to average for the other two. -/
structure Ready (al : Model.Ptl2fp.Dict) (pkg met : List MRow) : Prop where
  align : ∀ p ∈ [0, 2, 3, 5, 7, 8], (al p).isSome
  one : ∀ p ∈ [0, 2, 5, 8], ∀ i, ∃ r, cornerRows met p i = [r]
  petals : ∀ r ∈ pkg, r.petal < 10
  eight : ∀ i, (measuredRows pkg i).length = 8

theorem forall₂_flatten {α β : Type} {R : α → β → Prop} {f : ℕ → List α} : ∀ {ps : List ℕ} {l : List (List β)},
    List.Forall₂ (fun p rows => List.Forall₂ R (f p) rows) ps l → List.Forall₂ R (ps.flatMap f) l.flatten := by
  intro ps l h
  induction h with
  | nil => exact List.Forall₂.nil
  | cons h1 _ ih =>
    rw [List.flatMap_cons, List.flatten_cons]
    exact List.rel_append h1 ih

/-- **C80** The table has one row for each of the four corners of the six guide cameras, in order. Its focal plane position is the one from
which the thickness of the filter, along the normal of a sensor with sides along the calibration and the heights of the metrology, leads
to the position of the pixel in the calibration with stars. Its height is the one in the metrology, or the average of eight cameras if
the camera was not measured. The petal coordinates are NaN for the measured cameras, and those of the focal plane position otherwise. -/
theorem C80_rows (al : Model.Ptl2fp.Dict) (r2z : ℝ → ℝ) (pkg met : List MRow) (out : List PRow) (h : patch al r2z pkg met = .ok out) :
    List.Forall₂ (Good al r2z pkg met) corners out := by
  unfold patch at h
  obtain ⟨l, hl, h⟩ := bind_inv h
  injection h with h
  subst h
  rw [Gpm.mapM_iff] at hl
  have : ∀ {ps : List ℕ} {l : List (List PRow)}, List.Forall₂ (fun p rows => petalRows al r2z pkg met p = .ok rows) ps l →
      (∀ p ∈ ps, p ∈ [0, 2, 3, 5, 7, 8]) →
      List.Forall₂ (fun p rows => List.Forall₂ (Good al r2z pkg met) ([0, 1, 2, 3].map fun i => (p, i)) rows) ps l := by
    intro ps l h
    induction h with
    | nil => intro _; exact List.Forall₂.nil
    | cons h1 _ ih =>
      intro hp
      exact List.Forall₂.cons (petalRows_good al r2z pkg met _ (hp _ (by simp)) _ h1).1 (ih fun p hp' => hp p (by simp [hp']))
  exact forall₂_flatten (this hl fun _ h => h)

theorem lookup_some {al : Model.Ptl2fp.Dict} {p : ℕ} (h : (al p).isSome) : ∃ a, Model.Ptl2fp.lookup al p = .ok a := by
  obtain ⟨a, ha⟩ := Option.isSome_iff_exists.1 h
  exact ⟨a, by unfold Model.Ptl2fp.lookup; rw [ha]⟩

theorem petalRows_some {al : Model.Ptl2fp.Dict} {r2z : ℝ → ℝ} {pkg met : List MRow} {p : ℕ} (hp : p ∈ [0, 2, 3, 5, 7, 8])
    (hal : (al p).isSome) (h1 : Measured p → ∀ i, ∃ r, cornerRows met p i = [r])
    (h2 : ¬ Measured p → (∀ r ∈ pkg, r.petal < 10) ∧ ∀ i, (measuredRows pkg i).length = 8) :
    ∃ rows, petalRows al r2z pkg met p = .ok rows := by
  obtain ⟨hlt, o, u, v, hcal⟩ := petal_calib hp
  obtain ⟨a, ha⟩ := lookup_some hal
  have hg : ∀ i, ∃ w, guess al r2z pkg met p i = .ok w := by
    intro i
    by_cases hm : Measured p
    · obtain ⟨r, hr⟩ := h1 hm i
      refine ⟨r.fp, (guess_iff al r2z pkg met p hlt i _).2 ⟨?_, fun hn => absurd hm hn⟩⟩
      unfold Before
      rw [if_pos hm]
      exact ⟨r, hr, rfl⟩
    · let m : V3 := fun k => ((measuredRows pkg i).map fun r => r.ptl k).sum / 8
      have hq : ∃ q, ptl2fp al p ![m 0, m 1, r2z (Real.sqrt (m 0 ^ 2 + m 1 ^ 2))] = .ok q := by
        unfold ptl2fp
        rw [ha]
        exact ⟨_, rfl⟩
      obtain ⟨q, hq⟩ := hq
      refine ⟨![q 0, q 1, m 2], (guess_iff al r2z pkg met p hlt i _).2 ⟨?_, fun _ => ⟨(h2 hm).1, (h2 hm).2 i⟩⟩⟩
      unfold Before
      rw [if_neg hm]
      exact ⟨m, fun k => by simp only [m]; ring, q, hq, rfl⟩
  choose w hw using hg
  have hfour := (four_iff (guess al r2z pkg met p) w).2 hw
  obtain ⟨id, dev, hid, hdev, -, -, -⟩ := ids_eq hlt
  unfold petalRows derive
  rw [hfour, planar_eq hcal]
  have hptl : ∀ fp : Fin 4 → Option (ℝ × ℝ), ∃ ptl, toPtl al r2z p fp = .ok ptl := by
    intro fp
    have : ∀ i, ∃ x, (match fp i with
      | some q => do
        let v ← fp2ptl al p (withZ r2z q.1 q.2)
        return some (v 0, v 1)
      | none => do
        let _ ← Model.Ptl2fp.lookup al p
        return none) = Except.ok (ε := PyErr) (x : Option (ℝ × ℝ)) := by
      intro i
      cases fp i with
      | none => rw [ha]; exact ⟨_, rfl⟩
      | some q => unfold fp2ptl; rw [ha]; exact ⟨_, rfl⟩
    choose x hx using this
    exact ⟨x, (four_iff _ _).2 hx⟩
  obtain ⟨ptl, hptl⟩ := hptl (fun i => (physical (fun i => (starPos o u v (pix i)).1, fun i => (starPos o u v (pix i)).2) (fun i => w i 2)
    (fun i => w i 0, fun i => w i 1)).map fun c => (c.1 i, c.2 i))
  show ∃ rows, (toPtl al r2z p (fun i => (physical (fun i => (starPos o u v (pix i)).1, fun i => (starPos o u v (pix i)).2) (fun i => w i 2)
    (fun i => w i 0, fun i => w i 1)).map fun c => (c.1 i, c.2 i)) >>= _) = Except.ok rows
  rw [hptl]
  apply mapM_ok_of
  intro i _
  have hz : ∃ z, height pkg met p (decide (Measured p)) i = .ok z := by
    unfold height
    by_cases hm : Measured p
    · rw [decide_eq_true hm, if_pos rfl]
      obtain ⟨r, hr⟩ := h1 hm i
      rw [(realMetrology_iff met p i hm r.fp).2 ⟨r, hr, rfl⟩]
      exact ⟨_, rfl⟩
    · rw [decide_eq_false hm, if_neg (by simp)]
      exact ⟨((measuredRows pkg i).map fun r => r.ptl 2).sum / 8, (ptlAvg_iff pkg i 2 _).2 ⟨(h2 hm).1, (h2 hm).2 i, by ring⟩⟩
  obtain ⟨z, hz⟩ := hz
  unfold row
  rw [hasReal_eq, if_pos hlt, hid, hdev]
  show ∃ b, (height pkg met p (decide (Measured p)) i >>= _) = Except.ok b
  rw [hz]
  exact ⟨_, rfl⟩

/-- **C80** The script makes a table exactly if the alignments and the metrology are complete: in particular more or fewer than eight
measured cameras, a corner missing or given twice, or an alignment missing stop it. -/
theorem C80_success (al : Model.Ptl2fp.Dict) (r2z : ℝ → ℝ) (pkg met : List MRow) :
    (∃ out, patch al r2z pkg met = .ok out) ↔ Ready al pkg met := by
  constructor
  · rintro ⟨out, h⟩
    unfold patch at h
    obtain ⟨l, hl, h⟩ := bind_inv h
    rw [Gpm.mapM_iff] at hl
    have key : ∀ p ∈ [0, 2, 3, 5, 7, 8], ∃ rows, petalRows al r2z pkg met p = .ok rows := by
      intro p hp
      obtain ⟨rows, -, h⟩ := forall₂_mem hl hp
      exact ⟨rows, h⟩
    have good := fun p (hp : p ∈ [0, 2, 3, 5, 7, 8]) => petalRows_good al r2z pkg met p hp _ (key p hp).choose_spec
    refine ⟨fun p hp => (good p hp).2.1, ?_, ?_, ?_⟩
    · intro p hp
      simp only [List.mem_cons, List.not_mem_nil, or_false] at hp
      refine (good p ?_).2.2.1 ?_
      · simp only [List.mem_cons, List.not_mem_nil, or_false]; omega
      · unfold Measured; omega
    · exact ((good 3 (by simp)).2.2.2 (by unfold Measured; omega)).1
    · exact ((good 3 (by simp)).2.2.2 (by unfold Measured; omega)).2
  · intro h
    have : ∃ l, [0, 2, 3, 5, 7, 8].mapM (petalRows al r2z pkg met) = .ok l := by
      apply mapM_ok_of
      intro p hp
      refine petalRows_some hp (h.align p hp) ?_ fun _ => ⟨h.petals, h.eight⟩
      intro hm
      refine h.one p ?_
      simp only [List.mem_cons, List.not_mem_nil, or_false] at hp ⊢
      unfold Measured at hm
      omega
    obtain ⟨l, hl⟩ := this
    unfold patch
    rw [hl]
    exact ⟨_, rfl⟩

/-- **C80** The shift for the filter is perpendicular to the sides of the sensor. -/
theorem C80_perpendicular (u v : ℝ × ℝ) (z : Fin 4 → ℝ) :
    (tilt u v z).1 * (2047 * u.1) + (tilt u v z).2.1 * (2047 * u.2) + (tilt u v z).2.2 * (z 1 - z 0) = 0 ∧
    (tilt u v z).1 * (1031 * v.1) + (tilt u v z).2.1 * (1031 * v.2) + (tilt u v z).2.2 * (z 2 - z 1) = 0 := by
  unfold tilt normal
  constructor
  · simp only; ring
  · simp only; ring

theorem before_unique {al : Model.Ptl2fp.Dict} {r2z : ℝ → ℝ} {pkg met : List MRow} {p : ℕ} {i : Fin 4} {w w' : V3}
    (h : Before al r2z pkg met p i w) (h' : Before al r2z pkg met p i w') : w = w' := by
  unfold Before at h h'
  by_cases hm : Measured p
  · rw [if_pos hm] at h h'
    obtain ⟨r, hr, rfl⟩ := h
    obtain ⟨r', hr', rfl⟩ := h'
    rw [hr] at hr'
    injection hr' with e
    rw [e]
  · rw [if_neg hm] at h h'
    obtain ⟨m, h1, q, hq, rfl⟩ := h
    obtain ⟨m', h1', q', hq', rfl⟩ := h'
    have : m = m' := by
      funext k
      have a := h1 k
      have b := h1' k
      linarith
    subst this
    rw [hq] at hq'
    injection hq' with e
    rw [e]

theorem calib_unique {p : ℕ} {o u v o' u' v' : ℝ × ℝ} (h : Calib p o u v) (h' : Calib p o' u' v') : o = o' ∧ u = u' ∧ v = v' := by
  cases h <;> cases h' <;> exact ⟨rfl, rfl, rfl⟩

/-- Row `g` of a metrology table is row `r` of the patch. -/
def Taken (r : PRow) (g : Model.Gfa2fp.GRow) : Prop :=
  g.devType = "GFA".toList ∧ g.petal = r.petal ∧ g.pin = r.pin ∧ r.fp = some (g.x, g.y) ∧ g.z = r.z

/-- **C80** Once the four corners of a camera in the metrology are those of this table, `gfa2fp` gives every pixel of the camera (not only
the corners) the position of the calibration with stars, and `fp2gfa` the reverse. -/
theorem C80_round_trip (al : Model.Ptl2fp.Dict) (r2z : ℝ → ℝ) (pkg met : List MRow) (p : ℕ) (rs : Fin 4 → PRow)
    (hr : ∀ i, Good al r2z pkg met (p, i) (rs i)) (new : List Model.Gfa2fp.GRow) (hm : Complete new) (c : Fin 4 → Model.Gfa2fp.GRow)
    (hc : Corners new p (c 0) (c 1) (c 2) (c 3)) (ht : ∀ i, Taken (rs i) (c i)) (o u v : ℝ × ℝ) (hcal : Calib p o u v)
    (gs : List (ℝ × ℝ)) :
    (Model.Gfa2fp.gfa2fp none (.ok new) p gs).1 = .ok (gs.map fun g => some (starPos o u v g)) ∧
    (Model.Gfa2fp.fp2gfa none (.ok new) p (gs.map (starPos o u v))).1 = .ok (gs.map some) := by
  obtain ⟨w, hw, -⟩ := (hr 0).fp
  have key : ∀ i, (c i).z = w i 2 ∧ (c i).x = (starPos o u v (pix i)).1 - 2.23 / (tilt u v fun j => w j 2).2.2 * (tilt u v fun j => w j 2).1 ∧
      (c i).y = (starPos o u v (pix i)).2 - 2.23 / (tilt u v fun j => w j 2).2.2 * (tilt u v fun j => w j 2).2.1 := by
    intro i
    obtain ⟨w', hw', hz, hf, hn⟩ := (hr i).fp
    have : w' = w := funext fun j => before_unique (hw' j) (hw j)
    subst this
    obtain ⟨-, -, -, h4, h5⟩ := ht i
    have hflat : ¬ Flat w' := by
      intro hfl
      rw [hf hfl] at h4
      cases h4
    obtain ⟨o', u', v', hcal', x, y, e, e1, e2⟩ := hn hflat
    obtain ⟨rfl, rfl, rfl⟩ := calib_unique hcal hcal'
    rw [e] at h4
    injection h4 with h4
    injection h4 with hx hy
    simp only [raised] at e1 e2
    rw [h5, hz, ← hx, ← hy]
    exact ⟨rfl, by linarith, by linarith⟩
  have hlt : p < 10 := by cases hcal <;> norm_num
  obtain ⟨f, h1, h2, h3⟩ := C64_exact new hm p (by omega) (by omega) (c 0) (c 1) (c 2) (c 3) hc
    (o.1 - 2.23 / (tilt u v fun j => w j 2).2.2 * (tilt u v fun j => w j 2).1,
      o.2 - 2.23 / (tilt u v fun j => w j 2).2.2 * (tilt u v fun j => w j 2).2.1, w 0 2)
    (u.1, u.2, (w 1 2 - w 0 2) / 2047) (v.1, v.2, (w 2 2 - w 1 2) / 1031)
    (by unfold At
        rw [(key 0).1, (key 0).2.1, (key 0).2.2]
        simp only [plane, starPos, pix, Matrix.cons_val]
        ext
        · simp only; ring
        · simp only; ring
        · simp only; ring)
    (by unfold At
        rw [(key 1).1, (key 1).2.1, (key 1).2.2]
        simp only [plane, starPos, pix, Matrix.cons_val]
        ext
        · simp only; ring
        · simp only; ring
        · simp only; ring)
    (by unfold At
        rw [(key 2).1, (key 2).2.1, (key 2).2.2]
        simp only [plane, starPos, pix, Matrix.cons_val]
        ext
        · simp only; ring
        · simp only; ring
        · simp only; ring)
    (by rw [(key 3).2.1, (key 3).2.2]
        simp only [plane, starPos, pix, Matrix.cons_val]
        constructor
        · ring
        · ring)
    (tilt_ne hcal fun j => w j 2).1 (tilt_ne hcal fun j => w j 2).2
  have hfs : f = starPos o u v := by
    funext g
    rw [h1 g]
    change ((raised _ (tilt u v fun j => w j 2)).1, (raised _ (tilt u v fun j => w j 2)).2.1) = _
    simp only [raised, plane, starPos]
    ext
    · simp only; ring
    · simp only; ring
  subst hfs
  exact ⟨h2 gs, h3 gs⟩

/-! ### Examples -/

/-- A metrology with a flat camera in each measured petal. -/
def sample : List MRow := [0, 1, 2, 4, 5, 6, 8, 9].flatMap fun p => [(0 : Fin 4), 1, 2, 3].map fun (i : Fin 4) =>
  ⟨true, p, ((i : ℕ) : ℤ) + 1, ![(pix i).1, (pix i).2, 0], ![(pix i).1, (pix i).2, 0]⟩

theorem sample_ready (al : Model.Ptl2fp.Dict) (hal : ∀ p, (al p).isSome) : Ready al sample sample := by
  refine ⟨fun p _ => hal p, ?_, ?_, ?_⟩
  · intro p hp i
    simp only [List.mem_cons, List.not_mem_nil, or_false] at hp
    rcases hp with rfl | rfl | rfl | rfl <;> fin_cases i <;> exact ⟨_, rfl⟩
  · intro r hr
    unfold sample at hr
    rw [List.mem_flatMap] at hr
    obtain ⟨p, hp, hr⟩ := hr
    rw [List.mem_map] at hr
    obtain ⟨i, -, rfl⟩ := hr
    simp only [List.mem_cons, List.not_mem_nil, or_false] at hp
    show p < 10
    omega
  · intro i
    fin_cases i <;> rfl

/-- The hypotheses of `C80_rows` and `C80_round_trip` hold for the corners of the first camera of the sample. -/
example : ∃ (al : Model.Ptl2fp.Dict) (r2z : ℝ → ℝ) (out : List PRow) (rs : Fin 4 → PRow) (new : List Model.Gfa2fp.GRow)
    (c : Fin 4 → Model.Gfa2fp.GRow) (o u v : ℝ × ℝ), patch al r2z sample sample = .ok out ∧ (∀ i, Good al r2z sample sample (0, i) (rs i)) ∧
    Complete new ∧ Corners new 0 (c 0) (c 1) (c 2) (c 3) ∧ (∀ i, Taken (rs i) (c i)) ∧ Calib 0 o u v := by
  let al : Model.Ptl2fp.Dict := fun _ => some ⟨0, 0, 0, 0, 0, 0⟩
  obtain ⟨out, hout⟩ := (C80_success al (fun _ => 0) sample sample).2 (sample_ready al fun _ => rfl)
  have hrows := C80_rows _ _ _ _ _ hout
  have hmem : ∀ i : Fin 4, (0, i) ∈ corners := by intro i; fin_cases i <;> simp [corners]
  have hex : ∀ i : Fin 4, ∃ r, Good al (fun _ => 0) sample sample (0, i) r := fun i =>
    ⟨_, (forall₂_mem hrows (hmem i)).choose_spec.2⟩
  choose rs hrs using hex
  have hfp : ∀ i, ∃ x y, (rs i).fp = some (x, y) := by
    intro i
    obtain ⟨w, hw, -, -, hn⟩ := (hrs i).fp
    have hw' : ∀ j, w j = ![(pix j).1, (pix j).2, 0] := by
      intro j
      have := hw j
      unfold Before at this
      rw [if_pos (by unfold Measured; simp)] at this
      obtain ⟨r, hr, hr'⟩ := this
      rw [hr']
      fin_cases j <;> (injection hr with hr _; rw [← hr]; rfl)
    have : ¬ Flat w := by
      unfold Flat
      rw [hw' 0, hw' 1, hw' 2]
      simp [pix]
    obtain ⟨o, u, v, -, x, y, h, -⟩ := hn this
    exact ⟨x, y, h⟩
  choose x y hxy using hfp
  let c : Fin 4 → Model.Gfa2fp.GRow := fun i => ⟨"GFA".toList, 0, (i : ℤ) + 1, x i, y i, (rs i).z⟩
  refine ⟨al, fun _ => 0, out, rs, [c 0, c 1, c 2, c 3], c, _, _, _, hout, hrs, ?_, ?_, ?_, Calib.p0⟩
  · intro p hp hp'
    unfold gfaOf
    by_cases h : p = 0
    · right; subst h; simp [c]
    · left; simp [c, Ne.symm h]
  · refine ⟨?_, by simp [c], by simp [c], by simp [c]⟩
    unfold gfaOf
    simp [c]
  · intro i
    exact ⟨rfl, by rw [(hrs i).petal]; rfl, by rw [(hrs i).pin], hxy i, rfl⟩

end Verif.Props.GfaPatch
