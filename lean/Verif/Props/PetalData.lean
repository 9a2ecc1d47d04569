import Verif.Model.PetalData
import Verif.Props.Int2ptl
import Verif.Lemmas.Ptl2fp
import Mathlib.Analysis.Real.Pi.Bounds
import Mathlib.Tactic

/-!
# C124: conversions without height, and the alignments shipped
-/

namespace Verif.Props.PetalData
open Verif.Py Verif.Model.Ptl2fp Verif.Model.PetalData Verif.Lemmas.Ptl2fp Matrix

/-! ## Any alignment -/

/-- The height left over: that of the focal surface at the point of the focal plane, less the height of the point. -/
noncomputable def excess (r2z : ℝ → ℝ) (u : Fin 3 → ℝ) : ℝ := r2z (hypot (u 0) (u 1)) - u 2

theorem back (a : Alignment) (p w : Fin 3 → ℝ) (δ : ℝ) (hw : w = a.R.mulVec p + a.T + δ • ![0, 0, 1]) :
    (a.Rᵀ.mulVec (w - a.T)) 0 - p 0 = -Real.sin a.beta * δ ∧ (a.Rᵀ.mulVec (w - a.T)) 1 - p 1 = Real.cos a.beta * Real.sin a.alpha * δ ∧
    (a.Rᵀ.mulVec (w - a.T)) 2 - p 2 = Real.cos a.beta * Real.cos a.alpha * δ := by
  have e : a.Rᵀ.mulVec (w - a.T) = p + δ • a.Rᵀ.mulVec ![0, 0, 1] := by
    rw [hw, show a.R.mulVec p + a.T + δ • ![0, 0, 1] - a.T = a.R.mulVec p + δ • ![0, 0, 1] by abel, Matrix.mulVec_add, Matrix.mulVec_mulVec,
      show a.Rᵀ * a.R = 1 from Rxyz_orth _ _ _, Matrix.one_mulVec, Matrix.mulVec_smul]
  rw [e]
  refine ⟨?_, ?_, ?_⟩ <;> simp [Alignment.R, Rxyz, Rx, Ry, Rz, Matrix.mulVec, dotProduct, Fin.sum_univ_three] <;> ring

/-- **C124** Going to the focal plane and back without heights changes a point by the height left over, turned into the petal: its length is that of this height, and
the shift in the petal is this height times the sine of the tilt. -/
theorem C124_error (d : Dict) (r2z : ℝ → ℝ) (petal : ℕ) (a : Alignment) (h : d petal = some a) (x y : ℝ) : ∃ u v : Fin 3 → ℝ,
    ptl2fp d petal (withZ r2z x y) = .ok u ∧ fp2ptl d petal (withZ r2z (u 0) (u 1)) = .ok v ∧
    v 0 - x = -Real.sin a.beta * excess r2z u ∧ v 1 - y = Real.cos a.beta * Real.sin a.alpha * excess r2z u ∧
    (v 0 - x) ^ 2 + (v 1 - y) ^ 2 + (v 2 - r2z (hypot x y)) ^ 2 = excess r2z u ^ 2 ∧
    (v 0 - x) ^ 2 + (v 1 - y) ^ 2 = (1 - (Real.cos a.alpha * Real.cos a.beta) ^ 2) * excess r2z u ^ 2 := by
  have ha := Real.sin_sq_add_cos_sq a.alpha
  have hb := Real.sin_sq_add_cos_sq a.beta
  set p := withZ r2z x y with hp
  set u := a.R.mulVec p + a.T with hu
  set v := a.Rᵀ.mulVec (withZ r2z (u 0) (u 1) - a.T) with hv
  have hv' := back a p (withZ r2z (u 0) (u 1)) (excess r2z u) (by
    funext i
    fin_cases i
    · simp [withZ, hu]
    · simp [withZ, hu]
    · simp [withZ, hu, excess])
  obtain ⟨v0, v1, v2⟩ := hv'
  have p0 : p 0 = x := rfl
  have p1 : p 1 = y := rfl
  have p2 : p 2 = r2z (hypot x y) := rfl
  rw [← hv, p0] at v0
  rw [← hv, p1] at v1
  rw [← hv, p2] at v2
  refine ⟨u, v, by unfold ptl2fp lookup; rw [h]; rfl, by unfold fp2ptl lookup; rw [h]; rfl, v0, v1, ?_, ?_⟩
  · rw [v0, v1, v2]
    generalize Real.sin a.alpha = sa at *
    generalize Real.cos a.alpha = ca at *
    generalize Real.sin a.beta = sb at *
    generalize Real.cos a.beta = cb at *
    linear_combination excess r2z u ^ 2 * (hb + cb ^ 2 * ha)
  · rw [v0, v1]
    generalize Real.sin a.alpha = sa at *
    generalize Real.cos a.alpha = ca at *
    generalize Real.sin a.beta = sb at *
    generalize Real.cos a.beta = cb at *
    linear_combination excess r2z u ^ 2 * (hb + cb ^ 2 * ha)

/-- An alignment without tilt. -/
def Flat (a : Alignment) : Prop := a.alpha = 0 ∧ a.beta = 0

/-- The rotation about the axis and the shift. -/
noncomputable def turn (g Tx Ty : ℝ) (q : ℝ × ℝ) : ℝ × ℝ := (q.1 * Real.cos g - q.2 * Real.sin g + Tx, q.1 * Real.sin g + q.2 * Real.cos g + Ty)

theorem ptl2fpXY_flat (d : Dict) (r2z : ℝ → ℝ) (petal : ℕ) (a : Alignment) (h : d petal = some a) (hf : Flat a) (q : ℝ × ℝ) :
    ptl2fpXY d r2z petal q = .ok (turn a.gamma a.Tx a.Ty q) := by
  unfold ptl2fpXY ptl2fp lookup
  rw [h]
  show Except.ok _ = _
  congr 1
  obtain ⟨h1, h2⟩ := hf
  apply Prod.ext <;> simp [Alignment.R, Alignment.T, Rxyz, Rx, Ry, Rz, withZ, turn, Matrix.mulVec, dotProduct, Fin.sum_univ_three, h1, h2] <;> ring

theorem fp2ptlXY_flat (d : Dict) (r2z : ℝ → ℝ) (petal : ℕ) (a : Alignment) (h : d petal = some a) (hf : Flat a) (q : ℝ × ℝ) :
    fp2ptlXY d r2z petal q = .ok (turn (-a.gamma) 0 0 (q.1 - a.Tx, q.2 - a.Ty)) := by
  unfold fp2ptlXY fp2ptl lookup
  rw [h]
  show Except.ok _ = _
  congr 1
  obtain ⟨h1, h2⟩ := hf
  apply Prod.ext <;> simp [Alignment.R, Alignment.T, Rxyz, Rx, Ry, Rz, withZ, turn, Matrix.mulVec, dotProduct, Fin.sum_univ_three, h1, h2] <;> ring

/-- **C124** Without tilt, converting a point to the focal plane and back, or to the petal and back, without heights, gives the same point, whatever the shape of the focal surface. -/
theorem C124_exact (d : Dict) (r2z r2z' : ℝ → ℝ) (petal : ℕ) (a : Alignment) (h : d petal = some a) (hf : Flat a) (q : ℝ × ℝ) :
    (ptl2fpXY d r2z petal q >>= fp2ptlXY d r2z' petal) = .ok q ∧ (fp2ptlXY d r2z petal q >>= ptl2fpXY d r2z' petal) = .ok q := by
  have hg := Real.sin_sq_add_cos_sq a.gamma
  rw [ptl2fpXY_flat d r2z petal a h hf, fp2ptlXY_flat d r2z petal a h hf]
  constructor
  · show fp2ptlXY d r2z' petal _ = _
    rw [fp2ptlXY_flat d r2z' petal a h hf]
    congr 1
    unfold turn
    rw [Real.cos_neg, Real.sin_neg]
    apply Prod.ext
    · dsimp only
      linear_combination q.1 * hg
    · dsimp only
      linear_combination q.2 * hg
  · show ptl2fpXY d r2z' petal _ = _
    rw [ptl2fpXY_flat d r2z' petal a h hf]
    congr 1
    unfold turn
    rw [Real.cos_neg, Real.sin_neg]
    apply Prod.ext
    · dsimp only
      linear_combination (q.1 - a.Tx) * hg
    · dsimp only
      linear_combination (q.2 - a.Ty) * hg

/-- **C124** (finding) With a tilt, the two conversions without heights are not inverse to each other: here a flat focal surface and a petal tilted about its x axis. -/
theorem C124_tilted (α : ℝ) (hα : Real.sin α ≠ 0) : ∃ (d : Dict) (q q' : ℝ × ℝ), (ptl2fpXY d (fun _ => 0) 0 q >>= fp2ptlXY d (fun _ => 0) 0) = .ok q' ∧ q' ≠ q := by
  let a : Alignment := ⟨α, 0, 0, 0, 0, 0⟩
  let d : Dict := fun _ => some a
  obtain ⟨u, v, h1, h2, h3, h4, -⟩ := C124_error d (fun _ => 0) 0 a rfl 0 1
  refine ⟨d, (0, 1), (v 0, v 1), ?_, ?_⟩
  · unfold ptl2fpXY fp2ptlXY
    rw [h1]
    show (do let u ← fp2ptl d 0 (withZ _ (u 0) (u 1)); pure (u 0, u 1)) = _
    rw [h2]
    rfl
  · intro e
    have e1 : v 1 = 1 := congrArg Prod.snd e
    have hu : u 2 = Real.sin α := by
      have := Except.ok.inj (show Except.ok (ε := PyErr) _ = Except.ok u from h1)
      rw [← this]
      simp [a, Alignment.R, Alignment.T, Rxyz, Rx, Ry, Rz, withZ, Matrix.mulVec, dotProduct, Fin.sum_univ_three]
    rw [e1, excess, hu] at h4
    simp [a] at h4
    exact hα h4

/-! ## The alignments shipped -/

/-- The angle the petal at a location is meant to be turned by: petals follow each other by 36 degrees, and that at location 3 is not turned. -/
noncomputable def nominal (k : ℕ) : ℝ := ((k : ℝ) - 3) * (Real.pi / 5)

theorem shipped_entry (k : ℕ) (hk : k < 10) : ∃ Tx Ty g : ℝ, shipped k = some (entry Tx Ty g) ∧ Tx ^ 2 + Ty ^ 2 ≤ 0.135 ^ 2 ∧ |g - nominal k| ≤ 0.0005 := by
  have h1 := Real.pi_gt_d6
  have h2 := Real.pi_lt_d6
  unfold nominal
  interval_cases k <;> refine ⟨_, _, _, rfl, by norm_num, ?_⟩ <;> rw [abs_le] <;> constructor <;> push_cast <;> linarith

/-- **C124** The file has the petals at locations 0 to 9 and no others, none tilted or shifted along the axis. -/
theorem C124_shipped (k : ℕ) : (k < 10 → ∃ a, shipped k = some a ∧ Flat a ∧ a.Tz = 0) ∧
    (10 ≤ k → ∀ (r2z : ℝ → ℝ) (q : ℝ × ℝ), ptl2fpXY shipped r2z k q = .error .keyError ∧ fp2ptlXY shipped r2z k q = .error .keyError) := by
  refine ⟨fun h => ?_, fun h r2z q => ?_⟩
  · obtain ⟨Tx, Ty, g, h, -⟩ := shipped_entry k h
    exact ⟨_, h, ⟨rfl, rfl⟩, rfl⟩
  · have : shipped k = none := by
      unfold shipped
      split <;> first | omega | rfl
    unfold ptl2fpXY fp2ptlXY ptl2fp fp2ptl lookup
    rw [this]
    exact ⟨rfl, rfl⟩

/-- **C124** With the alignments shipped, a list of points of a petal converted to the focal plane and back without heights is the same list, and likewise the other way
round. -/
theorem C124_chain (k : ℕ) (hk : k < 10) (r2z r2z' : ℝ → ℝ) (l : List (ℝ × ℝ)) :
    (l.mapM (ptl2fpXY shipped r2z k) >>= List.mapM (fp2ptlXY shipped r2z' k)) = .ok l ∧
    (l.mapM (fp2ptlXY shipped r2z k) >>= List.mapM (ptl2fpXY shipped r2z' k)) = .ok l := by
  obtain ⟨a, ha, hf, -⟩ := (C124_shipped k).1 hk
  have both (f g : ℝ × ℝ → Except PyErr (ℝ × ℝ)) (F : ℝ × ℝ → ℝ × ℝ) (hF : ∀ q, f q = .ok (F q)) (hfg : ∀ q, (f q >>= g) = .ok q) :
      (l.mapM f >>= List.mapM g) = .ok l := by
    have e1 : ∀ l : List (ℝ × ℝ), l.mapM f = .ok (l.map F) := by
      intro l
      induction l with
      | nil => rfl
      | cons q l ih =>
        rw [List.mapM_cons, hF, ih]
        rfl
    have e2 : ∀ q, g (F q) = .ok q := by
      intro q
      have := hfg q
      rw [hF] at this
      exact this
    rw [e1]
    show (l.map F).mapM g = .ok l
    induction l with
    | nil => rfl
    | cons q l ih =>
      rw [List.map_cons, List.mapM_cons, e2, ih]
      rfl
  exact ⟨both _ _ _ (ptl2fpXY_flat shipped r2z k a ha hf) fun q => (C124_exact shipped r2z r2z' k a ha hf q).1,
    both _ _ _ (fp2ptlXY_flat shipped r2z k a ha hf) fun q => (C124_exact shipped r2z r2z' k a ha hf q).2⟩

theorem hypot_triangle (a b c e : ℝ) : hypot (a + c) (b + e) ≤ hypot a b + hypot c e := by
  rw [Verif.Lemmas.Trig.hypot_norm, Verif.Lemmas.Trig.hypot_norm, Verif.Lemmas.Trig.hypot_norm]
  exact norm_add_le (Complex.mk a b) (Complex.mk c e)

theorem hypot_le {a b c : ℝ} (hc : 0 ≤ c) (h : a ^ 2 + b ^ 2 ≤ c ^ 2) : hypot a b ≤ c := Real.sqrt_le_iff.2 ⟨hc, h⟩

theorem chord (g g0 x y : ℝ) : hypot (x * Real.cos g - y * Real.sin g - (x * Real.cos g0 - y * Real.sin g0))
    (x * Real.sin g + y * Real.cos g - (x * Real.sin g0 + y * Real.cos g0)) ≤ |g - g0| * hypot x y := by
  apply hypot_le (mul_nonneg (abs_nonneg _) (Verif.Lemmas.Trig.hypot_nonneg _ _))
  have h1 := Real.one_sub_sq_div_two_le_cos (x := g - g0)
  have h2 : hypot x y ^ 2 = x ^ 2 + y ^ 2 := Real.sq_sqrt (by positivity)
  rw [mul_pow, sq_abs, h2]
  have h3 := Real.sin_sq_add_cos_sq g
  have h4 := Real.sin_sq_add_cos_sq g0
  rw [Real.cos_sub] at h1
  have h5 := mul_le_mul_of_nonneg_right h1 (show 0 ≤ x ^ 2 + y ^ 2 by positivity)
  have : (x * Real.cos g - y * Real.sin g - (x * Real.cos g0 - y * Real.sin g0)) ^ 2 + (x * Real.sin g + y * Real.cos g - (x * Real.sin g0 + y * Real.cos g0)) ^ 2 =
      (2 - 2 * (Real.cos g * Real.cos g0 + Real.sin g * Real.sin g0)) * (x ^ 2 + y ^ 2) := by linear_combination (x ^ 2 + y ^ 2) * (h3 + h4)
  rw [this]
  linarith

/-- **C124** Every petal is where it is meant to be within 0.36 mm: a point of the petal at location k goes within this of the point turned by 36 (k - 3) degrees, and
keeps its height. -/
theorem C124_nominal (k : ℕ) (hk : k < 10) (x y z : ℝ) (hr : hypot x y ≤ 431) : ∃ u, ptl2fp shipped k ![x, y, z] = .ok u ∧ u 2 = z ∧
    hypot (u 0 - (x * Real.cos (nominal k) - y * Real.sin (nominal k))) (u 1 - (x * Real.sin (nominal k) + y * Real.cos (nominal k))) ≤ 0.36 := by
  obtain ⟨Tx, Ty, g, h, hT, hg⟩ := shipped_entry k hk
  refine ⟨_, by unfold ptl2fp lookup; rw [h]; rfl, ?_, ?_⟩
  · simp [entry, Alignment.R, Alignment.T, Rxyz, Rx, Ry, Rz]
  · have h1 := chord g (nominal k) x y
    have h2 := hypot_le (by norm_num) hT
    have h3 := hypot_triangle (x * Real.cos g - y * Real.sin g - (x * Real.cos (nominal k) - y * Real.sin (nominal k)))
      (x * Real.sin g + y * Real.cos g - (x * Real.sin (nominal k) + y * Real.cos (nominal k))) Tx Ty
    have h4 : |g - nominal k| * hypot x y ≤ 0.0005 * 431 := mul_le_mul hg hr (Real.sqrt_nonneg _) (by norm_num)
    refine le_trans (le_of_eq ?_) (h3.trans (show _ ≤ (0.36 : ℝ) by linarith))
    congr 1 <;> simp [entry, Alignment.R, Alignment.T, Rxyz, Rx, Ry, Rz] <;> ring

/-! ## Petals apart -/

/-- At least d inside the sector of 36 degrees that starts at the x axis. -/
def Inside (d : ℝ) (x y : ℝ) : Prop := d ≤ y ∧ d ≤ Real.sin (Real.pi / 5) * x - Real.cos (Real.pi / 5) * y

theorem sines (m : ℕ) (hm : m ≤ 4) : 0 ≤ Real.sin (m * (Real.pi / 5)) ∧ 0 ≤ Real.sin ((m + 1) * (Real.pi / 5)) ∧
    Real.sin (Real.pi / 5) ≤ Real.sin (m * (Real.pi / 5)) + Real.sin ((m + 1) * (Real.pi / 5)) := by
  have hp := Real.pi_pos
  have hm' : (m : ℝ) ≤ 4 := by exact_mod_cast hm
  have h0 : (0 : ℝ) ≤ m := Nat.cast_nonneg m
  have a1 : 0 ≤ Real.sin (m * (Real.pi / 5)) := Real.sin_nonneg_of_nonneg_of_le_pi (by positivity) (by nlinarith)
  have a2 : 0 ≤ Real.sin ((m + 1) * (Real.pi / 5)) := Real.sin_nonneg_of_nonneg_of_le_pi (by positivity) (by nlinarith)
  refine ⟨a1, a2, ?_⟩
  have b1 : Real.sin (4 * (Real.pi / 5)) = Real.sin (Real.pi / 5) := by
    rw [← Real.sin_pi_sub]
    congr 1
    ring
  have b2 : Real.sin (3 * (Real.pi / 5)) = Real.sin (2 * (Real.pi / 5)) := by
    rw [← Real.sin_pi_sub]
    congr 1
    ring
  have b3 : Real.sin (Real.pi / 5) ≤ Real.sin (2 * (Real.pi / 5)) := Real.sin_le_sin_of_le_of_le_pi_div_two (by linarith) (by linarith) (by linarith)
  have b4 : 0 ≤ Real.sin (2 * (Real.pi / 5)) := Real.sin_nonneg_of_nonneg_of_le_pi (by linarith) (by linarith)
  interval_cases m
  · norm_num
  · norm_num at *
    linarith
  · norm_num at *
    linarith
  · norm_num at *
    linarith
  · norm_num at *
    linarith

theorem wedge (d x y : ℝ) (hd : 0 ≤ d) (h : Inside d x y) (m : ℕ) (hm : m ≤ 4) :
    d ≤ x * Real.sin (m * (Real.pi / 5)) + y * Real.cos (m * (Real.pi / 5)) := by
  obtain ⟨s1, s2, s3⟩ := sines m hm
  have hp := Real.pi_pos
  have hs : 0 < Real.sin (Real.pi / 5) := Real.sin_pos_of_pos_of_lt_pi (by linarith) (by linarith)
  have e : Real.sin (Real.pi / 5) * (x * Real.sin (m * (Real.pi / 5)) + y * Real.cos (m * (Real.pi / 5))) =
      Real.sin ((m + 1) * (Real.pi / 5)) * y + Real.sin (m * (Real.pi / 5)) * (Real.sin (Real.pi / 5) * x - Real.cos (Real.pi / 5) * y) := by
    rw [add_mul, one_mul, Real.sin_add]
    ring
  have f1 := mul_le_mul_of_nonneg_left h.1 s2
  have f2 := mul_le_mul_of_nonneg_left h.2 s1
  have f3 := mul_le_mul_of_nonneg_right s3 hd
  exact le_of_mul_le_mul_left (by linarith) hs

theorem le_hypot (c s a b : ℝ) (h : c ^ 2 + s ^ 2 = 1) : c * a + s * b ≤ hypot a b := by
  apply Real.le_sqrt_of_sq_le
  nlinarith [sq_nonneg (c * b - s * a)]

theorem nominal_apart (d : ℝ) (hd : 0 ≤ d) (j k : ℕ) (hj : j < 10) (hjk : k < j) (x y x' y' : ℝ) (h : Inside d x y) (h' : Inside d x' y') :
    2 * d ≤ hypot (x' * Real.cos (nominal k) - y' * Real.sin (nominal k) - (x * Real.cos (nominal j) - y * Real.sin (nominal j)))
      (x' * Real.sin (nominal k) + y' * Real.cos (nominal k) - (x * Real.sin (nominal j) + y * Real.cos (nominal j))) := by
  by_cases hn : j - k ≤ 4
  · have w := wedge d x y hd h (j - k - 1) (by omega)
    have ej : nominal j = nominal k + (Real.pi / 5) + ((j - k - 1 : ℕ) : ℝ) * (Real.pi / 5) := by
      unfold nominal
      rw [Nat.sub_sub, Nat.cast_sub (by omega)]
      push_cast
      ring
    set A := ((j - k - 1 : ℕ) : ℝ) * (Real.pi / 5)
    set B := Real.pi / 5
    have hs := Real.sin_sq_add_cos_sq (nominal k + B)
    refine le_trans ?_ (le_hypot (Real.sin (nominal k + B)) (-Real.cos (nominal k + B)) _ _ (by linarith))
    have h2 := h'.2
    have e1 : Real.sin (nominal k + B) * (x' * Real.cos (nominal k) - y' * Real.sin (nominal k)) - Real.cos (nominal k + B) * (x' * Real.sin (nominal k) + y' * Real.cos (nominal k)) =
        Real.sin B * x' - Real.cos B * y' := by
      have := Real.sin_sq_add_cos_sq (nominal k)
      rw [Real.sin_add, Real.cos_add]
      linear_combination (Real.sin B * x' - Real.cos B * y') * this
    have e2 : Real.sin (nominal k + B) * (x * Real.cos (nominal j) - y * Real.sin (nominal j)) - Real.cos (nominal k + B) * (x * Real.sin (nominal j) + y * Real.cos (nominal j)) =
        -(x * Real.sin A + y * Real.cos A) := by
      rw [ej, Real.sin_add (nominal k + B), Real.cos_add (nominal k + B)]
      linear_combination -(x * Real.sin A + y * Real.cos A) * hs
    linarith
  · have w := wedge d x y hd h (j - k - 5) (by omega)
    have ej : nominal j = nominal k + ((j - k - 5 : ℕ) : ℝ) * (Real.pi / 5) + Real.pi := by
      unfold nominal
      rw [Nat.sub_sub, Nat.cast_sub (by omega)]
      push_cast
      ring
    set A := ((j - k - 5 : ℕ) : ℝ) * (Real.pi / 5)
    have hs := Real.sin_sq_add_cos_sq (nominal k)
    refine le_trans ?_ (le_hypot (-Real.sin (nominal k)) (Real.cos (nominal k)) _ _ (by linarith))
    have h2 := h'.1
    have e1 : -Real.sin (nominal k) * (x' * Real.cos (nominal k) - y' * Real.sin (nominal k)) + Real.cos (nominal k) * (x' * Real.sin (nominal k) + y' * Real.cos (nominal k)) = y' := by
      linear_combination y' * hs
    have e2 : -Real.sin (nominal k) * (x * Real.cos (nominal j) - y * Real.sin (nominal j)) + Real.cos (nominal k) * (x * Real.sin (nominal j) + y * Real.cos (nominal j)) =
        -(x * Real.sin A + y * Real.cos A) := by
      rw [ej, Real.sin_add_pi, Real.cos_add_pi, Real.sin_add, Real.cos_add]
      linear_combination -(x * Real.sin A + y * Real.cos A) * hs
    linarith

theorem hypot_comm_sub (a b c e : ℝ) : hypot (a - c) (b - e) = hypot (c - a) (e - b) := by
  unfold hypot
  congr 1
  ring

/-- **C124** Petals do not overlap: points at least d inside the sectors of two different petals are at least 2 d - 0.72 mm apart in the focal plane. -/
theorem C124_apart (d : ℝ) (hd : 0 ≤ d) (j k : ℕ) (hj : j < 10) (hk : k < 10) (hjk : j ≠ k) (x y z x' y' z' : ℝ) (h : Inside d x y) (h' : Inside d x' y')
    (hr : hypot x y ≤ 431) (hr' : hypot x' y' ≤ 431) : ∃ u v, ptl2fp shipped j ![x, y, z] = .ok u ∧ ptl2fp shipped k ![x', y', z'] = .ok v ∧
    2 * d - 0.72 ≤ hypot (u 0 - v 0) (u 1 - v 1) := by
  obtain ⟨u, hu, -, du⟩ := C124_nominal j hj x y z hr
  obtain ⟨v, hv, -, dv⟩ := C124_nominal k hk x' y' z' hr'
  refine ⟨u, v, hu, hv, ?_⟩
  have key : 2 * d ≤ hypot (x' * Real.cos (nominal k) - y' * Real.sin (nominal k) - (x * Real.cos (nominal j) - y * Real.sin (nominal j)))
      (x' * Real.sin (nominal k) + y' * Real.cos (nominal k) - (x * Real.sin (nominal j) + y * Real.cos (nominal j))) := by
    rcases Nat.lt_or_gt_of_ne hjk with h1 | h1
    · have := nominal_apart d hd k j hk h1 x' y' x y h' h
      rw [hypot_comm_sub] at this
      exact this
    · exact nominal_apart d hd j k hj h1 x y x' y' h h'
  generalize x * Real.cos (nominal j) - y * Real.sin (nominal j) = a at *
  generalize x * Real.sin (nominal j) + y * Real.cos (nominal j) = b at *
  generalize x' * Real.cos (nominal k) - y' * Real.sin (nominal k) = a' at *
  generalize x' * Real.sin (nominal k) + y' * Real.cos (nominal k) = b' at *
  have t1 := hypot_triangle (a' - v 0) (b' - v 1) (v 0 - a) (v 1 - b)
  have t2 := hypot_triangle (v 0 - u 0) (v 1 - u 1) (u 0 - a) (u 1 - b)
  rw [hypot_comm_sub a' b'] at t1
  rw [hypot_comm_sub (v 0) (v 1)] at t2
  rw [show a' - v 0 + (v 0 - a) = a' - a by ring, show b' - v 1 + (v 1 - b) = b' - b by ring] at t1
  rw [show v 0 - u 0 + (u 0 - a) = v 0 - a by ring, show v 1 - u 1 + (u 1 - b) = v 1 - b by ring] at t2
  linarith

/-- The hypotheses of `C124_apart`: a point 20 mm inside. -/
example : Inside 20 200 50 ∧ hypot 200 50 ≤ 431 := by
  refine ⟨⟨by norm_num, ?_⟩, hypot_le (by norm_num) (by norm_num)⟩
  have hp := Real.pi_gt_d6
  have hp' := Real.pi_lt_d6
  have h1 := Real.sin_gt_sub_cube (x := Real.pi / 5) (by linarith)
  have h2 := Real.cos_le_one (Real.pi / 5)
  have h3 : (Real.pi / 5) ^ 3 ≤ 0.26 := by
    have : (Real.pi / 5) ^ 3 ≤ (0.63 : ℝ) ^ 3 := pow_le_pow_left₀ (by linarith) (by linarith) 3
    norm_num at this ⊢
    linarith
  linarith

end Verif.Props.PetalData
