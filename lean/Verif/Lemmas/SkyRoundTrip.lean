import Verif.Props.Radec2tan
import Verif.Props.Tighten
import Mathlib.Analysis.InnerProductSpace.PiL2
import Mathlib.Tactic

/-!
# Distances of directions: aberration undone, polar misalignment undone
-/

namespace Verif.Lemmas.SkyRoundTrip
open Verif.Py Verif.Model.Trig Verif.Model.Radec2tan Verif.Spec Verif.Lemmas.Trig Verif.Lemmas.Sky

/-! ## Vectors -/

/-- The vector in Euclidean space. -/
noncomputable def E (v : V3) : EuclideanSpace ℝ (Fin 3) := !₂[v.x, v.y, v.z]

/-- Distance of two vectors. -/
noncomputable def gap (a b : V3) : ℝ := ‖E a - E b‖

theorem inner_E (a b : V3) : inner ℝ (E a) (E b) = dot a b := by
  unfold E dot
  simp [PiLp.inner_apply, Fin.sum_univ_three]
  ring

theorem norm_E_sq (a : V3) : ‖E a‖ ^ 2 = dot a a := by
  rw [← inner_E, real_inner_self_eq_norm_sq]

theorem norm_E {a : V3} (h : Unit3 a) : ‖E a‖ = 1 := by
  have := norm_E_sq a
  rw [(unit_dot a).1 h] at this
  nlinarith [norm_nonneg (E a)]

theorem E_smul (k : ℝ) (a : V3) : E (smul k a) = k • E a := by
  ext i
  fin_cases i <;> simp [E, smul]

theorem E_vadd (a b : V3) : E (vadd a b) = E a + E b := by
  ext i
  fin_cases i <;> simp [E, vadd]

theorem gap_sq (a b : V3) : gap a b ^ 2 = (a.x - b.x) ^ 2 + (a.y - b.y) ^ 2 + (a.z - b.z) ^ 2 := by
  unfold gap
  rw [EuclideanSpace.real_norm_sq_eq]
  simp [E, Fin.sum_univ_three]

theorem gap_nonneg (a b : V3) : 0 ≤ gap a b := norm_nonneg _

theorem gap_comm (a b : V3) : gap a b = gap b a := norm_sub_rev _ _

theorem gap_triangle (a b c : V3) : gap a c ≤ gap a b + gap b c := norm_sub_le_norm_sub_add_norm_sub _ _ _

theorem gap_le {a b : V3} {e : ℝ} (he : 0 ≤ e) (h : (a.x - b.x) ^ 2 + (a.y - b.y) ^ 2 + (a.z - b.z) ^ 2 ≤ e ^ 2) : gap a b ≤ e := by
  rw [← gap_sq] at h
  exact le_of_sq_le_sq h he

theorem gap_unit {a b : V3} (ha : Unit3 a) (hb : Unit3 b) : gap a b ^ 2 = 2 - 2 * dot a b := by
  rw [gap_sq]
  unfold Unit3 at ha hb
  unfold dot
  linear_combination ha + hb

theorem gap_cosSep (p q : ℝ × ℝ) : gap (xyz p) (xyz q) ^ 2 = 2 - 2 * cosSep p q := by
  rw [gap_unit (xyz_unit p) (xyz_unit q), cosSep_eq]

theorem gap_z (a b : V3) : |a.z - b.z| ≤ gap a b := by
  apply abs_le_of_sq_le_sq _ (gap_nonneg _ _)
  rw [gap_sq]
  nlinarith [sq_nonneg (a.x - b.x), sq_nonneg (a.y - b.y)]

theorem gap_orth {m : M3} (h : Orth m) (a b : V3) : gap (m.app a) (m.app b) = gap a b := by
  have e : ∀ a b : V3, gap a b ^ 2 = dot a a - 2 * dot a b + dot b b := by
    intro a b
    rw [gap_sq]
    unfold dot
    ring
  have h1 := e (m.app a) (m.app b)
  rw [h.dot, h.dot, h.dot, ← e] at h1
  exact (pow_left_inj₀ (gap_nonneg _ _) (gap_nonneg _ _) (by norm_num)).1 h1

theorem gap_horizon (a b : V3) : gap (horizon.app a) (horizon.app b) = gap a b := by
  have e : ∀ a b : V3, gap a b ^ 2 = dot a a - 2 * dot a b + dot b b := by
    intro a b
    rw [gap_sq]
    unfold dot
    ring
  have h1 := e (horizon.app a) (horizon.app b)
  rw [horizon_dot, horizon_dot, horizon_dot, ← e] at h1
  exact (pow_left_inj₀ (gap_nonneg _ _) (gap_nonneg _ _) (by norm_num)).1 h1

/-! ## Aberration -/

/-- The speed of the Earth (radians). -/
noncomputable def κ : ℝ := 0.99365E-4

section general
variable {F : Type*} [NormedAddCommGroup F] [InnerProductSpace ℝ F]

/-- The shift of a direction. -/
noncomputable def shift (a v : F) : F := κ • (a - inner ℝ v a • v)

theorem shift_norm_sq {a v : F} (ha : ‖a‖ = 1) (hv : ‖v‖ = 1) : ‖shift a v‖ ^ 2 = κ ^ 2 * (1 - inner ℝ v a ^ 2) := by
  unfold shift
  rw [norm_smul, mul_pow, norm_sub_sq_real, norm_smul, hv, ha, inner_smul_right, real_inner_comm a v]
  simp only [Real.norm_eq_abs, sq_abs, mul_one]
  ring

theorem shift_norm {a v : F} (ha : ‖a‖ = 1) (hv : ‖v‖ = 1) : ‖shift a v‖ ≤ κ := by
  apply le_of_sq_le_sq _ (by unfold κ; norm_num)
  rw [shift_norm_sq ha hv]
  nlinarith [mul_nonneg (sq_nonneg κ) (sq_nonneg (inner ℝ v a))]

theorem shift_lip {a v w : F} (ha : ‖a‖ = 1) (hv : ‖v‖ = 1) (hw : ‖w‖ = 1) : ‖shift a v - shift a w‖ ≤ 2 * κ * ‖v - w‖ := by
  have e : shift a v - shift a w = -(κ • (inner ℝ (v - w) a • v + inner ℝ w a • (v - w))) := by
    unfold shift
    rw [inner_sub_left]
    module
  rw [e, norm_neg, norm_smul, Real.norm_eq_abs, abs_of_nonneg (by unfold κ; norm_num)]
  have h1 : ‖inner ℝ (v - w) a • v‖ ≤ ‖v - w‖ := by
    rw [norm_smul, hv, mul_one]
    exact (norm_inner_le_norm _ _).trans (by rw [ha, mul_one])
  have h2 : ‖inner ℝ w a • (v - w)‖ ≤ ‖v - w‖ := by
    rw [norm_smul]
    have : ‖inner ℝ w a‖ ≤ 1 := (norm_inner_le_norm _ _).trans (by rw [ha, hw, mul_one])
    exact (mul_le_mul_of_nonneg_right this (norm_nonneg _)).trans (by rw [one_mul])
  have h3 := norm_add_le (inner ℝ (v - w) a • v) (inner ℝ w a • (v - w))
  have hk : 0 ≤ κ := by unfold κ; norm_num
  nlinarith

/-- The size of the vector before it is normalised. -/
noncomputable def size (a v : F) : ℝ := Real.sqrt (1 + κ ^ 2 * (1 - inner ℝ v a ^ 2))

/-- The direction with aberration. -/
noncomputable def moved (a v : F) : F := (1 / size a v) • (v + shift a v)

theorem moved_close {a v : F} (ha : ‖a‖ = 1) (hv : ‖v‖ = 1) : ‖moved a v - (v + shift a v)‖ ≤ κ ^ 2 / 2 := by
  have hi : inner ℝ v (shift a v) = 0 := by
    unfold shift
    rw [inner_smul_right, inner_sub_right, inner_smul_right, real_inner_self_eq_norm_sq, hv]
    ring
  have hin : inner ℝ v a ^ 2 ≤ 1 := by
    have : |inner ℝ v a| ≤ 1 := (abs_real_inner_le_norm v a).trans (by rw [ha, hv, mul_one])
    rw [← sq_abs]
    nlinarith [abs_nonneg (inner ℝ v a)]
  have hk : 0 ≤ κ ^ 2 * (1 - inner ℝ v a ^ 2) := mul_nonneg (sq_nonneg _) (by linarith)
  have hS2 : size a v ^ 2 = 1 + κ ^ 2 * (1 - inner ℝ v a ^ 2) := Real.sq_sqrt (by linarith)
  have hS0 : 0 ≤ size a v := Real.sqrt_nonneg _
  have hS1 : 1 ≤ size a v := by nlinarith
  have hn : ‖v + shift a v‖ = size a v := by
    have : ‖v + shift a v‖ ^ 2 = size a v ^ 2 := by
      rw [norm_add_sq_real, hi, hv, shift_norm_sq ha hv, hS2]
      ring
    exact (pow_left_inj₀ (norm_nonneg _) hS0 (by norm_num)).1 this
  have e : moved a v - (v + shift a v) = (1 / size a v - 1) • (v + shift a v) := by
    unfold moved
    module
  rw [e, norm_smul, hn, Real.norm_eq_abs]
  have : |1 / size a v - 1| * size a v = size a v - 1 := by
    rw [abs_of_nonpos (by rw [sub_nonpos, div_le_one (by linarith)]; exact hS1)]
    field_simp
    ring
  rw [this]
  nlinarith [sq_nonneg (inner ℝ v a), mul_nonneg (sq_nonneg κ) (sq_nonneg (inner ℝ v a))]

theorem moved_near {a v : F} (ha : ‖a‖ = 1) (hv : ‖v‖ = 1) : ‖moved a v - v‖ ≤ κ + κ ^ 2 / 2 := by
  have h1 := moved_close ha hv
  have h2 := shift_norm ha hv
  have : moved a v - v = (moved a v - (v + shift a v)) + shift a v := by abel
  rw [this]
  linarith [norm_add_le (moved a v - (v + shift a v)) (shift a v)]

/-- Aberration undone by a shift back: for a direction x off by e from that of p with aberration. -/
theorem undone {a x p : F} (ha : ‖a‖ = 1) (hx : ‖x‖ = 1) (hp : ‖p‖ = 1) :
    ‖(2 : ℝ) • x - moved a x - p‖ ≤ ‖x - moved a p‖ + 2 * κ * (κ + κ ^ 2 / 2 + ‖x - moved a p‖) + κ ^ 2 := by
  have h1 := moved_close ha hx
  have h2 := moved_close ha hp
  have h3 := shift_lip ha hp hx
  have h4 : ‖p - x‖ ≤ κ + κ ^ 2 / 2 + ‖x - moved a p‖ := by
    have h := norm_sub_le_norm_sub_add_norm_sub p (moved a p) x
    have h5 := moved_near ha hp
    rw [norm_sub_rev] at h5
    rw [norm_sub_rev (moved a p) x] at h
    linarith
  have e : (2 : ℝ) • x - moved a x - p = (x - moved a p) + ((shift a p - shift a x) + ((moved a p - (p + shift a p)) - (moved a x - (x + shift a x)))) := by
    rw [two_smul]
    abel
  rw [e]
  have hk : 0 ≤ κ := by unfold κ; norm_num
  have t1 := norm_add_le (x - moved a p) ((shift a p - shift a x) + ((moved a p - (p + shift a p)) - (moved a x - (x + shift a x))))
  have t2 := norm_add_le (shift a p - shift a x) ((moved a p - (p + shift a p)) - (moved a x - (x + shift a x)))
  have t3 := norm_sub_le (moved a p - (p + shift a p)) (moved a x - (x + shift a x))
  have t4 : 2 * κ * ‖p - x‖ ≤ 2 * κ * (κ + κ ^ 2 / 2 + ‖x - moved a p‖) := mul_le_mul_of_nonneg_left h4 (by linarith)
  linarith

end general

theorem aberration_moved (p : ℝ × ℝ) (mjd : ℝ) : E (xyz (applyAberration p mjd)) = moved (E (xyz (Verif.Props.apex mjd))) (E (xyz p)) := by
  have h := (Verif.Props.aberr_vec p mjd).2
  rw [h, E_smul, E_vadd, E_smul, E_vadd, E_smul]
  unfold moved size shift
  rw [inner_E]
  congr 3
  rw [neg_smul, ← sub_eq_add_neg]

/-! ## The position mirrored in coordinates -/

theorem mirror_ineq {c u w ρ ρ' σ s : ℝ} (hc : 0 < c) (hu : 0 ≤ u) (hw : 0 ≤ w) (hu2 : u ≤ 2) (hw2 : w ≤ 2) (h1 : c ≤ ρ) (h2 : c ≤ ρ')
    (hr1 : ρ ≤ 1) (h0 : 0 ≤ σ) (e4 : σ ≤ 1) (hs : 2 * u + 2 * (ρ * ρ') * w ≤ s) :
    4 * (ρ ^ 2 * (u + w - u * w) ^ 2 + σ * (w * (2 - w) * (u * (2 - u))) + σ * u ^ 2) ≤ 3 * s ^ 2 / c ^ 2 := by
  have hrp : 0 ≤ ρ := by linarith
  have hrp' : 0 ≤ ρ' := by linarith
  have hm0 : 0 ≤ ρ * ρ' * w := by positivity
  have hc1 : c ≤ 1 := by linarith
  obtain ⟨g, hg⟩ : ∃ g, g = u + ρ * ρ' * w := ⟨_, rfl⟩
  have hgs : 2 * g ≤ s := by rw [hg]; linarith
  have hg0 : 0 ≤ g := by rw [hg]; linarith
  have huw : 0 ≤ w * u := mul_nonneg hw hu
  have hw2' : 0 ≤ 2 - w := by linarith
  have hu2' : 0 ≤ 2 - u := by linarith
  have t1 : c * (ρ * (u + w - u * w)) ≤ g := by
    have a1 : c * ρ * u ≤ 1 * 1 * u := by gcongr
    have a2 : c * ρ * w ≤ ρ' * ρ * w := by gcongr
    have a3 : 0 ≤ c * ρ * (u * w) := by positivity
    rw [hg]; linarith
  have t1' : 0 ≤ c * (ρ * (u + w - u * w)) := by
    have : 0 ≤ u + w - u * w := by linarith [mul_nonneg hu hw2', mul_nonneg hw hu2']
    positivity
  have t2 : c ^ 2 * (w * u) ≤ (ρ * ρ' * w) * u := by
    have : c * c ≤ ρ * ρ' := mul_le_mul h1 h2 hc.le hrp
    have := mul_le_mul_of_nonneg_right this huw
    linarith
  have t3 : c * u ≤ g := by
    have : c * u ≤ 1 * u := by gcongr
    rw [hg]; linarith
  rw [le_div_iff₀ (by positivity)]
  have b1 : (c * (ρ * (u + w - u * w))) ^ 2 ≤ g ^ 2 := pow_le_pow_left₀ t1' t1 2
  have b3 : (c * u) ^ 2 ≤ g ^ 2 := pow_le_pow_left₀ (by positivity) t3 2
  have b2 : c ^ 2 * (w * (2 - w) * (u * (2 - u))) ≤ g ^ 2 := by
    have q1 : (2 - w) * (2 - u) ≤ 2 * 2 := by
      apply mul_le_mul <;> linarith
    have h : (w * u) * ((2 - w) * (2 - u)) ≤ (w * u) * (2 * 2) := mul_le_mul_of_nonneg_left q1 huw
    have h' := mul_le_mul_of_nonneg_left h (sq_nonneg c)
    have h'' : 4 * (ρ * ρ' * w * u) ≤ g ^ 2 := by rw [hg]; linarith [sq_nonneg (u - ρ * ρ' * w)]
    linarith
  have b2p : 0 ≤ c ^ 2 * (w * (2 - w) * (u * (2 - u))) := by positivity
  have b2' : σ * (c ^ 2 * (w * (2 - w) * (u * (2 - u)))) ≤ 1 * (c ^ 2 * (w * (2 - w) * (u * (2 - u)))) := mul_le_mul_of_nonneg_right e4 b2p
  have b3' : σ * (c * u) ^ 2 ≤ 1 * (c * u) ^ 2 := mul_le_mul_of_nonneg_right e4 (sq_nonneg _)
  have hgs2 : (2 * g) ^ 2 ≤ s ^ 2 := pow_le_pow_left₀ (by linarith) hgs 2
  linarith

theorem mirror (a d b f c s : ℝ) (hc : 0 < c) (h1 : c ≤ cosd d) (h2 : c ≤ cosd f) (hs : gap (xyz (a, d)) (xyz (b, f)) ^ 2 ≤ s) :
    ‖E (xyz (2 * a - b, 2 * d - f)) - ((2 : ℝ) • E (xyz (a, d)) - E (xyz (b, f)))‖ ^ 2 ≤ 3 * s ^ 2 / c ^ 2 := by
  have hcd := sq_cosd_sind d
  have hca := sq_cosd_sind a
  obtain ⟨α, hα⟩ : ∃ α, b = a + α := ⟨b - a, by ring⟩
  obtain ⟨δ, hδ⟩ : ∃ δ, f = d + δ := ⟨f - d, by ring⟩
  subst hα hδ
  have hcα := sq_cosd_sind α
  have hcδ := sq_cosd_sind δ
  rw [show 2 * a - (a + α) = a - α by ring, show 2 * d - (d + δ) = d - δ by ring]
  have hu : 0 ≤ 1 - cosd δ := by have : cosd δ ≤ 1 := Real.cos_le_one _; linarith
  have hw : 0 ≤ 1 - cosd α := by have : cosd α ≤ 1 := Real.cos_le_one _; linarith
  have hw2 : 1 - cosd α ≤ 2 := by have : -1 ≤ cosd α := Real.neg_one_le_cos _; linarith
  have hu2 : 1 - cosd δ ≤ 2 := by have : -1 ≤ cosd δ := Real.neg_one_le_cos _; linarith
  have hr1 : cosd d ≤ 1 := Real.cos_le_one _
  -- the distance
  have hgap : gap (xyz (a, d)) (xyz (a + α, d + δ)) ^ 2 = 2 * (1 - cosd δ) + 2 * (cosd d * cosd (d + δ)) * (1 - cosd α) := by
    rw [gap_unit (xyz_unit _) (xyz_unit _)]
    unfold dot xyz getXYZ
    simp only [cosd_add, sind_add]
    linear_combination (-2 * cosd d * (cosd d * cosd δ - sind d * sind δ) * cosd α) * hca - 2 * cosd δ * hcd
  -- the vector
  have hV : ‖E (xyz (a - α, d - δ)) - ((2 : ℝ) • E (xyz (a, d)) - E (xyz (a + α, d + δ)))‖ ^ 2 =
      4 * (cosd d ^ 2 * (1 - cosd α * cosd δ) ^ 2 + sind d ^ 2 * (sind α ^ 2 * sind δ ^ 2) + sind d ^ 2 * (1 - cosd δ) ^ 2) := by
    rw [EuclideanSpace.real_norm_sq_eq]
    simp only [E, Fin.sum_univ_three, xyz, getXYZ, cosd_add, sind_add, cosd_sub, sind_sub]
    simp
    linear_combination (4 * (cosd d ^ 2 * (1 - cosd α * cosd δ) ^ 2 + sind d ^ 2 * (sind α ^ 2 * sind δ ^ 2))) * hca
  rw [hV]
  rw [hgap] at hs
  set u := 1 - cosd δ with hud
  set w := 1 - cosd α with hwd
  set ρ := cosd d with hρ
  set ρ' := cosd (d + δ) with hρ'
  have e1 : 1 - cosd α * cosd δ = u + w - u * w := by rw [hud, hwd]; ring
  have e2 : sind α ^ 2 = w * (2 - w) := by rw [hwd]; linear_combination hcα
  have e3 : sind δ ^ 2 = u * (2 - u) := by rw [hud]; linear_combination hcδ
  have e4 : sind d ^ 2 ≤ 1 := by nlinarith [sq_nonneg ρ]
  rw [e1, e2, e3]
  clear_value u w ρ ρ'
  exact mirror_ineq hc hu hw hu2 hw2 h1 h2 hr1 (sq_nonneg _) e4 hs

/-! ## The polar misalignment -/

/-- The rotation that carries `p` onto the pole by the shortest way. -/
noncomputable def turn (p v : V3) : V3 :=
  ⟨p.z * v.x - p.x * v.z + p.y * (p.y * v.x - p.x * v.y) * (1 / (1 + p.z)),
   p.z * v.y - p.y * v.z - p.x * (p.y * v.x - p.x * v.y) * (1 / (1 + p.z)),
   p.z * v.z + p.y * v.y + p.x * v.x⟩

theorem axisToAxis_pole (p v : V3) (hp : Unit3 p) (hz : 0 ≤ p.z) : (axisToAxis p ⟨0, 0, 1⟩).app v = turn p v := by
  have hd : dot p ⟨0, 0, 1⟩ = p.z := by unfold dot; ring
  have hp1 := (unit_dot p).1 hp
  have hq1 : dot ⟨0, 0, 1⟩ ⟨0, 0, 1⟩ = 1 := by unfold dot; norm_num
  by_cases hc : 0 < getNorm (cross p ⟨0, 0, 1⟩)
  · unfold axisToAxis
    dsimp only
    rw [if_pos (by exact hc)]
    have hn := cross_norm p ⟨0, 0, 1⟩ hp1 hq1
    rw [hd] at hn
    have hle : getNorm (cross p ⟨0, 0, 1⟩) ≤ 1 := by nlinarith [sq_nonneg p.z, getNorm_nonneg (cross p ⟨0, 0, 1⟩)]
    have hs : Real.sin (Real.arcsin (getNorm (cross p ⟨0, 0, 1⟩))) = getNorm (cross p ⟨0, 0, 1⟩) := Real.sin_arcsin (by linarith) hle
    have hcos : Real.cos (Real.arcsin (getNorm (cross p ⟨0, 0, 1⟩))) = p.z := by
      rw [Real.cos_arcsin, hn, show 1 - (1 - p.z ^ 2) = p.z ^ 2 by ring]
      exact Real.sqrt_sq hz
    unfold rotationMatrix M3.app turn
    simp only [hs, hcos]
    generalize getNorm (cross p ⟨0, 0, 1⟩) = n at *
    have hni : n * n⁻¹ = 1 := mul_inv_cancel₀ hc.ne'
    have hk : (1 - p.z) * (n⁻¹ * n⁻¹) = (1 + p.z)⁻¹ := by
      have : (1 : ℝ) + p.z ≠ 0 := by linarith
      have hn0 : n ≠ 0 := hc.ne'
      field_simp
      linarith
    unfold cross dot
    simp only [div_eq_mul_inv, one_mul]
    generalize n⁻¹ = i at *
    generalize (1 + p.z)⁻¹ = k at *
    obtain ⟨x, y, z⟩ := p
    obtain ⟨a, b, c⟩ := v
    simp only at *
    apply V3.ext <;> simp only
    · linear_combination (y * y * a - y * x * b) * hk - x * c * hni
    · linear_combination (x * x * b - y * x * a) * hk - y * c * hni
    · linear_combination (y * b + x * a) * hni
  · have e := cross_zero hp1 hq1 hc (by rw [hd]; exact hz)
    unfold axisToAxis
    dsimp only
    rw [if_neg (by exact hc), eye_app, e]
    unfold turn
    apply V3.ext <;> simp

theorem turn_back (p v : V3) (hp : Unit3 p) (hz : 0 ≤ p.z) : turn ⟨-p.x, -p.y, p.z⟩ (turn p v) = v := by
  unfold Unit3 at hp
  have hk : (1 + p.z) * (1 / (1 + p.z)) = 1 := by
    have : (1 : ℝ) + p.z ≠ 0 := by linarith
    field_simp
  unfold turn
  simp only
  generalize 1 / (1 + p.z) = k at *
  obtain ⟨x, y, z⟩ := p
  obtain ⟨a, b, c⟩ := v
  simp only at *
  -- the length of the axis
  have hk2 : (x ^ 2 + y ^ 2) * k = 1 - z := by linear_combination k * hp + (1 - z) * hk
  apply V3.ext <;> simp only
  · linear_combination (a) * hp + y * (y * a - x * b) * k * hk2 + y * (y * a - x * b) * hk
  · linear_combination (b) * hp - x * (y * a - x * b) * k * hk2 - x * (y * a - x * b) * hk
  · linear_combination (c) * hp

theorem turn_unit (p v : V3) (hp : Unit3 p) (hz : 0 ≤ p.z) (hv : Unit3 v) : Unit3 (turn p v) := by
  rw [← axisToAxis_pole p v hp hz]
  exact (axisToAxis_orth _ _).unit hv

theorem turn_close (p q u : V3) (hp : Unit3 p) (hq : Unit3 q) (hu : Unit3 u) (hpz : 0 ≤ p.z) (hqz : 0 ≤ q.z)
    (px : |p.x| ≤ 6e-4) (qx : |q.x| ≤ 6e-4) (py : |p.y| ≤ 1e-5) (qy : |q.y| ≤ 1e-5)
    (dx : |p.x - q.x| ≤ 1e-10) (dy : |p.y - q.y| ≤ 1.2e-8) : gap (turn p u) (turn q u) ≤ 2e-8 := by
  have sq : ∀ {a b : ℝ}, |a| ≤ b → a ^ 2 ≤ b ^ 2 := fun {a b} h => by rw [← sq_abs]; exact pow_le_pow_left₀ (abs_nonneg _) h 2
  have hp' : p.z ^ 2 = 1 - p.x ^ 2 - p.y ^ 2 := by unfold Unit3 at hp; linarith
  have hq' : q.z ^ 2 = 1 - q.x ^ 2 - q.y ^ 2 := by unfold Unit3 at hq; linarith
  have hpz1 : 0.999 ≤ p.z := by
    have h1 := sq px
    have h2 := sq py
    norm_num at h1 h2 ⊢
    nlinarith
  have hqz1 : 0.999 ≤ q.z := by
    have h1 := sq qx
    have h2 := sq qy
    norm_num at h1 h2 ⊢
    nlinarith
  have hux : |u.x| ≤ 1 := abs_le_one_iff_mul_self_le_one.2 (by unfold Unit3 at hu; nlinarith [sq_nonneg u.y, sq_nonneg u.z])
  have huy : |u.y| ≤ 1 := abs_le_one_iff_mul_self_le_one.2 (by unfold Unit3 at hu; nlinarith [sq_nonneg u.x, sq_nonneg u.z])
  have huz : |u.z| ≤ 1 := abs_le_one_iff_mul_self_le_one.2 (by unfold Unit3 at hu; nlinarith [sq_nonneg u.y, sq_nonneg u.x])
  have mul : ∀ {a b c d : ℝ}, |a| ≤ b → |c| ≤ d → |a * c| ≤ b * d := fun {a b c d} h h' => by
    rw [abs_mul]; exact mul_le_mul h h' (abs_nonneg _) ((abs_nonneg _).trans h)
  have add : ∀ {a b c d : ℝ}, |a| ≤ b → |c| ≤ d → |a + c| ≤ b + d := fun {a b c d} h h' => (abs_add_le _ _).trans (add_le_add h h')
  have sub : ∀ {a b c d : ℝ}, |a| ≤ b → |c| ≤ d → |a - c| ≤ b + d := fun {a b c d} h h' => (abs_sub _ _).trans (add_le_add h h')
  -- squares and products
  have xx : |p.x * p.x - q.x * q.x| ≤ 1e-10 * 6e-4 + 6e-4 * 1e-10 := by
    rw [show p.x * p.x - q.x * q.x = (p.x - q.x) * p.x + q.x * (p.x - q.x) by ring]
    exact add (mul dx px) (mul qx dx)
  have yy : |p.y * p.y - q.y * q.y| ≤ 1.2e-8 * 1e-5 + 1e-5 * 1.2e-8 := by
    rw [show p.y * p.y - q.y * q.y = (p.y - q.y) * p.y + q.y * (p.y - q.y) by ring]
    exact add (mul dy py) (mul qy dy)
  have xy : |p.x * p.y - q.x * q.y| ≤ 1e-10 * 1e-5 + 6e-4 * 1.2e-8 := by
    rw [show p.x * p.y - q.x * q.y = (p.x - q.x) * p.y + q.x * (p.y - q.y) by ring]
    exact add (mul dx py) (mul qx dy)
  have zz : |p.z - q.z| ≤ 1e-12 := by
    have e : p.z - q.z = -((p.x * p.x - q.x * q.x) + (p.y * p.y - q.y * q.y)) * (1 / (p.z + q.z)) := by
      have : p.z + q.z ≠ 0 := by linarith
      field_simp
      linear_combination hp' - hq'
    have h1 : |1 / (p.z + q.z)| ≤ 1 := by
      rw [abs_of_nonneg (by positivity), div_le_one (by linarith)]
      linarith
    rw [e]
    refine (mul ((abs_neg _).trans_le (add xx yy)) h1).trans (by norm_num)
  obtain ⟨k, hk⟩ : ∃ k, 1 / (1 + p.z) = k := ⟨_, rfl⟩
  obtain ⟨l, hl⟩ : ∃ l, 1 / (1 + q.z) = l := ⟨_, rfl⟩
  have hk1 : |k| ≤ 1 := by
    rw [← hk, abs_of_nonneg (by positivity), div_le_one (by linarith)]
    linarith
  have hl1 : |l| ≤ 1 := by
    rw [← hl, abs_of_nonneg (by positivity), div_le_one (by linarith)]
    linarith
  have kl : |k - l| ≤ 1e-12 := by
    have e : k - l = -(p.z - q.z) * (k * l) := by
      rw [← hk, ← hl]
      have : 1 + p.z ≠ 0 := by linarith
      have : 1 + q.z ≠ 0 := by linarith
      field_simp
      ring
    rw [e]
    refine (mul ((abs_neg _).trans_le zz) (mul hk1 hl1)).trans (by norm_num)
  have prod : ∀ {a b s m M : ℝ}, |a - b| ≤ m → |b| ≤ M → |a * k - b * l| ≤ m * 1 + M * 1e-12 := fun {a b s m M} h h' => by
    rw [show a * k - b * l = (a - b) * k + b * (k - l) by ring]
    exact add (mul h hk1) (mul h' kl)
  have xxk := prod (s := 0) xx (mul qx qx)
  have yyk := prod (s := 0) yy (mul qy qy)
  have xyk := prod (s := 0) xy (mul qx qy)
  -- the coordinates
  have cx : |(turn p u).x - (turn q u).x| ≤ 1e-9 := by
    unfold turn
    simp only [hk, hl]
    rw [show p.z * u.x - p.x * u.z + p.y * (p.y * u.x - p.x * u.y) * k - (q.z * u.x - q.x * u.z + q.y * (q.y * u.x - q.x * u.y) * l) =
      (p.z - q.z) * u.x - (p.x - q.x) * u.z + (p.y * p.y * k - q.y * q.y * l) * u.x - (p.x * p.y * k - q.x * q.y * l) * u.y by ring]
    exact (sub (add (sub (mul zz hux) (mul dx huz)) (mul yyk hux)) (mul xyk huy)).trans (by norm_num)
  have cy : |(turn p u).y - (turn q u).y| ≤ 1.3e-8 := by
    unfold turn
    simp only [hk, hl]
    rw [show p.z * u.y - p.y * u.z - p.x * (p.y * u.x - p.x * u.y) * k - (q.z * u.y - q.y * u.z - q.x * (q.y * u.x - q.x * u.y) * l) =
      (p.z - q.z) * u.y - (p.y - q.y) * u.z - (p.x * p.y * k - q.x * q.y * l) * u.x + (p.x * p.x * k - q.x * q.x * l) * u.y by ring]
    exact (add (sub (sub (mul zz huy) (mul dy huz)) (mul xyk hux)) (mul xxk huy)).trans (by norm_num)
  have cz : |(turn p u).z - (turn q u).z| ≤ 1.3e-8 := by
    unfold turn
    simp only
    rw [show p.z * u.z + p.y * u.y + p.x * u.x - (q.z * u.z + q.y * u.y + q.x * u.x) =
      (p.z - q.z) * u.z + (p.y - q.y) * u.y + (p.x - q.x) * u.x by ring]
    exact (add (add (mul zz huz) (mul dy huy)) (mul dx hux)).trans (by norm_num)
  apply gap_le (by norm_num)
  have s1 := sq cx
  have s2 := sq cy
  have s3 := sq cz
  norm_num at s1 s2 s3 ⊢
  linarith

/-- The axis of the mount. -/
noncomputable def axis (e m : ℝ) : V3 := xyz (altaz2hadec (LATITUDE + e, m))

theorem axis_eq (e m : ℝ) : axis e m = ⟨sind e + sind LATITUDE * cosd (LATITUDE + e) * (1 - cosd m), -sind m * cosd (LATITUDE + e),
    cosd m * cosd (LATITUDE + e) * cosd LATITUDE + sind (LATITUDE + e) * sind LATITUDE⟩ := by
  have h := sq_cosd_sind LATITUDE
  unfold axis
  rw [xyz_hadec, horizon_xyz]
  apply V3.ext <;> simp only
  rw [sind_add, cosd_add]
  linear_combination sind e * h

theorem small {a : ℝ} (ha : 0 ≤ a) : |sind a| ≤ a * Real.pi / 180 := by
  unfold sind
  have e : radians a = a * Real.pi / 180 := by unfold radians; ring
  rw [e]
  have := Real.pi_pos
  exact (Real.abs_sin_le_abs).trans_eq (abs_of_nonneg (by positivity))

theorem polar_close (v : V3) (hv : Unit3 v) : gap ((polarMisalignment 120 2).app ((polarMisalignment (-120) (-2)).app v)) v ≤ 2e-8 := by
  have hpole : xyz (altaz2hadec (LATITUDE, 0)) = ⟨0, 0, 1⟩ := by
    have := axis_eq 0 0
    unfold axis at this
    rw [add_zero] at this
    rw [this, sind_zero, cosd_zero]
    have h := sq_cosd_sind LATITUDE
    apply V3.ext <;> simp
    linear_combination h
  have hm : ∀ me ma, polarMisalignment me ma = axisToAxis (axis (-(me / 3600)) (ma / 3600)) ⟨0, 0, 1⟩ := by
    intro me ma
    rw [← hpole]
    rfl
  rw [hm, hm]
  have hl : LATITUDE = 31.96403 := rfl
  have hpi := Real.pi_pos
  have hpi2 := Real.pi_lt_d6
  have cl := cosd_pos (a := LATITUDE) (by rw [hl]; norm_num) (by rw [hl]; norm_num)
  have sl : 0 ≤ sind LATITUDE := by
    unfold sind radians
    apply Real.sin_nonneg_of_nonneg_of_le_pi <;> rw [hl] <;> nlinarith
  have sp : ∀ e, |e| ≤ 1 → 0 ≤ sind (LATITUDE + e) := by
    intro e he
    rw [abs_le] at he
    have hb : 0 ≤ LATITUDE + e := by rw [hl]; norm_num; linarith
    have hb' : LATITUDE + e ≤ 180 := by rw [hl]; norm_num; linarith
    unfold sind radians
    apply Real.sin_nonneg_of_nonneg_of_le_pi <;> nlinarith
  have cp : ∀ e, |e| ≤ 1 → 0 < cosd (LATITUDE + e) := by
    intro e he
    rw [abs_le] at he
    exact cosd_pos (by rw [hl]; norm_num; linarith) (by rw [hl]; norm_num; linarith)
  have hz : ∀ e m, |e| ≤ 1 → |m| ≤ 1 → 0 ≤ (axis e m).z := by
    intro e m he hm
    rw [axis_eq]
    rw [abs_le] at hm
    have c1 := cosd_pos (a := m) (by linarith) (by linarith)
    have := cp e he
    have := sp e he
    positivity
  have hu : ∀ e m, Unit3 (axis e m) := fun e m => xyz_unit _
  set e : ℝ := 1 / 30 with he
  set m : ℝ := 1 / 1800 with hmm
  rw [show -((-120 : ℝ) / 3600) = e by rw [he]; norm_num, show -((120 : ℝ) / 3600) = -e by rw [he]; norm_num,
    show (-2 : ℝ) / 3600 = -m by rw [hmm]; norm_num, show (2 : ℝ) / 3600 = m by rw [hmm]; norm_num]
  have he1 : |e| ≤ 1 := by rw [he, abs_le]; norm_num
  have he1' : |-e| ≤ 1 := by rwa [abs_neg]
  have hm1 : |m| ≤ 1 := by rw [hmm, abs_le]; norm_num
  have hm1' : |-m| ≤ 1 := by rwa [abs_neg]
  rw [axisToAxis_pole _ _ (hu _ _) (hz _ _ he1 hm1'), axisToAxis_pole _ _ (hu _ _) (hz _ _ he1' hm1)]
  have hw := turn_unit _ v (hu e (-m)) (hz _ _ he1 hm1') hv
  have hb := turn_back _ v (hu e (-m)) (hz _ _ he1 hm1')
  conv_lhs => arg 2; rw [← hb]
  -- the sizes
  have se : |sind e| ≤ 5.82e-4 := (small (by rw [he]; norm_num)).trans (by rw [he]; norm_num at hpi2 ⊢; linarith)
  have sm : |sind m| ≤ 9.7e-6 := (small (by rw [hmm]; norm_num)).trans (by rw [hmm]; norm_num at hpi2 ⊢; linarith)
  have cm0 : 0 ≤ 1 - cosd m := by have : cosd m ≤ 1 := Real.cos_le_one _; linarith
  have cm : 1 - cosd m ≤ 5e-11 := by
    have h := sq_cosd_sind m
    have h1 : sind m ^ 2 ≤ (9.7e-6) ^ 2 := by rw [← sq_abs]; exact pow_le_pow_left₀ (abs_nonneg _) sm 2
    have hc : 0.9 ≤ cosd m := by
      have : 0 < cosd m := cosd_pos (by rw [hmm]; norm_num) (by rw [hmm]; norm_num)
      norm_num at h1 ⊢
      nlinarith
    have h0 : 0.999999 ≤ cosd m := by
      norm_num at h1 hc ⊢
      nlinarith
    norm_num at h1 h0 ⊢
    nlinarith
  have s1 : sind LATITUDE ≤ 1 := Real.sin_le_one _
  have c1 : cosd (LATITUDE + e) ≤ 1 := Real.cos_le_one _
  have c2 : cosd (LATITUDE + -e) ≤ 1 := Real.cos_le_one _
  have c10 := cp e he1
  have c20 := cp (-e) he1'
  have g1 : |sind LATITUDE * cosd (LATITUDE + e) * (1 - cosd m)| ≤ 1 * 1 * 5e-11 := by
    rw [abs_of_nonneg (by positivity)]
    gcongr
  have g2 : |sind LATITUDE * cosd (LATITUDE + -e) * (1 - cosd m)| ≤ 1 * 1 * 5e-11 := by
    rw [abs_of_nonneg (by positivity)]
    gcongr
  have cmn : cosd (-m) = cosd m := by unfold cosd radians; rw [neg_mul, Real.cos_neg]
  have y1 : |sind m * cosd (LATITUDE + e)| ≤ 9.7e-6 * 1 := by
    rw [abs_mul, abs_of_pos c10]
    gcongr
  have y2 : |sind m * cosd (LATITUDE + -e)| ≤ 9.7e-6 * 1 := by
    rw [abs_mul, abs_of_pos c20]
    gcongr
  have yd : |sind m * cosd (LATITUDE + e) - sind m * cosd (LATITUDE + -e)| ≤ 1.2e-8 := by
    have ec : cosd (-e) = cosd e := by unfold cosd radians; rw [neg_mul, Real.cos_neg]
    rw [cosd_add, cosd_add, ec, sind_neg, show sind m * (cosd LATITUDE * cosd e - sind LATITUDE * sind e) -
      sind m * (cosd LATITUDE * cosd e - sind LATITUDE * -sind e) = -(2 * sind LATITUDE * (sind m * sind e)) by ring, abs_neg, abs_mul,
      abs_mul (sind m), abs_of_nonneg (by positivity)]
    have : 2 * sind LATITUDE * (|sind m| * |sind e|) ≤ 2 * 1 * (9.7e-6 * 5.82e-4) := by gcongr
    refine this.trans (by norm_num)
  have xa : (axis (-e) m).x = sind LATITUDE * cosd (LATITUDE + -e) * (1 - cosd m) - sind e := by rw [axis_eq, sind_neg]; ring
  have xb : (axis e (-m)).x = sind e + sind LATITUDE * cosd (LATITUDE + e) * (1 - cosd m) := by rw [axis_eq, cmn]
  have ya : (axis (-e) m).y = -(sind m * cosd (LATITUDE + -e)) := by rw [axis_eq]; ring
  have yb : (axis e (-m)).y = sind m * cosd (LATITUDE + e) := by rw [axis_eq, sind_neg]; ring
  have hub : Unit3 (⟨-(axis e (-m)).x, -(axis e (-m)).y, (axis e (-m)).z⟩ : V3) := by
    have h := hu e (-m)
    unfold Unit3 at h ⊢
    simp only
    linarith
  apply turn_close _ _ _ (hu _ _) hub hw (hz _ _ he1' hm1) (hz _ _ he1 hm1')
  · rw [xa]
    exact (abs_sub _ _).trans ((add_le_add g2 se).trans (by norm_num))
  · simp only
    rw [abs_neg, xb]
    exact (abs_add_le _ _).trans ((add_le_add se g1).trans (by norm_num))
  · rw [ya, abs_neg]
    exact y2.trans (by norm_num)
  · simp only
    rw [abs_neg, yb]
    exact y1.trans (by norm_num)
  · simp only
    rw [xa, xb, show sind LATITUDE * cosd (LATITUDE + -e) * (1 - cosd m) - sind e - -(sind e + sind LATITUDE * cosd (LATITUDE + e) * (1 - cosd m)) =
      sind LATITUDE * cosd (LATITUDE + -e) * (1 - cosd m) + sind LATITUDE * cosd (LATITUDE + e) * (1 - cosd m) by ring]
    exact (abs_add_le _ _).trans ((add_le_add g2 g1).trans (by norm_num))
  · simp only
    rw [ya, yb, show -(sind m * cosd (LATITUDE + -e)) - -(sind m * cosd (LATITUDE + e)) =
      sind m * cosd (LATITUDE + e) - sind m * cosd (LATITUDE + -e) by ring]
    exact yd

/-! ### Matrices that nearly keep lengths -/

/-- A matrix that keeps squares of lengths up to 1e-13. -/
def Iso (m : M3) : Prop := ∀ v : V3, |dot (m.app v) (m.app v) - dot v v| ≤ 1e-13 * dot v v

theorem iso_orth {m : M3} (h : Orth m) : Iso m := by
  intro v
  rw [h.dot, sub_self, abs_zero]
  have : 0 ≤ dot v v := by unfold dot; nlinarith [sq_nonneg v.x, sq_nonneg v.y, sq_nonneg v.z]
  positivity

theorem iso_hardcoded (b : Bool) : Iso (hardcodedPolmis b) := by
  intro v
  have h1 := sq_nonneg (v.x + v.y)
  have h2 := sq_nonneg (v.x - v.y)
  have h3 := sq_nonneg (v.x + v.z)
  have h4 := sq_nonneg (v.x - v.z)
  have h5 := sq_nonneg (v.y + v.z)
  have h6 := sq_nonneg (v.y - v.z)
  cases b <;> unfold hardcodedPolmis M3.app dot <;> simp only [Bool.false_eq_true, if_false, if_true] <;> rw [abs_le] <;>
    constructor <;> norm_num <;> linarith

theorem iso_polmis (sw : Switches) : Iso (polmis sw) := by
  unfold polmis
  split_ifs
  · exact iso_hardcoded _
  · exact iso_orth (axisToAxis_orth _ _)

theorem iso_polmisInv (sw : Switches) : Iso (polmisInv sw) := by
  unfold polmisInv
  split_ifs
  · exact iso_hardcoded _
  · exact iso_orth (axisToAxis_orth _ _)

theorem polmis_close (sw : Switches) (v : V3) (hv : Unit3 v) : gap ((polmisInv sw).app ((polmis sw).app v)) v ≤ 2e-8 := by
  by_cases h : sw.hardcoded = true
  · obtain ⟨h1, h2, h3⟩ := Verif.Props.C18_hardcoded_inverse sw h v hv
    apply gap_le (by norm_num)
    have s1 := pow_le_pow_left₀ (abs_nonneg _) h1 2
    have s2 := pow_le_pow_left₀ (abs_nonneg _) h2 2
    have s3 := pow_le_pow_left₀ (abs_nonneg _) h3 2
    rw [sq_abs] at s1 s2 s3
    norm_num at s1 s2 s3 ⊢
    linarith
  · have h := polar_close v hv
    unfold polmis polmisInv ME_ARCSEC MA_ARCSEC
    simp only [*, Bool.false_eq_true, if_false, neg_neg]

theorem E_app_sub (m : M3) (a b : V3) : E (m.app a) - E (m.app b) = E (m.app ⟨a.x - b.x, a.y - b.y, a.z - b.z⟩) := by
  ext i
  fin_cases i <;> simp [E, M3.app, dot] <;> ring

theorem iso_norm {m : M3} (h : Iso m) (v : V3) : ‖E (m.app v)‖ ≤ (1 + 1e-13) * ‖E v‖ := by
  have h1 := h v
  rw [← norm_E_sq, ← norm_E_sq, abs_le] at h1
  apply le_of_sq_le_sq _ (by positivity)
  nlinarith [sq_nonneg ‖E v‖]

theorem iso_gap {m : M3} (h : Iso m) (a b : V3) : gap (m.app a) (m.app b) ≤ (1 + 1e-13) * gap a b := by
  have e : E a - E b = E ⟨a.x - b.x, a.y - b.y, a.z - b.z⟩ := by
    ext i
    fin_cases i <;> simp [E]
  unfold gap
  rw [E_app_sub, e]
  exact iso_norm h _

/-- The direction read off a vector of nearly unit length. -/
theorem lonlat_close {w : V3} (h : |dot w w - 1| ≤ 1e-13) : gap (xyz (getLONLAT w)) w ≤ 1e-13 := by
  have hw : w.x ^ 2 + w.y ^ 2 + w.z ^ 2 = dot w w := by unfold dot; ring
  have hd : 0 < dot w w := by
    rw [abs_le] at h
    norm_num at h
    linarith [h.1]
  have hn2 : getNorm w ^ 2 = dot w w := by unfold getNorm; rw [Real.sq_sqrt (by rw [hw]; exact hd.le), hw]
  have hn0 : 0 < getNorm w := by unfold getNorm; rw [hw]; exact Real.sqrt_pos.2 hd
  have hu : Unit3 (getNormalized w) := getNormalized_isUnit (by rw [hw]; exact hd.ne')
  have e : xyz (getLONLAT w) = getNormalized w := by
    have e' : getLONLAT w = getLONLAT (getNormalized w) := by
      unfold getLONLAT
      rw [getNormalized_unit hu]
    rw [e', xyz_lonlat hu]
  rw [e]
  have ew : E w = getNorm w • E (getNormalized w) := by
    ext i
    fin_cases i <;> simp [E, getNormalized] <;> field_simp
  unfold gap
  rw [ew, show E (getNormalized w) - getNorm w • E (getNormalized w) = (1 - getNorm w) • E (getNormalized w) by module, norm_smul, norm_E hu,
    mul_one, Real.norm_eq_abs]
  rw [← hn2] at h
  rw [abs_le] at h ⊢
  norm_num at h ⊢
  constructor <;> nlinarith [h.1, h.2]

/-- To the mount and back, with an error on the way. -/
theorem mount_back (sw : Switches) (v w : V3) (hv : Unit3 v) (hw : Unit3 w) (e : ℝ) (he : gap w (xyz (getLONLAT ((polmis sw).app v))) ≤ e)
    (he1 : e ≤ 1) : gap (xyz (getLONLAT ((polmisInv sw).app w))) v ≤ e + 2.1e-8 := by
  have d1 := (unit_dot v).1 hv
  have d2 := (unit_dot w).1 hw
  have i1 := iso_polmis sw v
  rw [d1, mul_one] at i1
  have i2 := iso_polmisInv sw w
  rw [d2, mul_one] at i2
  have l1 := lonlat_close i1
  have l2 := lonlat_close i2
  have g1 := iso_gap (iso_polmisInv sw) w ((polmis sw).app v)
  have g2 := gap_triangle w (xyz (getLONLAT ((polmis sw).app v))) ((polmis sw).app v)
  have g3 := polmis_close sw v hv
  have g4 := gap_triangle (xyz (getLONLAT ((polmisInv sw).app w))) ((polmisInv sw).app w) v
  have g5 := gap_triangle ((polmisInv sw).app w) ((polmisInv sw).app ((polmis sw).app v)) v
  norm_num at *
  linarith

end Verif.Lemmas.SkyRoundTrip
