import Verif.Model.Centroid
import Mathlib.MeasureTheory.Integral.IntervalIntegral.FundThmCalculus
import Mathlib.Analysis.Calculus.MeanValue
import Mathlib.Analysis.Calculus.Deriv.MeanValue
import Mathlib.LinearAlgebra.Matrix.ToLinearEquiv
import Mathlib.LinearAlgebra.Matrix.DotProduct
import Mathlib.LinearAlgebra.Matrix.Permutation
import Mathlib.Tactic.Linarith
import Mathlib.Tactic.FieldSimp
import Mathlib.Tactic.Ring
import Mathlib.Tactic.FinCases

/-!
# C101: PSF and centroids
-/

namespace Verif.Props
open Verif.Py Verif.Model.Centroid

namespace Lemmas.Centroid

theorem cont : Continuous fun t : ℝ => Real.exp (-t ^ 2) := by fun_prop

theorem hasDerivAt_erf (x : ℝ) : HasDerivAt erf (2 / Real.sqrt Real.pi * Real.exp (-x ^ 2)) x := by
  unfold erf
  exact (intervalIntegral.integral_hasDerivAt_right (cont.intervalIntegrable _ _) (cont.stronglyMeasurableAtFilter _ _)
    cont.continuousAt).const_mul _

theorem sqrtpi_pos : 0 < Real.sqrt Real.pi := Real.sqrt_pos.2 Real.pi_pos

theorem erf_sub (x y : ℝ) : erf y - erf x = 2 / Real.sqrt Real.pi * ∫ t in x..y, Real.exp (-t ^ 2) := by
  unfold erf
  rw [← mul_sub, intervalIntegral.integral_interval_sub_left (cont.intervalIntegrable _ _) (cont.intervalIntegrable _ _)]

theorem erf_strictMono : StrictMono erf := by
  apply strictMono_of_hasDerivAt_pos hasDerivAt_erf
  intro x
  have := sqrtpi_pos
  positivity

theorem erf_neg (x : ℝ) : erf (-x) = -erf x := by
  unfold erf
  have : ∫ t in (0 : ℝ)..-x, Real.exp (-t ^ 2) = -∫ t in (0 : ℝ)..x, Real.exp (-t ^ 2) := by
    have h := intervalIntegral.integral_comp_neg (a := 0) (b := x) fun t : ℝ => Real.exp (-t ^ 2)
    simp only [neg_zero, even_two, Even.neg_pow] at h
    rw [h, intervalIntegral.integral_symm]
  rw [this, mul_neg]

theorem erf_lt_one (x : ℝ) : erf x < 1 := by
  have hlim : ∀ y, erf y ≤ 1 := by
    intro y
    rcases le_total y 0 with hy | hy
    · have := erf_strictMono.monotone hy
      have h0 : erf 0 = 0 := by simp [erf]
      linarith
    · have h1 := integral_gaussian_Ioi 1
      simp only [div_one, neg_mul, one_mul] at h1
      have h2 : ∫ t in (0 : ℝ)..y, Real.exp (-t ^ 2) ≤ ∫ t in Set.Ioi 0, Real.exp (-t ^ 2) := by
        rw [intervalIntegral.integral_of_le hy]
        apply MeasureTheory.setIntegral_mono_set
        · have := (integrable_exp_neg_mul_sq (b := 1) one_pos).integrableOn (s := Set.Ioi 0)
          simpa using this
        · exact Filter.Eventually.of_forall fun t => (Real.exp_pos _).le
        · exact (Set.Ioc_subset_Ioi_self).eventuallyLE
      rw [h1] at h2
      unfold erf
      have hp := sqrtpi_pos
      calc 2 / Real.sqrt Real.pi * ∫ t in (0 : ℝ)..y, Real.exp (-t ^ 2) ≤ 2 / Real.sqrt Real.pi * (Real.sqrt Real.pi / 2) :=
            mul_le_mul_of_nonneg_left h2 (by positivity)
        _ = 1 := by field_simp
  exact (erf_strictMono (lt_add_one x)).trans_le (hlim _)

theorem width_pos {sigma : ℝ} (h : 0 < sigma) : 0 < width sigma := by unfold width; positivity

theorem span_pos {a : ℝ} (h : 0 < a) (i c : ℝ) : 0 < span a i c := by
  unfold span
  rw [sub_pos]
  apply erf_strictMono
  apply mul_lt_mul_of_pos_left _ h
  linarith

theorem hasDerivAt_span (a i c : ℝ) : HasDerivAt (fun c => span a i c) (-a * (2 / Real.sqrt Real.pi) * jump a i c) c := by
  unfold span jump
  have h : ∀ s : ℝ, HasDerivAt (fun c => erf (a * (i + s - c))) (2 / Real.sqrt Real.pi * Real.exp (-(a * (i + s - c)) ^ 2) * (a * -1)) c := by
    intro s
    have h1 : HasDerivAt (fun c => a * (i + s - c)) (a * -1) c := ((hasDerivAt_id c).const_sub (i + s)).const_mul a
    exact (hasDerivAt_erf _).comp c h1
  have h2 := (h 0.5).sub (h (-0.5))
  have e : ∀ c : ℝ, i + -0.5 - c = i - 0.5 - c := fun c => by ring
  simp only [e] at h2
  exact h2.congr_deriv (by ring)

/-- The ratio of the derivative and the factor: minus twice the width times a place inside the pixel (scaled). -/
theorem ratio {a : ℝ} (h : 0 < a) (i c : ℝ) : ∃ x, i - 0.5 < x ∧ x < i + 0.5 ∧
    jump a i c = -(a * (x - c)) * Real.sqrt Real.pi * span a i c := by
  have hlt : a * (i - 0.5 - c) < a * (i + 0.5 - c) := mul_lt_mul_of_pos_left (by linarith) h
  have hg : ∀ t : ℝ, HasDerivAt (fun t => Real.exp (-t ^ 2)) (Real.exp (-t ^ 2) * (-(2 * t))) t := by
    intro t
    have := ((hasDerivAt_pow 2 t).neg).exp
    simpa using this
  obtain ⟨t, ht, e⟩ := exists_ratio_hasDerivAt_eq_ratio_slope (fun t => Real.exp (-t ^ 2)) _ hlt cont.continuousOn
    (fun t _ => hg t) erf _ (fun t _ => (hasDerivAt_erf t).continuousAt.continuousWithinAt) fun t _ => hasDerivAt_erf t
  refine ⟨t / a + c, ?_, ?_, ?_⟩
  · have := (lt_div_iff₀' h).2 ht.1; linarith
  · have := (div_lt_iff₀' h).2 ht.2; linarith
  · have hp := sqrtpi_pos
    have he := Real.exp_pos (-t ^ 2)
    unfold jump span
    have e' : (Real.exp (-(a * (i + 0.5 - c)) ^ 2) - Real.exp (-(a * (i - 0.5 - c)) ^ 2)) * (2 / Real.sqrt Real.pi) * Real.exp (-t ^ 2) =
        (erf (a * (i + 0.5 - c)) - erf (a * (i - 0.5 - c))) * (-(2 * t)) * Real.exp (-t ^ 2) := by linarith
    have e'' := mul_right_cancel₀ he.ne' e'
    have : a * (t / a + c - c) = t := by field_simp; ring
    rw [this]
    generalize Real.exp (-(a * (i + 0.5 - c)) ^ 2) - Real.exp (-(a * (i - 0.5 - c)) ^ 2) = J at e'' ⊢
    generalize erf (a * (i + 0.5 - c)) - erf (a * (i - 0.5 - c)) = S at e'' ⊢
    field_simp at e''
    linarith

/-- A dependency of the rows of `H` (other than zero) exists exactly if the flux is zero or the stamp is thinner than two pixels. -/
theorem dependent {n0 n1 : ℕ} (h0 : 0 < n0) (h1 : 0 < n1) {sigma : ℝ} (hs : 0 < sigma) (s : St) :
    (∃ v : Fin 3 → ℝ, v ≠ 0 ∧ ∀ p : Pix n0 n1, ∑ k, v k * rows sigma s k p = 0) ↔ s.flux = 0 ∨ n0 = 1 ∨ n1 = 1 := by
  have ha := width_pos hs
  set a := width sigma with hadef
  have hp := sqrtpi_pos
  -- the rows divided by the PSF
  choose u hu1 hu2 hu3 using fun (i : ℕ) (c : ℝ) => ratio ha (i : ℝ) c
  have hsum : ∀ (v : Fin 3 → ℝ) (p : Pix n0 n1), ∑ k, v k * rows sigma s k p =
      0.25 * span a (p.2 : ℕ) s.xc * span a (p.1 : ℕ) s.yc *
        (v 0 + v 1 * s.flux * (2 * a ^ 2) * (u (p.2 : ℕ) s.xc - s.xc) + v 2 * s.flux * (2 * a ^ 2) * (u (p.1 : ℕ) s.yc - s.yc)) := by
    intro v p
    rw [Fin.sum_univ_three]
    simp only [rows, Matrix.of_apply, Matrix.cons_val_zero, Matrix.cons_val_one, Matrix.cons_val, psf, dpsfdxc, dpsfdyc, ← hadef,
      hu3]
    field_simp
  have hne : ∀ p : Pix n0 n1, 0.25 * span a (p.2 : ℕ) s.xc * span a (p.1 : ℕ) s.yc ≠ 0 := by
    intro p
    have := span_pos ha (p.2 : ℕ) s.xc
    have := span_pos ha (p.1 : ℕ) s.yc
    positivity
  constructor
  · rintro ⟨v, hv, h⟩
    by_contra hc
    push Not at hc
    obtain ⟨hf, hn0, hn1⟩ := hc
    apply hv
    have key : ∀ p : Pix n0 n1, v 0 + v 1 * s.flux * (2 * a ^ 2) * (u (p.2 : ℕ) s.xc - s.xc) +
        v 2 * s.flux * (2 * a ^ 2) * (u (p.1 : ℕ) s.yc - s.yc) = 0 := by
      intro p
      have := h p
      rw [hsum] at this
      exact (mul_eq_zero.1 this).resolve_left (hne p)
    have k00 := key (⟨0, h0⟩, ⟨0, h1⟩)
    have k01 := key (⟨0, h0⟩, ⟨1, by omega⟩)
    have k10 := key (⟨1, by omega⟩, ⟨0, h1⟩)
    have hx : u 0 s.xc < u 1 s.xc := by
      have a1 := hu2 0 s.xc
      have a2 := hu1 1 s.xc
      push_cast at a1 a2
      linarith
    have hy : u 0 s.yc < u 1 s.yc := by
      have a1 := hu2 0 s.yc
      have a2 := hu1 1 s.yc
      push_cast at a1 a2
      linarith
    simp only at k00 k01 k10
    have hv1 : v 1 = 0 := by
      have : v 1 * (s.flux * (2 * a ^ 2) * (u 1 s.xc - u 0 s.xc)) = 0 := by linear_combination k01 - k00
      refine (mul_eq_zero.1 this).resolve_right ?_
      have : u 1 s.xc - u 0 s.xc ≠ 0 := by linarith
      positivity
    have hv2 : v 2 = 0 := by
      have : v 2 * (s.flux * (2 * a ^ 2) * (u 1 s.yc - u 0 s.yc)) = 0 := by linear_combination k10 - k00
      refine (mul_eq_zero.1 this).resolve_right ?_
      have : u 1 s.yc - u 0 s.yc ≠ 0 := by linarith
      positivity
    have hv0 : v 0 = 0 := by
      rw [hv1, hv2] at k00
      linarith
    funext k
    fin_cases k
    · exact hv0
    · exact hv1
    · exact hv2
  · intro h
    by_cases hf : s.flux = 0
    · refine ⟨![0, 1, 0], fun h => by simpa using congrFun h 1, fun p => ?_⟩
      rw [hsum, hf]
      simp
    · rcases h.resolve_left hf with rfl | rfl
      · refine ⟨![-(s.flux * (2 * a ^ 2) * (u 0 s.yc - s.yc)), 0, 1], fun h => by simpa using congrFun h 2, fun p => ?_⟩
        rw [hsum]
        have : ((p.1 : Fin 1) : ℕ) = 0 := by omega
        simp
      · refine ⟨![-(s.flux * (2 * a ^ 2) * (u 0 s.xc - s.xc)), 1, 0], fun h => by simpa using congrFun h 1, fun p => ?_⟩
        rw [hsum]
        have : ((p.2 : Fin 1) : ℕ) = 0 := by omega
        simp

theorem det_zero {m : Type} [Fintype m] (H : Matrix (Fin 3) m ℝ) :
    (H * H.transpose).det = 0 ↔ ∃ v : Fin 3 → ℝ, v ≠ 0 ∧ ∀ p, ∑ k, v k * H k p = 0 := by
  rw [← Matrix.exists_vecMul_eq_zero_iff]
  have e : ∀ v : Fin 3 → ℝ, Matrix.vecMul v H = fun p => ∑ k, v k * H k p := fun v => rfl
  constructor
  · rintro ⟨v, hv, h⟩
    refine ⟨v, hv, ?_⟩
    have h1 : dotProduct (Matrix.vecMul v H) (Matrix.vecMul v H) = 0 := by
      have : Matrix.vecMul v H = Matrix.mulVec H.transpose v := (Matrix.mulVec_transpose H v).symm
      nth_rewrite 2 [this]
      rw [Matrix.dotProduct_mulVec, Matrix.vecMul_vecMul, h, zero_dotProduct]
    have h2 := dotProduct_self_eq_zero.1 h1
    intro p
    have := congrFun h2 p
    rwa [e] at this
  · rintro ⟨v, hv, h⟩
    refine ⟨v, hv, ?_⟩
    rw [← Matrix.vecMul_vecMul, e]
    rw [show (fun p => ∑ k, v k * H k p) = 0 from funext h, Matrix.zero_vecMul]

theorem step_error {n0 n1 : ℕ} {sigma : ℝ} (hs : 0 < sigma) (stamp : Stamp n0 n1) (s : St) (e : PyErr) :
    step sigma stamp s = .error e ↔ e = .linAlgError ∧ (s.flux = 0 ∨ n0 ≤ 1 ∨ n1 ≤ 1) := by
  have key : ((rows sigma s : Matrix (Fin 3) (Pix n0 n1) ℝ) * (rows sigma s).transpose).det = 0 ↔ (s.flux = 0 ∨ n0 ≤ 1 ∨ n1 ≤ 1) := by
    rw [det_zero]
    rcases Nat.eq_zero_or_pos n0 with rfl | h0
    · exact ⟨fun _ => .inr (.inl (by omega)), fun _ => ⟨fun _ => 1, fun h => by simpa using congrFun h 0, fun p => p.1.elim0⟩⟩
    · rcases Nat.eq_zero_or_pos n1 with rfl | h1
      · exact ⟨fun _ => .inr (.inr (by omega)), fun _ => ⟨fun _ => 1, fun h => by simpa using congrFun h 0, fun p => p.2.elim0⟩⟩
      · rw [dependent h0 h1 hs]
        have a0 : n0 = 1 ↔ n0 ≤ 1 := by omega
        have a1 : n1 = 1 ↔ n1 ≤ 1 := by omega
        rw [a0, a1]
  unfold step
  dsimp only
  split_ifs with h
  · exact ⟨fun hh => ⟨(Except.error.inj hh).symm, key.1 h⟩, fun hh => by rw [hh.1]⟩
  · exact ⟨fun hh => (nomatch hh), fun hh => absurd (key.2 hh.2) h⟩

theorem step_ok {n0 n1 : ℕ} {sigma : ℝ} {stamp : Stamp n0 n1} {s : St} {d : Fin 3 → ℝ} {Ai : Matrix (Fin 3) (Fin 3) ℝ}
    (h : step sigma stamp s = .ok (d, Ai)) :
    ((rows sigma s : Matrix (Fin 3) (Pix n0 n1) ℝ) * (rows sigma s).transpose).det ≠ 0 ∧
    Ai = ((rows sigma s : Matrix (Fin 3) (Pix n0 n1) ℝ) * (rows sigma s).transpose)⁻¹ ∧
    d = limit (Ai.mulVec ((rows sigma s : Matrix (Fin 3) (Pix n0 n1) ℝ).mulVec (resid sigma stamp s))) := by
  unfold step at h
  dsimp only at h
  split_ifs at h with hd
  obtain ⟨rfl, rfl⟩ := Prod.mk.inj (Except.ok.inj h)
  exact ⟨hd, rfl, rfl⟩

theorem limit_le (d : Fin 3 → ℝ) : |limit d 1| ≤ 0.2 ∧ |limit d 2| ≤ 0.2 := by
  unfold limit
  split_ifs with h
  · have hp : 0 < max |d 1| |d 2| := lt_trans (by norm_num) h
    have hq : 0 ≤ 0.2 / max |d 1| |d 2| := by positivity
    simp only [Pi.smul_apply, smul_eq_mul, abs_mul, abs_of_nonneg hq]
    constructor
    · rw [div_mul_eq_mul_div, div_le_iff₀ hp]
      exact mul_le_mul_of_nonneg_left (le_max_left _ _) (by norm_num)
    · rw [div_mul_eq_mul_div, div_le_iff₀ hp]
      exact mul_le_mul_of_nonneg_left (le_max_right _ _) (by norm_num)
  · rw [gt_iff_lt, not_lt] at h
    exact ⟨(le_max_left _ _).trans h, (le_max_right _ _).trans h⟩

theorem loop_bound {n0 n1 : ℕ} {sigma : ℝ} {stamp : Stamp n0 n1} : ∀ (n : ℕ) (s s' : St) (Ai : Matrix (Fin 3) (Fin 3) ℝ),
    loop sigma stamp n s = .ok (s', Ai) → |s'.xc - s.xc| ≤ 0.2 * (n + 1) ∧ |s'.yc - s.yc| ≤ 0.2 * (n + 1)
  | n, s, s', Ai, h => by
    unfold loop at h
    split at h
    · exact nomatch h
    · rename_i d A hd
      obtain ⟨_, _, e⟩ := step_ok hd
      have hl := limit_le (A.mulVec ((rows sigma s : Matrix (Fin 3) (Pix n0 n1) ℝ).mulVec (resid sigma stamp s)))
      rw [← e] at hl
      have hmove : ∀ r, r = move s d → |r.xc - s.xc| ≤ 0.2 ∧ |r.yc - s.yc| ≤ 0.2 := by
        rintro r rfl
        simp only [move, add_sub_cancel_left]
        exact hl
      cases n with
      | zero =>
        dsimp only at h
        have := hmove s' (Prod.ext_iff.1 (Except.ok.inj h)).1.symm
        norm_num at this ⊢
        exact this
      | succ n =>
        dsimp only at h
        split_ifs at h with hc
        · have := hmove s' (Prod.ext_iff.1 (Except.ok.inj h)).1.symm
          have hn : (0 : ℝ) ≤ n := Nat.cast_nonneg n
          push_cast
          constructor <;> linarith [this.1, this.2]
        · have h1 := loop_bound n _ _ _ h
          have h2 := hmove _ rfl
          push_cast
          constructor
          · have := abs_sub_le s'.xc (move s d).xc s.xc
            linarith [h1.1, h2.1]
          · have := abs_sub_le s'.yc (move s d).yc s.yc
            linarith [h1.2, h2.2]

/-- How the loop behaves under a change of stamp, coordinates and parameters. -/
theorem loop_transform {n0 n1 m0 m1 : ℕ} {sigma : ℝ} {stamp : Stamp n0 n1} {stamp' : Stamp m0 m1} (e : Pix m0 m1 ≃ Pix n0 n1)
    (T : St → St) (D M : Matrix (Fin 3) (Fin 3) ℝ) (c : ℝ)
    (hH : ∀ s, (rows sigma (T s) : Matrix (Fin 3) (Pix m0 m1) ℝ) = D * (rows sigma s).submatrix id e)
    (hr : ∀ s, resid sigma stamp' (T s) = c • (resid sigma stamp s ∘ e))
    (hM : M * D.transpose = 1)
    (hlim : ∀ d : Fin 3 → ℝ, max |(c • M.mulVec d) 1| |(c • M.mulVec d) 2| = max |d 1| |d 2|)
    (hT : ∀ s d, move (T s) (c • M.mulVec d) = T (move s d)) :
    ∀ n s, loop sigma stamp' n (T s) = (loop sigma stamp n s).map fun r => (T r.1, M * r.2 * M.transpose)
  | n, s => by
    have hM' : D.transpose * M = 1 := mul_eq_one_comm.1 hM
    have hMt : D * M.transpose = 1 := by
      have := congrArg Matrix.transpose hM
      rwa [Matrix.transpose_mul, Matrix.transpose_transpose, Matrix.transpose_one] at this
    have hMt' : M.transpose * D = 1 := mul_eq_one_comm.1 hMt
    obtain ⟨H, hHdef⟩ : ∃ H : Matrix (Fin 3) (Pix n0 n1) ℝ, H = rows sigma s := ⟨_, rfl⟩
    have hA : (rows sigma (T s) : Matrix (Fin 3) (Pix m0 m1) ℝ) * (rows sigma (T s)).transpose = D * (H * H.transpose) * D.transpose := by
      rw [hH, ← hHdef, Matrix.transpose_mul, Matrix.transpose_submatrix, Matrix.mul_assoc, ← Matrix.mul_assoc (H.submatrix id e),
        Matrix.submatrix_mul_equiv, Matrix.submatrix_id_id]
      simp only [Matrix.mul_assoc]
    have hB : (rows sigma (T s) : Matrix (Fin 3) (Pix m0 m1) ℝ).mulVec (resid sigma stamp' (T s)) =
        c • D.mulVec (H.mulVec (resid sigma stamp s)) := by
      rw [hH, ← hHdef, hr, Matrix.mulVec_smul, ← Matrix.mulVec_mulVec, Matrix.submatrix_mulVec_equiv]
      congr 2
      simp [Function.comp_assoc]
    have hdD : D.det ≠ 0 := by
      intro h0
      have := congrArg Matrix.det hMt
      rw [Matrix.det_mul, h0, zero_mul, Matrix.det_one] at this
      exact zero_ne_one this
    have hdet : ((rows sigma (T s) : Matrix (Fin 3) (Pix m0 m1) ℝ) * (rows sigma (T s)).transpose).det = 0 ↔ (H * H.transpose).det = 0 := by
      rw [hA, Matrix.det_mul, Matrix.det_mul, Matrix.det_transpose]
      constructor
      · intro h
        rcases mul_eq_zero.1 h with h | h
        · exact (mul_eq_zero.1 h).resolve_left hdD
        · exact absurd h hdD
      · intro h; rw [h]; ring
    have hlimit : ∀ d, limit (c • M.mulVec d) = c • M.mulVec (limit d) := by
      intro d
      unfold limit
      dsimp only
      rw [hlim]
      split_ifs
      · rw [Matrix.mulVec_smul, smul_comm]
      · rfl
    have hstep : step sigma stamp' (T s) = (step sigma stamp s).map fun r => (c • M.mulVec r.1, M * r.2 * M.transpose) := by
      unfold step
      dsimp only
      rw [← hHdef]
      by_cases hd : (H * H.transpose).det = 0
      · rw [if_pos hd, if_pos (hdet.2 hd)]
        rfl
      · rw [if_neg hd, if_neg fun h => hd (hdet.1 h)]
        have hinv : (D * (H * H.transpose) * D.transpose)⁻¹ = M * (H * H.transpose)⁻¹ * M.transpose := by
          apply Matrix.inv_eq_right_inv
          have hu : (H * H.transpose) * (H * H.transpose)⁻¹ = 1 := Matrix.mul_nonsing_inv _ (isUnit_iff_ne_zero.2 hd)
          calc D * (H * H.transpose) * D.transpose * (M * (H * H.transpose)⁻¹ * M.transpose)
              = D * ((H * H.transpose) * ((D.transpose * M) * (H * H.transpose)⁻¹)) * M.transpose := by simp only [Matrix.mul_assoc]
            _ = 1 := by rw [hM', Matrix.one_mul, hu, Matrix.mul_one, hMt]
        show Except.ok _ = Except.ok _
        rw [hA, hB, hinv, Matrix.mulVec_smul, Matrix.mulVec_mulVec, Matrix.mul_assoc (M * _), hMt', Matrix.mul_one, ← Matrix.mulVec_mulVec,
          hlimit]
    unfold loop
    rw [hstep]
    rcases step sigma stamp s with err | ⟨d, Ai⟩
    · rfl
    · show (match n with
        | 0 => Except.ok (move (T s) (c • M.mulVec d), M * Ai * M.transpose)
        | n + 1 => if |(c • M.mulVec d) 1| < 0.001 ∧ |(c • M.mulVec d) 2| < 0.001 then .ok (move (T s) (c • M.mulVec d), M * Ai * M.transpose)
          else loop sigma stamp' n (move (T s) (c • M.mulVec d))) = _
      rw [hT]
      cases n with
      | zero => rfl
      | succ n =>
        dsimp only
        have hiff : (|(c • M.mulVec d) 1| < 0.001 ∧ |(c • M.mulVec d) 2| < 0.001) ↔ (|d 1| < 0.001 ∧ |d 2| < 0.001) := by
          rw [← max_lt_iff, hlim, max_lt_iff]
        simp only [hiff]
        split_ifs
        · rfl
        · exact loop_transform e T D M c hH hr hM hlim hT n (move s d)

end Lemmas.Centroid

open Lemmas.Centroid

/-- **C101**. The PSF of a pixel is the flux of a Gaussian of width `sigma` at `(xc, yc)` that falls on the unit square around the pixel. -/
theorem C101_psf (i0 i1 xc yc sigma : ℝ) (hs : 0 < sigma) :
    psf i0 i1 xc yc sigma =
      (∫ x in i1 - 1 / 2..i1 + 1 / 2, Real.exp (-(x - xc) ^ 2 / (2 * sigma ^ 2)) / Real.sqrt (2 * Real.pi * sigma ^ 2)) *
      ∫ y in i0 - 1 / 2..i0 + 1 / 2, Real.exp (-(y - yc) ^ 2 / (2 * sigma ^ 2)) / Real.sqrt (2 * Real.pi * sigma ^ 2) := by
  have hw : width sigma ≠ 0 := (width_pos hs).ne'
  have key : ∀ i c : ℝ, 1 / 2 * span (width sigma) i c =
      ∫ x in i - 1 / 2..i + 1 / 2, Real.exp (-(x - c) ^ 2 / (2 * sigma ^ 2)) / Real.sqrt (2 * Real.pi * sigma ^ 2) := by
    intro i c
    unfold span
    rw [erf_sub, intervalIntegral.integral_div]
    have h1 := intervalIntegral.integral_comp_mul_sub (a := i - 1 / 2) (b := i + 1 / 2) (fun t : ℝ => Real.exp (-t ^ 2)) hw (width sigma * c)
    have e1 : width sigma * (i - 1 / 2) - width sigma * c = width sigma * (i - 0.5 - c) := by norm_num; ring
    have e2 : width sigma * (i + 1 / 2) - width sigma * c = width sigma * (i + 0.5 - c) := by norm_num; ring
    rw [e1, e2] at h1
    have hsq : Real.sqrt 2 ^ 2 = 2 := Real.sq_sqrt (by norm_num)
    have e3 : ∀ x : ℝ, -(width sigma * x - width sigma * c) ^ 2 = -(x - c) ^ 2 / (2 * sigma ^ 2) := by
      intro x
      unfold width
      field_simp
      rw [hsq]
      ring
    simp only [e3] at h1
    rw [h1, smul_eq_mul]
    have e4 : Real.sqrt (2 * Real.pi * sigma ^ 2) = Real.sqrt 2 * Real.sqrt Real.pi * sigma := by
      rw [Real.sqrt_mul (by positivity), Real.sqrt_mul (by norm_num), Real.sqrt_sq hs.le]
    rw [e4]
    have := sqrtpi_pos
    unfold width
    field_simp
  unfold psf
  rw [← key, ← key]
  ring

/-- **C101**. The two functions used as derivatives of the PSF are its derivatives with respect to the position, for all pixels and positions. -/
theorem C101_derivative (i0 i1 xc yc sigma : ℝ) :
    HasDerivAt (fun x => psf i0 i1 x yc sigma) (dpsfdxc i0 i1 xc yc sigma) xc ∧
    HasDerivAt (fun y => psf i0 i1 xc y sigma) (dpsfdyc i0 i1 xc yc sigma) yc := by
  unfold psf dpsfdxc dpsfdyc
  constructor
  · exact (((hasDerivAt_span _ i1 xc).const_mul 0.25).mul_const _).congr_deriv (by ring)
  · exact ((hasDerivAt_span _ i0 yc).const_mul _).congr_deriv (by ring)

/-- **C101**. The PSF is positive in every pixel, and in any stamp less than the total flux is found. -/
theorem C101_total (n0 n1 : ℕ) (xc yc sigma : ℝ) (hs : 0 < sigma) :
    (∀ i0 i1 : ℝ, 0 < psf i0 i1 xc yc sigma) ∧
    ∑ i : Fin n0, ∑ j : Fin n1, psf (i : ℕ) (j : ℕ) xc yc sigma < 1 := by
  have hw := width_pos hs
  constructor
  · intro i0 i1
    have := span_pos hw i1 xc
    have := span_pos hw i0 yc
    unfold psf
    positivity
  · have hsum : ∀ (n : ℕ) (c : ℝ), ∑ i : Fin n, span (width sigma) (i : ℕ) c = erf (width sigma * (n - 0.5 - c)) - erf (width sigma * (-0.5 - c)) := by
      intro n c
      rw [Fin.sum_univ_eq_sum_range fun i => span (width sigma) (i : ℕ) c]
      induction n with
      | zero => simp
      | succ n ih =>
        rw [Finset.sum_range_succ, ih]
        unfold span
        have : ((n : ℝ) + 0.5 - c) = ((n + 1 : ℕ) : ℝ) - 0.5 - c := by push_cast; ring
        rw [this]
        ring
    have hlt : ∀ (n : ℕ) (c : ℝ), 0 ≤ ∑ i : Fin n, span (width sigma) (i : ℕ) c ∧ ∑ i : Fin n, span (width sigma) (i : ℕ) c < 2 := by
      intro n c
      refine ⟨Finset.sum_nonneg fun i _ => (span_pos hw _ _).le, ?_⟩
      rw [hsum]
      have h1 := erf_lt_one (width sigma * (n - 0.5 - c))
      have h2 := erf_lt_one (-(width sigma * (-0.5 - c)))
      rw [erf_neg] at h2
      linarith
    have : ∑ i : Fin n0, ∑ j : Fin n1, psf (i : ℕ) (j : ℕ) xc yc sigma =
        0.25 * (∑ j : Fin n1, span (width sigma) (j : ℕ) xc) * ∑ i : Fin n0, span (width sigma) (i : ℕ) yc := by
      rw [Finset.mul_sum]
      refine Finset.sum_congr rfl fun i _ => ?_
      rw [Finset.mul_sum, Finset.sum_mul]
      rfl
    rw [this]
    have h1 := hlt n1 xc
    have h2 := hlt n0 yc
    nlinarith [mul_lt_mul'' h1.2 h2.2 h1.1 h2.1]

/-- The states the iteration goes through: `k` passes from the start. -/
inductive Lemmas.Centroid.Iterate {n0 n1 : ℕ} (sigma : ℝ) (stamp : Stamp n0 n1) : ℕ → St → Prop
  | start : Iterate sigma stamp 0 (start stamp)
  | next {k s d Ai} : Iterate sigma stamp k s → step sigma stamp s = .ok (d, Ai) → Iterate sigma stamp (k + 1) (move s d)

theorem Lemmas.Centroid.loop_error {n0 n1 : ℕ} {sigma : ℝ} {stamp : Stamp n0 n1} {e : PyErr} : ∀ (n k : ℕ) (s : St), Iterate sigma stamp k s →
    loop sigma stamp n s = .error e → ∃ k' s', k ≤ k' ∧ k' ≤ k + n ∧ Iterate sigma stamp k' s' ∧ step sigma stamp s' = .error e
  | n, k, s, hk, h => by
    unfold loop at h
    split at h
    · rename_i e' he
      rw [Except.error.inj h] at he
      exact ⟨k, s, le_rfl, by omega, hk, he⟩
    · rename_i d A hd
      cases n with
      | zero => exact nomatch h
      | succ n =>
        dsimp only at h
        split_ifs at h
        obtain ⟨k', s', h1, h2, h3, h4⟩ := loop_error n (k + 1) _ (hk.next hd) h
        exact ⟨k', s', by omega, by omega, h3, h4⟩

/-- **C101**. The fit fails only with `LinAlgError`; it does so for a stamp less than two pixels wide or high and for one with sum zero, and
otherwise only if one of the (at most five) flux estimates is exactly zero. -/
theorem C101_fails {n0 n1 : ℕ} (stamp : Stamp n0 n1) (sigma noise : ℝ) (hs : 0 < sigma) :
    (∀ e, fitGaussian stamp sigma noise = .error e → e = .linAlgError ∧
      (n0 ≤ 1 ∨ n1 ≤ 1 ∨ ∃ k < 5, ∃ s, Iterate sigma stamp k s ∧ s.flux = 0)) ∧
    (n0 ≤ 1 ∨ n1 ≤ 1 ∨ ∑ i, ∑ j, stamp i j = 0 → fitGaussian stamp sigma noise = .error .linAlgError) := by
  constructor
  · intro e h
    unfold fitGaussian at h
    split at h
    · rename_i e' he
      rw [Except.error.inj h] at he
      obtain ⟨k, s, _, hk, h1, h2⟩ := loop_error 4 0 _ .start he
      obtain ⟨rfl, h3⟩ := (step_error hs stamp s e).1 h2
      refine ⟨rfl, ?_⟩
      rcases h3 with h3 | h3 | h3
      · exact .inr (.inr ⟨k, by omega, s, h1, h3⟩)
      · exact .inl h3
      · exact .inr (.inl h3)
    · exact nomatch h
  · intro h
    have : step sigma stamp (start stamp) = .error .linAlgError := by
      rw [step_error hs]
      refine ⟨rfl, ?_⟩
      rcases h with h | h | h
      · exact .inr (.inl h)
      · exact .inr (.inr h)
      · exact .inl h
    unfold fitGaussian loop
    rw [this]

/-- **C101**. Whatever the stamp contains, the fitted position is within one pixel of the centre of the stamp in both coordinates: a spot whose
centre is farther from the peak pixel is not found where it is. -/
theorem C101_within_a_pixel {n0 n1 : ℕ} (stamp : Stamp n0 n1) (sigma noise : ℝ) (r : Res) (h : fitGaussian stamp sigma noise = .ok r) :
    |r.x| ≤ 1 ∧ |r.y| ≤ 1 := by
  unfold fitGaussian at h
  split at h
  · exact nomatch h
  · rename_i s A hl
    have := loop_bound _ _ _ _ hl
    rw [← Except.ok.inj h]
    simp only [start] at this
    norm_num at this
    exact this

theorem Lemmas.Centroid.conj_diag (M A : Matrix (Fin 3) (Fin 3) ℝ) (k : Fin 3) :
    (M * A * M.transpose) k k = ∑ j, (∑ i, M k i * A i j) * M k j := by
  simp only [Matrix.mul_apply, Matrix.transpose_apply]

/-- **C101**. Exchanging rows and columns of the stamp exchanges x and y of the result. -/
theorem C101_transpose {n0 n1 : ℕ} (stamp : Stamp n0 n1) (sigma noise : ℝ) :
    fitGaussian (fun j i => stamp i j) sigma noise = (fitGaussian stamp sigma noise).map fun r => ⟨r.y, r.x, r.ye, r.xe, r.flux⟩ := by
  have key := loop_transform (sigma := sigma) (stamp := stamp) (stamp' := fun j i => stamp i j) (Equiv.prodComm _ _)
    (fun s => ⟨s.flux, s.yc, s.xc⟩) !![1, 0, 0; 0, 0, 1; 0, 1, 0] !![1, 0, 0; 0, 0, 1; 0, 1, 0] 1
    (by
      intro s
      ext k p
      rw [Matrix.mul_apply, Fin.sum_univ_three]
      fin_cases k <;> simp [rows, psf, dpsfdxc, dpsfdyc] <;> first | (left; ring) | ring)
    (by
      intro s
      funext p
      simp [resid, psf]
      left
      ring)
    (by ext i j; fin_cases i <;> fin_cases j <;> simp [Matrix.mul_apply, Fin.sum_univ_three])
    (by
      intro d
      simp [dotProduct, Fin.sum_univ_three, max_comm])
    (by
      intro s d
      simp [move, dotProduct, Fin.sum_univ_three]) 4 (start stamp)
  have hst : (⟨(start stamp).flux, (start stamp).yc, (start stamp).xc⟩ : St) = start fun j i => stamp i j := by
    unfold start
    rw [Finset.sum_comm]
  rw [hst] at key
  unfold fitGaussian
  rw [key]
  rcases loop sigma stamp 4 (start stamp) with e | ⟨s, Ai⟩
  · rfl
  · show Except.ok _ = Except.ok _
    rw [conj_diag, conj_diag]
    simp [Fin.sum_univ_three]

/-- **C101**. A mirrored stamp with an odd number of columns has the position with x reversed and the same errors and flux. -/
theorem C101_mirror {n0 m : ℕ} (stamp : Stamp n0 (2 * m + 1)) (sigma noise : ℝ) :
    fitGaussian (fun i j => stamp i j.rev) sigma noise = (fitGaussian stamp sigma noise).map fun r => ⟨-r.x, r.y, r.xe, r.ye, r.flux⟩ := by
  have hrev : ∀ (a c : ℝ) (j : Fin (2 * m + 1)), span a (j : ℕ) (2 * m - c) = span a ((j.rev : Fin (2 * m + 1)) : ℕ) c ∧
      jump a (j : ℕ) (2 * m - c) = -jump a ((j.rev : Fin (2 * m + 1)) : ℕ) c := by
    intro a c j
    have hj : (((j.rev : Fin (2 * m + 1)) : ℕ) : ℝ) = 2 * m - (j : ℕ) := by
      rw [Fin.val_rev]
      have : 2 * m + 1 - ((j : ℕ) + 1) = 2 * m - (j : ℕ) := by omega
      rw [this, Nat.cast_sub (by omega)]
      push_cast
      ring
    have e1 : a * (((j : ℕ) : ℝ) + 0.5 - (2 * m - c)) = -(a * (2 * m - (j : ℕ) - 0.5 - c)) := by ring
    have e2 : a * (((j : ℕ) : ℝ) - 0.5 - (2 * m - c)) = -(a * (2 * m - (j : ℕ) + 0.5 - c)) := by ring
    unfold span jump
    rw [hj, e1, e2, erf_neg, erf_neg, neg_sq, neg_sq]
    constructor <;> ring
  have key := loop_transform (sigma := sigma) (stamp := stamp) (stamp' := fun i j => stamp i j.rev)
    ((Equiv.refl _).prodCongr Fin.revPerm)
    (fun s => ⟨s.flux, 2 * m - s.xc, s.yc⟩) !![1, 0, 0; 0, -1, 0; 0, 0, 1] !![1, 0, 0; 0, -1, 0; 0, 0, 1] 1
    (by
      intro s
      ext k p
      rw [Matrix.mul_apply, Fin.sum_univ_three]
      fin_cases k <;> simp [rows, psf, dpsfdxc, dpsfdyc, (hrev _ _ _).1, (hrev _ _ _).2])
    (by
      intro s
      funext p
      simp [resid, psf, (hrev _ _ _).1])
    (by ext i j; fin_cases i <;> fin_cases j <;> simp [Matrix.mul_apply, Fin.sum_univ_three])
    (by
      intro d
      simp [dotProduct, Fin.sum_univ_three])
    (by
      intro s d
      simp [move, dotProduct, Fin.sum_univ_three]
      ring) 4 (start stamp)
  have hm : (2 * m + 1) / 2 = m := by omega
  have hst : (⟨(start stamp).flux, 2 * m - (start stamp).xc, (start stamp).yc⟩ : St) = start fun i j => stamp i j.rev := by
    have hf : ∑ i, ∑ j, stamp i j = ∑ i, ∑ j : Fin (2 * m + 1), stamp i j.rev :=
      Finset.sum_congr rfl fun i _ => (Equiv.sum_comp Fin.revPerm (stamp i)).symm
    unfold start
    dsimp only
    rw [hm, hf]
    congr 1
    ring
  rw [hst] at key
  unfold fitGaussian
  rw [key, hm]
  rcases loop sigma stamp 4 (start stamp) with e | ⟨s, Ai⟩
  · rfl
  · show Except.ok _ = Except.ok _
    rw [conj_diag, conj_diag]
    simp [Fin.sum_univ_three]
    ring

/-- **C101**. A stamp multiplied with a number other than zero has the same position, the flux multiplied with the number and errors divided by
its modulus. -/
theorem C101_scale {n0 n1 : ℕ} (stamp : Stamp n0 n1) (sigma noise c : ℝ) (hc : c ≠ 0) :
    fitGaussian (fun i j => c * stamp i j) sigma noise =
      (fitGaussian stamp sigma noise).map fun r => ⟨r.x, r.y, r.xe / |c|, r.ye / |c|, c * r.flux⟩ := by
  have key := loop_transform (sigma := sigma) (stamp := stamp) (stamp' := fun i j => c * stamp i j) (Equiv.refl _)
    (fun s => ⟨c * s.flux, s.xc, s.yc⟩) !![1, 0, 0; 0, c, 0; 0, 0, c] !![1, 0, 0; 0, c⁻¹, 0; 0, 0, c⁻¹] c
    (by
      intro s
      ext k p
      rw [Matrix.mul_apply, Fin.sum_univ_three]
      fin_cases k <;> simp [rows] <;> ring)
    (by
      intro s
      funext p
      simp [resid]
      ring)
    (by ext i j; fin_cases i <;> fin_cases j <;> simp [Matrix.mul_apply, Fin.sum_univ_three, hc])
    (by
      intro d
      simp [dotProduct, Fin.sum_univ_three, hc])
    (by
      intro s d
      simp [move, dotProduct, Fin.sum_univ_three, hc]
      ring) 4 (start stamp)
  have hst : (⟨c * (start stamp).flux, (start stamp).xc, (start stamp).yc⟩ : St) = start fun i j => c * stamp i j := by
    unfold start
    simp only [Finset.mul_sum]
  rw [hst] at key
  unfold fitGaussian
  rw [key]
  rcases loop sigma stamp 4 (start stamp) with e | ⟨s, Ai⟩
  · rfl
  · have hsq : ∀ v : ℝ, Real.sqrt (c⁻¹ * v * c⁻¹) = Real.sqrt v / |c| := by
      intro v
      rw [show c⁻¹ * v * c⁻¹ = (c⁻¹) ^ 2 * v by ring, Real.sqrt_mul (sq_nonneg _), Real.sqrt_sq_eq_abs, abs_inv]
      field_simp
    show Except.ok _ = Except.ok _
    rw [conj_diag, conj_diag]
    simp [Fin.sum_univ_three, hsq]
    constructor <;> ring

/-- **C101**. A stamp with an odd number of columns that is its own mirror image has x exactly zero. -/
theorem C101_symmetric {n0 m : ℕ} (stamp : Stamp n0 (2 * m + 1)) (sigma noise : ℝ) (hsym : ∀ i j, stamp i j.rev = stamp i j) (r : Res)
    (h : fitGaussian stamp sigma noise = .ok r) : r.x = 0 := by
  have := C101_mirror stamp sigma noise
  rw [show (fun i j => stamp i j.rev) = stamp from funext fun i => funext (hsym i), h] at this
  have h1 := congrArg Res.x (Except.ok.inj this)
  simp only at h1
  linarith

theorem Lemmas.Centroid.exact_step {n0 n1 : ℕ} {sigma : ℝ} (stamp : Stamp n0 n1) (s : St) (f : ℝ)
    (hst : ∀ i j, stamp i j = f * psf (i : ℕ) (j : ℕ) s.xc s.yc sigma) (d : Fin 3 → ℝ) (Ai : Matrix (Fin 3) (Fin 3) ℝ)
    (h : step sigma stamp s = .ok (d, Ai)) : d = ![f - s.flux, 0, 0] := by
  obtain ⟨hd, hAi, e⟩ := step_ok h
  set H : Matrix (Fin 3) (Pix n0 n1) ℝ := rows sigma s with hH
  have hr : resid sigma stamp s = H.transpose.mulVec ![f - s.flux, 0, 0] := by
    funext p
    rw [Matrix.mulVec, dotProduct, Fin.sum_univ_three]
    simp [resid, hst, hH, rows]
    ring
  rw [hr, Matrix.mulVec_mulVec, Matrix.mulVec_mulVec, hAi, Matrix.mul_assoc, Matrix.nonsing_inv_mul _ (isUnit_iff_ne_zero.2 hd), Matrix.one_mulVec] at e
  rw [e]
  unfold limit
  simp
  intro h
  norm_num at h

/-- **C101**. From any state with the position of the spot one pass gives its flux and leaves the position; the fit ends there. In particular a
Gaussian spot in the middle of the stamp is found exactly. -/
theorem C101_exact {n0 n1 : ℕ} (hn0 : 2 ≤ n0) (hn1 : 2 ≤ n1) (f sigma noise : ℝ) (hs : 0 < sigma) (hf : f ≠ 0) :
    ∃ xe ye, fitGaussian (fun (i : Fin n0) (j : Fin n1) => f * psf (i : ℕ) (j : ℕ) (n1 / 2 : ℕ) (n0 / 2 : ℕ) sigma) sigma noise =
      .ok ⟨0, 0, xe, ye, f⟩ := by
  set stamp : Stamp n0 n1 := fun i j => f * psf (i : ℕ) (j : ℕ) (n1 / 2 : ℕ) (n0 / 2 : ℕ) sigma with hstamp
  have hflux : (start stamp).flux ≠ 0 := by
    have hpos := (C101_total n0 n1 (n1 / 2 : ℕ) (n0 / 2 : ℕ) sigma hs).1
    have : (start stamp).flux = f * ∑ i : Fin n0, ∑ j : Fin n1, psf (i : ℕ) (j : ℕ) (n1 / 2 : ℕ) (n0 / 2 : ℕ) sigma := by
      simp only [start, hstamp, Finset.mul_sum]
    rw [this]
    refine mul_ne_zero hf (ne_of_gt ?_)
    have : Nonempty (Fin n0) := ⟨⟨0, by omega⟩⟩
    have : Nonempty (Fin n1) := ⟨⟨0, by omega⟩⟩
    exact Finset.sum_pos (fun i _ => Finset.sum_pos (fun j _ => hpos _ _) Finset.univ_nonempty) Finset.univ_nonempty
  rcases hstep : step sigma stamp (start stamp) with e | ⟨d, Ai⟩
  · obtain ⟨_, h⟩ := (step_error hs _ _ _).1 hstep
    rcases h with h | h | h
    · exact absurd h hflux
    · omega
    · omega
  · have hd := exact_step stamp (start stamp) f (fun i j => rfl) d Ai hstep
    refine ⟨noise * Real.sqrt (Ai 1 1), noise * Real.sqrt (Ai 2 2), ?_⟩
    unfold fitGaussian loop
    rw [hstep]
    dsimp only
    rw [if_pos (by rw [hd]; simp; norm_num)]
    dsimp only
    rw [hd]
    simp [move, start]

/-- **C101**. One pass: the step before it is limited is the one that minimises the sum of squares of the linearised residuals, and the matrix
from which the errors are taken is `G Gᵀ` for the linear map `G` from residuals to steps: the errors are `noise` times the root
of the sum of squares of the sensitivities to the single pixels. They are positive. -/
theorem C101_errors {n0 n1 : ℕ} (stamp : Stamp n0 n1) (sigma : ℝ) (s : St) (d : Fin 3 → ℝ) (Ai : Matrix (Fin 3) (Fin 3) ℝ)
    (h : step sigma stamp s = .ok (d, Ai)) :
    ∃ G : Matrix (Fin 3) (Pix n0 n1) ℝ, d = limit (G.mulVec (resid sigma stamp s)) ∧
      (∀ k, Ai k k = ∑ p, G k p ^ 2) ∧ (∀ k, 0 < Ai k k) ∧
      ∀ b : Fin 3 → ℝ, ∑ p, (resid sigma stamp s p - ∑ k, G.mulVec (resid sigma stamp s) k * rows sigma s k p) ^ 2 ≤
        ∑ p, (resid sigma stamp s p - ∑ k, b k * rows sigma s k p) ^ 2 := by
  obtain ⟨hd, hAi, e⟩ := step_ok h
  obtain ⟨H, hH⟩ : ∃ H : Matrix (Fin 3) (Pix n0 n1) ℝ, H = rows sigma s := ⟨_, rfl⟩
  rw [← hH] at hd hAi e ⊢
  set r := resid sigma stamp s with hrdef
  have hl : Ai * (H * H.transpose) = 1 := by rw [hAi]; exact Matrix.nonsing_inv_mul _ (isUnit_iff_ne_zero.2 hd)
  have hr : (H * H.transpose) * Ai = 1 := by rw [hAi]; exact Matrix.mul_nonsing_inv _ (isUnit_iff_ne_zero.2 hd)
  have hsym : Ai.transpose = Ai := by
    rw [hAi, Matrix.transpose_nonsing_inv, Matrix.transpose_mul, Matrix.transpose_transpose]
  have hGG : Ai * H * (Ai * H).transpose = Ai := by
    rw [Matrix.transpose_mul, hsym, Matrix.mul_assoc, ← Matrix.mul_assoc H, hr, Matrix.mul_one]
  have hdiag : ∀ k, Ai k k = ∑ p, (Ai * H) k p ^ 2 := by
    intro k
    nth_rewrite 1 [← hGG]
    rw [Matrix.mul_apply]
    refine Finset.sum_congr rfl fun p _ => ?_
    rw [Matrix.transpose_apply, sq]
  refine ⟨Ai * H, by rw [e, Matrix.mulVec_mulVec], hdiag, ?_, ?_⟩
  · intro k
    rw [hdiag]
    rcases (Finset.sum_nonneg fun p _ => sq_nonneg ((Ai * H) k p)).lt_or_eq with h | h
    · exact h
    · exfalso
      have hz : ∀ p, (Ai * H) k p = 0 := by
        intro p
        have := (Finset.sum_eq_zero_iff_of_nonneg fun p _ => sq_nonneg ((Ai * H) k p)).1 h.symm p (Finset.mem_univ _)
        exact pow_eq_zero_iff (two_ne_zero) |>.1 this
      have h1 : ((Ai * H) * H.transpose) k k = 1 := by rw [Matrix.mul_assoc, hl, Matrix.one_apply_eq]
      rw [Matrix.mul_apply, Finset.sum_eq_zero fun p _ => by rw [hz p, zero_mul]] at h1
      exact zero_ne_one h1
  · intro b
    set g := (Ai * H).mulVec r with hg
    set q : Pix n0 n1 → ℝ := fun p => r p - ∑ k, g k * H k p with hq
    have horth : ∀ k, ∑ p, q p * H k p = 0 := by
      intro k
      have h1 : H.mulVec (r - H.transpose.mulVec g) = 0 := by
        rw [Matrix.mulVec_sub, Matrix.mulVec_mulVec, hg, Matrix.mulVec_mulVec, ← Matrix.mul_assoc, hr, Matrix.one_mul, sub_self]
      have h2 := congrFun h1 k
      rw [Matrix.mulVec, dotProduct] at h2
      refine (Finset.sum_congr rfl fun p _ => ?_).trans h2
      rw [mul_comm]
      congr 1
      simp only [hq, Pi.sub_apply, Matrix.mulVec, dotProduct, Matrix.transpose_apply]
      congr 1
      exact Finset.sum_congr rfl fun k _ => mul_comm _ _
    have hdec : ∀ p, r p - ∑ k, b k * H k p = q p + ∑ k, (g k - b k) * H k p := by
      intro p
      simp only [hq, sub_mul, Finset.sum_sub_distrib]
      ring
    have hcross : ∑ p, q p * ∑ k, (g k - b k) * H k p = 0 := by
      simp only [Finset.mul_sum]
      rw [Finset.sum_comm]
      refine Finset.sum_eq_zero fun k _ => ?_
      have := horth k
      calc ∑ p, q p * ((g k - b k) * H k p) = (g k - b k) * ∑ p, q p * H k p := by
            rw [Finset.mul_sum]; exact Finset.sum_congr rfl fun p _ => by ring
        _ = 0 := by rw [this, mul_zero]
    calc ∑ p, q p ^ 2 ≤ ∑ p, q p ^ 2 + ∑ p, (∑ k, (g k - b k) * H k p) ^ 2 :=
          le_add_of_nonneg_right (Finset.sum_nonneg fun p _ => sq_nonneg _)
      _ = ∑ p, (q p ^ 2 + (∑ k, (g k - b k) * H k p) ^ 2) + 2 * ∑ p, q p * ∑ k, (g k - b k) * H k p := by
          rw [hcross, Finset.sum_add_distrib]; ring
      _ = _ := by
          rw [Finset.mul_sum, ← Finset.sum_add_distrib]
          refine Finset.sum_congr rfl fun p _ => ?_
          rw [hdec]
          ring

/-- **C101**. The barycenter: `RuntimeError` exactly if the sum is not positive; else the mean coordinate weighted with the pixels, counted from
the centre of the stamp, and the sum. If no pixel is negative it is inside of the stamp. -/
theorem C101_barycenter {hw : ℕ} (stamp : Stamp (2 * hw + 1) (2 * hw + 1)) :
    (∑ i, ∑ j, stamp i j ≤ 0 → barycenter stamp = .error .runtimeError) ∧
    (0 < ∑ i, ∑ j, stamp i j → ∃ r, barycenter stamp = .ok r ∧ r.flux = ∑ i, ∑ j, stamp i j ∧
      ∑ i, ∑ j, stamp i j * (((j : ℕ) : ℝ) - (hw + r.x)) = 0 ∧ ∑ i, ∑ j, stamp i j * (((i : ℕ) : ℝ) - (hw + r.y)) = 0 ∧
      ((∀ i j, 0 ≤ stamp i j) → |r.x| ≤ hw ∧ |r.y| ≤ hw)) := by
  constructor
  · intro h
    unfold barycenter
    dsimp only
    rw [if_pos h]
  · intro h
    unfold barycenter
    dsimp only
    rw [if_neg (not_le.2 h)]
    refine ⟨_, rfl, rfl, ?_, ?_, ?_⟩
    · set S := ∑ i, ∑ j, stamp i j with hS
      have e : ∑ i, ∑ j, stamp i j * (((j : ℕ) : ℝ) - (hw + (∑ j : Fin (2 * hw + 1), (((j : ℕ) : ℝ) - hw) * ∑ i, stamp i j) / S)) =
          ∑ j : Fin (2 * hw + 1), (((j : ℕ) : ℝ) - hw) * ∑ i, stamp i j - ((∑ j : Fin (2 * hw + 1), (((j : ℕ) : ℝ) - hw) * ∑ i, stamp i j) / S) * S := by
        generalize (∑ j : Fin (2 * hw + 1), (((j : ℕ) : ℝ) - hw) * ∑ i, stamp i j) / S = c
        rw [hS, Finset.mul_sum, Finset.sum_comm]
        conv_rhs => rw [Finset.sum_congr rfl fun i _ => Finset.mul_sum _ _ c, Finset.sum_comm, ← Finset.sum_sub_distrib]
        refine Finset.sum_congr rfl fun j _ => ?_
        rw [Finset.mul_sum, ← Finset.sum_sub_distrib]
        exact Finset.sum_congr rfl fun i _ => by ring
      rw [e, div_mul_cancel₀ _ h.ne', sub_self]
    · set S := ∑ i, ∑ j, stamp i j with hS
      have e : ∑ i, ∑ j, stamp i j * (((i : ℕ) : ℝ) - (hw + (∑ i : Fin (2 * hw + 1), (((i : ℕ) : ℝ) - hw) * ∑ j, stamp i j) / S)) =
          ∑ i : Fin (2 * hw + 1), (((i : ℕ) : ℝ) - hw) * ∑ j, stamp i j - ((∑ i : Fin (2 * hw + 1), (((i : ℕ) : ℝ) - hw) * ∑ j, stamp i j) / S) * S := by
        generalize (∑ i : Fin (2 * hw + 1), (((i : ℕ) : ℝ) - hw) * ∑ j, stamp i j) / S = c
        rw [hS, Finset.mul_sum, ← Finset.sum_sub_distrib]
        refine Finset.sum_congr rfl fun i _ => ?_
        rw [Finset.mul_sum, Finset.mul_sum, ← Finset.sum_sub_distrib]
        exact Finset.sum_congr rfl fun j _ => by ring
      rw [e, div_mul_cancel₀ _ h.ne', sub_self]
    · intro hpos
      have habs : ∀ j : Fin (2 * hw + 1), |((j : ℕ) : ℝ) - hw| ≤ hw := by
        intro j
        have h1 : ((j : ℕ) : ℝ) ≤ 2 * hw := by exact_mod_cast (by omega : (j : ℕ) ≤ 2 * hw)
        have h2 : (0 : ℝ) ≤ ((j : ℕ) : ℝ) := Nat.cast_nonneg _
        rw [abs_le]
        constructor <;> linarith
      have hb : ∀ g : Fin (2 * hw + 1) → ℝ, (∀ j, 0 ≤ g j) → ∑ j, g j = ∑ i, ∑ j, stamp i j →
          |(∑ j : Fin (2 * hw + 1), (((j : ℕ) : ℝ) - hw) * g j) / ∑ i, ∑ j, stamp i j| ≤ hw := by
        intro g hg hsum
        rw [abs_div, abs_of_pos h, div_le_iff₀ h, ← hsum, Finset.mul_sum]
        refine (Finset.abs_sum_le_sum_abs _ _).trans (Finset.sum_le_sum fun j _ => ?_)
        rw [abs_mul, abs_of_nonneg (hg j)]
        exact mul_le_mul_of_nonneg_right (habs j) (hg j)
      exact ⟨hb _ (fun j => Finset.sum_nonneg fun i _ => hpos i j) Finset.sum_comm,
        hb _ (fun i => Finset.sum_nonneg fun j _ => hpos i j) rfl⟩

theorem Lemmas.Centroid.kernel_sum (sigma : ℝ) (hs : 0 < sigma) :
    (∀ d0 d1, 0 < kernel sigma d0 d1) ∧ ∑ d0 ∈ window sigma, ∑ d1 ∈ window sigma, kernel sigma d0 d1 = 1 := by
  have hne : (window sigma).Nonempty := by
    refine ⟨0, Finset.mem_Icc.2 ?_⟩
    have : 0 ≤ halfWidth sigma := Int.floor_nonneg.2 (by positivity)
    omega
  have hpos : 0 < ∑ e0 ∈ window sigma, ∑ e1 ∈ window sigma, gauss sigma e0 e1 :=
    Finset.sum_pos (fun _ _ => Finset.sum_pos (fun _ _ => Real.exp_pos _) hne) hne
  constructor
  · intro d0 d1
    exact div_pos (Real.exp_pos _) hpos
  · unfold kernel
    simp only [← Finset.sum_div]
    exact div_self hpos.ne'

theorem Lemmas.Centroid.mem_window {sigma : ℝ} {d : ℤ} : d ∈ window sigma ↔ |d| ≤ ⌊3 * sigma⌋ := by
  unfold window halfWidth
  rw [Finset.mem_Icc, abs_le]

/-- **C101**. Convolution: a pixel of the result is between the smallest and the largest value of the image (zero outside) within three sigma along
the axes; away from the borders a constant image stays as it is. -/
theorem C101_convolve_bounds {n0 n1 : ℕ} (image : Stamp n0 n1) (sigma lo hi : ℝ) (hs : 0 < sigma) (i : Fin n0) (j : Fin n1)
    (h : ∀ k l : ℤ, |(i : ℤ) - k| ≤ ⌊3 * sigma⌋ → |(j : ℤ) - l| ≤ ⌊3 * sigma⌋ → lo ≤ pad image k l ∧ pad image k l ≤ hi) :
    lo ≤ convolve image sigma i j ∧ convolve image sigma i j ≤ hi := by
  obtain ⟨hk, hsum⟩ := kernel_sum sigma hs
  have hv : ∀ d0 ∈ window sigma, ∀ d1 ∈ window sigma, lo ≤ pad image ((i : ℤ) - d0) ((j : ℤ) - d1) ∧ pad image ((i : ℤ) - d0) ((j : ℤ) - d1) ≤ hi := by
    intro d0 h0 d1 h1
    rw [mem_window] at h0 h1
    exact h _ _ (by rwa [sub_sub_cancel]) (by rwa [sub_sub_cancel])
  have hc : ∀ c : ℝ, c = ∑ d0 ∈ window sigma, ∑ d1 ∈ window sigma, kernel sigma d0 d1 * c := by
    intro c
    simp only [← Finset.sum_mul]
    rw [hsum, one_mul]
  unfold convolve
  constructor
  · nth_rewrite 1 [hc lo]
    exact Finset.sum_le_sum fun d0 h0 => Finset.sum_le_sum fun d1 h1 => mul_le_mul_of_nonneg_left (hv d0 h0 d1 h1).1 (hk _ _).le
  · nth_rewrite 1 [hc hi]
    exact Finset.sum_le_sum fun d0 h0 => Finset.sum_le_sum fun d1 h1 => mul_le_mul_of_nonneg_left (hv d0 h0 d1 h1).2 (hk _ _).le

/-- **C101**. If the image is zero within three sigma of its borders, the sum of the pixels is not changed by the convolution. -/
theorem C101_convolve_sum {n0 n1 : ℕ} (image : Stamp n0 n1) (sigma : ℝ) (hs : 0 < sigma)
    (h : ∀ (i : Fin n0) (j : Fin n1), image i j ≠ 0 → ⌊3 * sigma⌋ ≤ (i : ℤ) ∧ (i : ℤ) < n0 - ⌊3 * sigma⌋ ∧
      ⌊3 * sigma⌋ ≤ (j : ℤ) ∧ (j : ℤ) < n1 - ⌊3 * sigma⌋) :
    ∑ i, ∑ j, convolve image sigma i j = ∑ i, ∑ j, image i j := by
  obtain ⟨hk, hsum⟩ := kernel_sum sigma hs
  have hpad : ∀ k l : ℤ, pad image k l ≠ 0 → ∃ (i : Fin n0) (j : Fin n1), (i : ℤ) = k ∧ (j : ℤ) = l ∧ image i j = pad image k l := by
    intro k l hne
    unfold pad at hne ⊢
    split_ifs at hne ⊢ with hc
    · exact ⟨⟨k.toNat, by omega⟩, ⟨l.toNat, by omega⟩, by simp; omega, by simp; omega, rfl⟩
    · exact absurd rfl hne
  have hval : ∀ (i : Fin n0) (j : Fin n1), pad image i j = image i j := by
    intro i j
    unfold pad
    rw [dif_pos (by omega)]
    rfl
  -- the sum over the image of a shifted image
  have hshift : ∀ d0 ∈ window sigma, ∀ d1 ∈ window sigma,
      ∑ i : Fin n0, ∑ j : Fin n1, pad image ((i : ℤ) - d0) ((j : ℤ) - d1) = ∑ i, ∑ j, image i j := by
    intro d0 h0 d1 h1
    rw [mem_window, abs_le] at h0 h1
    rw [← Fintype.sum_prod_type' (f := fun (i : Fin n0) (j : Fin n1) => pad image ((i : ℤ) - d0) ((j : ℤ) - d1)),
      ← Fintype.sum_prod_type' (f := fun (i : Fin n0) (j : Fin n1) => image i j)]
    symm
    refine Finset.sum_bij_ne_zero (fun p _ hp => (⟨((p.1 : ℤ) + d0).toNat, ?_⟩, ⟨((p.2 : ℤ) + d1).toNat, ?_⟩)) (fun _ _ _ => Finset.mem_univ _) ?_ ?_ ?_
    · have := h p.1 p.2 hp
      omega
    · have := h p.1 p.2 hp
      omega
    · intro p _ hp q _ hq e
      have hp := h p.1 p.2 hp
      have hq := h q.1 q.2 hq
      obtain ⟨e1, e2⟩ := Prod.mk.inj e
      rw [Fin.mk.injEq] at e1 e2
      apply Prod.ext <;> apply Fin.ext <;> omega
    · intro q _ hq
      obtain ⟨i, j, hi, hj, e⟩ := hpad _ _ hq
      refine ⟨(i, j), Finset.mem_univ _, by rw [e]; exact hq, ?_⟩
      apply Prod.ext <;> apply Fin.ext <;> simp only <;> omega
    · intro p _ hp
      have hp := h p.1 p.2 hp
      rw [← hval p.1 p.2]
      simp only
      congr 1 <;> omega
  unfold convolve
  calc ∑ i : Fin n0, ∑ j : Fin n1, ∑ d0 ∈ window sigma, ∑ d1 ∈ window sigma, kernel sigma d0 d1 * pad image ((i : ℤ) - d0) ((j : ℤ) - d1)
      = ∑ d0 ∈ window sigma, ∑ d1 ∈ window sigma, kernel sigma d0 d1 * ∑ i : Fin n0, ∑ j : Fin n1, pad image ((i : ℤ) - d0) ((j : ℤ) - d1) := by
        simp only [Finset.mul_sum]
        rw [← Fintype.sum_prod_type' (f := fun (i : Fin n0) (j : Fin n1) => ∑ d0 ∈ window sigma, ∑ d1 ∈ window sigma,
          kernel sigma d0 d1 * pad image ((i : ℤ) - d0) ((j : ℤ) - d1)), Finset.sum_comm]
        refine Finset.sum_congr rfl fun d0 _ => ?_
        rw [Finset.sum_comm]
        refine Finset.sum_congr rfl fun d1 _ => ?_
        rw [← Fintype.sum_prod_type' (f := fun (i : Fin n0) (j : Fin n1) => kernel sigma d0 d1 * pad image ((i : ℤ) - d0) ((j : ℤ) - d1))]
    _ = ∑ d0 ∈ window sigma, ∑ d1 ∈ window sigma, kernel sigma d0 d1 * ∑ i, ∑ j, image i j :=
        Finset.sum_congr rfl fun d0 h0 => Finset.sum_congr rfl fun d1 h1 => by rw [hshift d0 h0 d1 h1]
    _ = ∑ i, ∑ j, image i j := by
        simp only [← Finset.sum_mul]
        rw [hsum, one_mul]

/-- A stamp for which the fit succeeds (`C101_within_a_pixel`, `C101_mirror`, ...). -/
example : ∃ (stamp : Stamp 7 7) (r : Res), fitcentroid stamp 10 = .ok r ∧ r.flux = 5000 := by
  obtain ⟨xe, ye, h⟩ := C101_exact (n0 := 7) (n1 := 7) (by omega) (by omega) 5000 1 10 one_pos (by norm_num)
  exact ⟨_, _, h, rfl⟩

/-- A stamp for which a pass succeeds (`C101_errors`). -/
example (stamp : Stamp 7 7) : ∃ d Ai, step 1 stamp ⟨1, 3, 3⟩ = .ok (d, Ai) := by
  rcases h : step 1 stamp ⟨1, 3, 3⟩ with e | ⟨d, Ai⟩
  · have := (step_error one_pos stamp _ e).1 h
    simp at this
  · exact ⟨d, Ai, rfl⟩

/-- A spot in the middle of an image (`C101_convolve_sum`). -/
example : ∃ image : Stamp 9 9, image 4 4 = 1 ∧ ∀ (i : Fin 9) (j : Fin 9), image i j ≠ 0 →
    ⌊3 * (1 : ℝ)⌋ ≤ (i : ℤ) ∧ (i : ℤ) < (9 : ℕ) - ⌊3 * (1 : ℝ)⌋ ∧ ⌊3 * (1 : ℝ)⌋ ≤ (j : ℤ) ∧ (j : ℤ) < (9 : ℕ) - ⌊3 * (1 : ℝ)⌋ := by
  refine ⟨fun i j => if i = 4 ∧ j = 4 then 1 else 0, by simp, ?_⟩
  intro i j h
  have h3 : ⌊3 * (1 : ℝ)⌋ = 3 := by norm_num
  rw [h3]
  by_cases hc : i = 4 ∧ j = 4
  · obtain ⟨rfl, rfl⟩ := hc
    norm_num
  · exact absurd (if_neg hc) h

/-- **C101**. A single bright pixel: its image falls off as a Gaussian of the distance, with the same width in both directions, and is zero farther than
three sigma along an axis. -/
theorem C101_convolve_point {n0 n1 : ℕ} (image : Stamp n0 n1) (sigma : ℝ) (hs : 0 < sigma) (a : Fin n0) (b : Fin n1)
    (h : ∀ i j, image i j ≠ 0 → i = a ∧ j = b) (i : Fin n0) (j : Fin n1) :
    (|(i : ℤ) - a| ≤ ⌊3 * sigma⌋ → |(j : ℤ) - b| ≤ ⌊3 * sigma⌋ → convolve image sigma i j =
      Real.exp (-(((i : ℝ) - a) ^ 2 + ((j : ℝ) - b) ^ 2) / (2 * sigma ^ 2)) * convolve image sigma a b) ∧
    (⌊3 * sigma⌋ < |(i : ℤ) - a| ∨ ⌊3 * sigma⌋ < |(j : ℤ) - b| → convolve image sigma i j = 0) := by
  have hpad : ∀ k l : ℤ, pad image k l = if k = a ∧ l = b then image a b else 0 := by
    intro k l
    by_cases hk : k = a ∧ l = b
    · rw [if_pos hk]
      obtain ⟨rfl, rfl⟩ := hk
      unfold pad
      rw [dif_pos (by have := a.2; have := b.2; omega)]
      congr 1
    · rw [if_neg hk]
      unfold pad
      split_ifs with hc
      · by_contra hne
        obtain ⟨e1, e2⟩ := h _ _ hne
        apply hk
        constructor
        · rw [← e1]; simp; omega
        · rw [← e2]; simp; omega
      · rfl
  have hval : ∀ (i : Fin n0) (j : Fin n1), convolve image sigma i j =
      if |(i : ℤ) - a| ≤ ⌊3 * sigma⌋ ∧ |(j : ℤ) - b| ≤ ⌊3 * sigma⌋ then kernel sigma ((i : ℤ) - a) ((j : ℤ) - b) * image a b else 0 := by
    intro i j
    unfold convolve
    have e : ∀ d0 d1 : ℤ, kernel sigma d0 d1 * pad image ((i : ℤ) - d0) ((j : ℤ) - d1) =
        if d0 = (i : ℤ) - a then (if d1 = (j : ℤ) - b then kernel sigma ((i : ℤ) - a) ((j : ℤ) - b) * image a b else 0) else 0 := by
      intro d0 d1
      rw [hpad]
      by_cases h0 : d0 = (i : ℤ) - a
      · by_cases h1 : d1 = (j : ℤ) - b
        · rw [if_pos (by constructor <;> omega), if_pos h0, if_pos h1, h0, h1]
        · rw [if_neg (by omega), if_pos h0, if_neg h1, mul_zero]
      · rw [if_neg (by omega), if_neg h0, mul_zero]
    simp only [e]
    rw [Finset.sum_comm]
    simp only [Finset.sum_ite_eq', mem_window]
    by_cases h0 : |(i : ℤ) - a| ≤ ⌊3 * sigma⌋
    · simp only [h0, if_true, true_and, Finset.sum_ite_eq', mem_window]
    · simp [h0]
  have hw : (0 : ℤ) ≤ ⌊3 * sigma⌋ := Int.floor_nonneg.2 (by positivity)
  refine ⟨?_, ?_⟩
  · intro h0 h1
    rw [hval i j, hval a b, if_pos ⟨h0, h1⟩, if_pos (by simpa using hw)]
    rw [← mul_assoc]
    congr 1
    unfold kernel
    rw [← mul_div_assoc]
    congr 1
    unfold gauss
    rw [← Real.exp_add]
    congr 1
    push_cast
    field_simp
    ring
  · intro hor
    rw [hval i j, if_neg]
    rintro ⟨h0, h1⟩
    rcases hor with h' | h'
    · exact absurd h0 (not_le.2 h')
    · exact absurd h1 (not_le.2 h')

end Verif.Props
