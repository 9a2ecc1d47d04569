import Verif.Lemmas.ZhaoBurge
import Mathlib.Algebra.Polynomial.Derivative
import Mathlib.Algebra.Polynomial.SumIteratedDerivative
import Mathlib.Analysis.SpecialFunctions.Integrals.Basic
import Mathlib.Analysis.Calculus.Deriv.Polynomial
import Mathlib.Topology.Algebra.Polynomial

/-!
# Radial and angular functions of Zernike: Rodrigues formula and integrals
-/

namespace Verif.Lemmas.Zernike
open Polynomial Verif.Model.ZhaoBurge Verif.Lemmas.ZhaoBurge
open scoped Nat

/-! ## Integrals of polynomials over the unit interval -/

/-- Integral from 0 to 1. -/
noncomputable def L (p : ℝ[X]) : ℝ := ∫ x in (0:ℝ)..1, p.eval x

theorem integrable (p : ℝ[X]) (a b : ℝ) : IntervalIntegrable (fun x => p.eval x) MeasureTheory.volume a b :=
  p.continuous.intervalIntegrable a b

theorem L_derivative (p : ℝ[X]) : L (derivative p) = p.eval 1 - p.eval 0 :=
  intervalIntegral.integral_eq_sub_of_hasDerivAt (fun x _ => p.hasDerivAt x) (integrable _ _ _)

theorem L_add (p q : ℝ[X]) : L (p + q) = L p + L q := by
  unfold L
  rw [← intervalIntegral.integral_add (integrable p 0 1) (integrable q 0 1)]
  simp

theorem L_C_mul (c : ℝ) (p : ℝ[X]) : L (C c * p) = c * L p := by
  unfold L
  rw [← intervalIntegral.integral_const_mul]
  simp

theorem L_zero : L 0 = 0 := by simp [L]

theorem L_parts (p q : ℝ[X]) (h0 : p.eval 0 = 0) (h1 : p.eval 1 = 0) : L (derivative p * q) = -L (p * derivative q) := by
  have h := L_derivative (p * q)
  rw [derivative_mul, L_add, eval_mul, eval_mul, h0, h1] at h
  linarith

theorem L_iterate (p : ℝ[X]) (j : ℕ) (h : ∀ i < j, (derivative^[i] p).eval 0 = 0 ∧ (derivative^[i] p).eval 1 = 0) (q : ℝ[X]) :
    L (derivative^[j] p * q) = (-1) ^ j * L (p * derivative^[j] q) := by
  induction j generalizing q with
  | zero => simp
  | succ j ih =>
    rw [Function.iterate_succ_apply', L_parts _ _ (h j (by omega)).1 (h j (by omega)).2, ih (fun i hi => h i (by omega)), Function.iterate_succ_apply]
    ring

theorem L_beta (a b : ℕ) : L (X ^ a * (1 - X) ^ b) = (a ! * b ! : ℝ) / (a + b + 1)! := by
  induction b generalizing a with
  | zero =>
    have h := L_derivative (X ^ (a + 1))
    rw [derivative_X_pow] at h
    have h2 : L (C (((a + 1 : ℕ) : ℝ)) * X ^ a) = 1 := by
      rw [Nat.add_sub_cancel] at h
      rw [h]
      simp
    rw [L_C_mul] at h2
    rw [pow_zero, mul_one, Nat.factorial_zero]
    have hp : ((a + 1 : ℕ) : ℝ) ≠ 0 := by positivity
    have hf : (a ! : ℝ) ≠ 0 := by positivity
    rw [Nat.add_zero, Nat.factorial_succ]
    push_cast at *
    field_simp
    linarith
  | succ b ih =>
    have h := L_derivative (X ^ (a + 1) * (1 - X) ^ (b + 1))
    have e : derivative (X ^ (a + 1) * (1 - X) ^ (b + 1) : ℝ[X]) =
        C ((a + 1 : ℕ) : ℝ) * (X ^ a * (1 - X) ^ (b + 1)) + C (-((b + 1 : ℕ) : ℝ)) * (X ^ (a + 1) * (1 - X) ^ b) := by
      rw [derivative_mul, derivative_X_pow, derivative_pow]
      simp
      ring
    rw [e, L_add, L_C_mul, L_C_mul, ih] at h
    simp only [eval_mul, eval_pow, eval_X, eval_sub, eval_one, sub_self, ne_eq, Nat.add_eq_zero_iff, one_ne_zero, and_false, not_false_eq_true, zero_pow,
      mul_zero, zero_mul] at h
    have ha : ((a + 1 : ℕ) : ℝ) ≠ 0 := by positivity
    rw [show a + 1 + b + 1 = a + (b + 1) + 1 by ring, Nat.factorial_succ a] at h
    rw [Nat.factorial_succ b]
    have hf : (((a + (b + 1) + 1)! : ℕ) : ℝ) ≠ 0 := by positivity
    have h' : ((a + 1 : ℕ) : ℝ) * L (X ^ a * (1 - X) ^ (b + 1)) = ((a + 1 : ℕ) : ℝ) * ((a ! * ((b + 1) * b !) : ℝ) / (a + (b + 1) + 1)!) := by
      push_cast at h ⊢
      rw [show ((a:ℝ) + 1) * (a ! * ((b + 1) * b !) / ((a + (b + 1) + 1)! : ℝ)) = (b + 1) * ((a + 1) * a ! * b ! / ((a + (b + 1) + 1)! : ℝ)) by ring]
      linarith
    have := mul_left_cancel₀ ha h'
    rw [this]
    push_cast
    ring

/-! ## Rodrigues formula -/

/-- The polynomial differentiated. -/
noncomputable def B (m k : ℕ) : ℝ[X] := X ^ (m + k) * (X - 1) ^ k

/-- Polynomial of the radial function: `r^|m| R(r) = Q(r²)`. -/
noncomputable def Q (m k : ℕ) : ℝ[X] := C (1 / (k ! : ℝ)) * derivative^[k] (B m k)

/-- Coefficient of the radial function. -/
noncomputable def co (m k i : ℕ) : ℝ := (-1) ^ i * ((m + 2 * k - i)! : ℝ) / (i ! * (m + k - i)! * (k - i)!)

theorem radial_eq (m k : ℕ) (r : ℝ) : getZernRadial (m + 2 * k) m r = ∑ i ∈ Finset.range (k + 1), co m k i * r ^ (m + 2 * k - 2 * i) := by
  unfold getZernRadial
  dsimp only
  rw [show (m + 2 * k + m) / 2 = m + k by omega, show (m + 2 * k - m) / 2 = k by omega]
  have key : ∀ (f : ℕ → ℝ) (j : ℕ), ((List.range j).map f).sum = ∑ i ∈ Finset.range j, f i := fun f j => rfl
  rw [key]
  apply Finset.sum_congr rfl
  intro i _
  simp only [factorial_eq]
  unfold co
  congr 2
  congr 1
  split_ifs with h
  · rw [Even.neg_one_pow (Nat.even_iff.2 h)]
  · rw [Odd.neg_one_pow (Nat.odd_iff.2 (by omega))]

theorem Q_eq (m k : ℕ) : Q m k = ∑ i ∈ Finset.range (k + 1), C (co m k i) * X ^ (m + k - i) := by
  unfold Q B
  rw [sub_eq_neg_add, add_pow, Finset.mul_sum, iterate_derivative_sum, Finset.mul_sum]
  apply Finset.sum_congr rfl
  intro i hi
  have hi : i ≤ k := by simpa [Nat.lt_succ_iff] using hi
  rw [show (X ^ (m + k) * ((-1) ^ i * X ^ (k - i) * (k.choose i : ℝ[X])) : ℝ[X]) = C ((-1) ^ i * (k.choose i : ℝ)) * X ^ (m + 2 * k - i) by
    rw [show m + 2 * k - i = (m + k) + (k - i) by omega, pow_add]
    simp
    ring]
  rw [iterate_derivative_C_mul, iterate_derivative_X_pow_eq_C_mul, show m + 2 * k - i - k = m + k - i by omega, ← mul_assoc, ← mul_assoc, ← C_mul, ← C_mul]
  congr 2
  unfold co
  have h1 : (k.choose i : ℝ) = (k ! : ℝ) / (i ! * (k - i)!) := Nat.cast_choose ℝ hi
  have h2 : ((m + 2 * k - i).descFactorial k : ℝ) = ((m + 2 * k - i)! : ℝ) / (m + k - i)! := by
    have := Nat.factorial_mul_descFactorial (show k ≤ m + 2 * k - i by omega)
    rw [show m + 2 * k - i - k = m + k - i by omega] at this
    rw [eq_div_iff (by positivity), mul_comm]
    exact_mod_cast this
  rw [h1, h2]
  have := Nat.factorial_pos k
  field_simp

theorem rodrigues (m k : ℕ) (r : ℝ) : r ^ m * getZernRadial (m + 2 * k) m r = (Q m k).eval (r ^ 2) := by
  rw [radial_eq, Q_eq, eval_finsetSum, Finset.mul_sum]
  apply Finset.sum_congr rfl
  intro i hi
  have hi : i ≤ k := by simpa [Nat.lt_succ_iff] using hi
  rw [eval_mul, eval_C, eval_pow, eval_X, ← pow_mul, show 2 * (m + k - i) = m + (m + 2 * k - 2 * i) by omega, pow_add]
  ring

/-- The radial functions are 1 at the edge. -/
theorem radial_one (m k : ℕ) : getZernRadial (m + 2 * k) m 1 = 1 := by
  have h := rodrigues m k 1
  rw [one_pow, one_mul, one_pow] at h
  rw [h]
  unfold Q
  have hs := aeval_iterate_derivative_self (R := ℝ) (A := ℝ) (B m k) k 1 (p' := X ^ (m + k)) (by
    simp only [Algebra.algebraMap_self, Polynomial.map_id]
    unfold B
    rw [C_1]
    ring)
  rw [eval_mul, eval_C]
  have hv : (derivative^[k] (B m k)).eval 1 = (k ! : ℝ) := by
    simpa [coe_aeval_eq_eval] using hs
  rw [hv]
  have := Nat.factorial_pos k
  field_simp

theorem B_vanish (m k i : ℕ) (hi : i < k) : (derivative^[i] (B m k)).eval 0 = 0 ∧ (derivative^[i] (B m k)).eval 1 = 0 := by
  constructor
  · obtain ⟨c, hc⟩ := pow_sub_dvd_iterate_derivative_of_pow_dvd (p := B m k) (q := X) (n := m + k) i (Dvd.intro _ rfl)
    rw [hc, eval_mul, eval_pow, eval_X, zero_pow (by omega), zero_mul]
  · obtain ⟨c, hc⟩ := pow_sub_dvd_iterate_derivative_of_pow_dvd (p := B m k) (q := X - 1) (n := k) i (Dvd.intro_left _ rfl)
    rw [hc, eval_mul, eval_pow, eval_sub, eval_X, eval_one, sub_self, zero_pow (by omega), zero_mul]

/-- The second factor: `R(r) = r^|m| P(r²)`. -/
noncomputable def P (m k : ℕ) : ℝ[X] := ∑ i ∈ Finset.range (k + 1), C (co m k i) * X ^ (k - i)

theorem radial_P (m k : ℕ) (r : ℝ) : getZernRadial (m + 2 * k) m r = r ^ m * (P m k).eval (r ^ 2) := by
  rw [radial_eq, P, eval_finsetSum, Finset.mul_sum]
  apply Finset.sum_congr rfl
  intro i hi
  have hi : i ≤ k := by simpa [Nat.lt_succ_iff] using hi
  rw [eval_mul, eval_C, eval_pow, eval_X, ← pow_mul, show m + 2 * k - 2 * i = m + 2 * (k - i) by omega, pow_add]
  ring

theorem P_deg (m k : ℕ) : (P m k).natDegree ≤ k := by
  unfold P
  apply natDegree_sum_le_of_forall_le
  intro i _
  exact (natDegree_C_mul_X_pow_le _ _).trans (by omega)

theorem P_lead (m k : ℕ) : (P m k).coeff k = ((m + 2 * k)! : ℝ) / ((m + k)! * k !) := by
  unfold P
  rw [finsetSum_coeff, Finset.sum_eq_single 0]
  · rw [coeff_C_mul, coeff_X_pow, if_pos (by omega)]
    simp [co]
  · intro i _ hi
    rw [coeff_C_mul, coeff_X_pow, if_neg (by have := Finset.mem_range.1 ‹_›; omega), mul_zero]
  · simp

theorem P_top (m k : ℕ) : derivative^[k] (P m k) = C (((m + 2 * k)! : ℝ) / (m + k)!) := by
  ext j
  rw [coeff_iterate_derivative, coeff_C]
  rcases j with _ | j
  · rw [zero_add, if_pos rfl, P_lead, Nat.descFactorial_self, nsmul_eq_mul]
    have := Nat.factorial_pos k
    field_simp
  · rw [if_neg (by omega), coeff_eq_zero_of_natDegree_lt (by have := P_deg m k; omega), smul_zero]

theorem L_QP_zero (m k k' : ℕ) (h : k' < k) : L (Q m k * P m k') = 0 := by
  unfold Q
  rw [mul_assoc, L_C_mul, L_iterate _ _ (fun i hi => B_vanish m k i hi), iterate_derivative_eq_zero ((P_deg m k').trans_lt h), mul_zero, L_zero]
  ring

theorem L_QP_self (m k : ℕ) : L (Q m k * P m k) = 1 / (m + 2 * k + 1) := by
  unfold Q
  rw [mul_assoc, L_C_mul, L_iterate _ _ (fun i hi => B_vanish m k i hi), P_top, mul_comm (B m k), L_C_mul]
  have hB : B m k = C ((-1) ^ k) * (X ^ (m + k) * (1 - X) ^ k) := by
    unfold B
    rw [show (X - 1 : ℝ[X]) = -1 * (1 - X) by ring, mul_pow]
    simp
    ring
  rw [hB, L_C_mul, L_beta]
  have h1 : ((-1:ℝ) ^ k) * (-1) ^ k = 1 := by rw [← mul_pow]; simp
  have hf : ((m + k + k + 1)! : ℝ) = (m + 2 * k + 1) * (m + 2 * k)! := by
    rw [show m + k + k + 1 = (m + 2 * k) + 1 by ring, Nat.factorial_succ]
    push_cast
    ring
  rw [hf]
  have := Nat.factorial_pos k
  have := Nat.factorial_pos (m + k)
  have := Nat.factorial_pos (m + 2 * k)
  have hp : (m:ℝ) + 2 * k + 1 ≠ 0 := by positivity
  rw [show (1 / (k ! : ℝ)) * ((-1) ^ k * (((m + 2 * k)! : ℝ) / (m + k)! * ((-1) ^ k * ((m + k)! * k ! / ((m + 2 * k + 1) * (m + 2 * k)!))))) =
    ((-1) ^ k * (-1) ^ k) * (1 / (k ! : ℝ) * ((m + 2 * k)! : ℝ) / (m + k)! * ((m + k)! * k ! / ((m + 2 * k + 1) * (m + 2 * k)!))) by ring, h1]
  field_simp

/-- Integral of the product of radial functions with the same `|m|`. -/
theorem radial_integral (m k k' : ℕ) :
    ∫ r in (0:ℝ)..1, getZernRadial (m + 2 * k) m r * getZernRadial (m + 2 * k') m r * r = if k = k' then 1 / (2 * (m + 2 * k + 1 : ℝ)) else 0 := by
  have key : ∀ k k' : ℕ, ∫ r in (0:ℝ)..1, getZernRadial (m + 2 * k) m r * getZernRadial (m + 2 * k') m r * r = 1 / 2 * L (Q m k * P m k') := by
    intro k k'
    have h := intervalIntegral.integral_comp_mul_deriv (a := 0) (b := 1) (f := fun r : ℝ => r ^ 2) (f' := fun r : ℝ => 2 * r)
      (g := fun s => (Q m k * P m k').eval s) (fun x _ => by simpa using hasDerivAt_pow 2 x) (by fun_prop) (Q m k * P m k').continuous
    simp only [Function.comp_apply, zero_pow (two_ne_zero), one_pow] at h
    unfold L
    rw [← h, ← intervalIntegral.integral_const_mul]
    apply intervalIntegral.integral_congr
    intro r _
    dsimp only
    rw [eval_mul, ← rodrigues, radial_P m k' r]
    ring
  rw [key]
  split_ifs with h
  · subst h
    rw [L_QP_self]
    have hp : (m:ℝ) + 2 * k + 1 ≠ 0 := by positivity
    field_simp
  · rcases Nat.lt_or_gt_of_ne h with h | h
    · have h2 := key k' k
      rw [L_QP_zero m k' k h, mul_zero] at h2
      have h3 := key k k'
      rw [← h3]
      refine Eq.trans ?_ h2
      apply intervalIntegral.integral_congr
      intro r _
      dsimp only
      ring
    · rw [L_QP_zero m k k' h, mul_zero]

/-! ## Angular functions -/

theorem cos_integral (j : ℤ) : ∫ t in (0:ℝ)..2 * Real.pi, Real.cos (j * t) = if j = 0 then 2 * Real.pi else 0 := by
  split_ifs with h
  · subst h
    simp
  · have hj : (j : ℝ) ≠ 0 := by exact_mod_cast h
    rw [intervalIntegral.integral_comp_mul_left (fun x => Real.cos x) hj, integral_cos]
    have : Real.sin (j * (2 * Real.pi)) = 0 := by
      have := Real.sin_int_mul_pi (j * 2)
      rw [← this]
      congr 1
      push_cast
      ring
    rw [this]
    simp

theorem sin_integral (j : ℤ) : ∫ t in (0:ℝ)..2 * Real.pi, Real.sin (j * t) = 0 := by
  by_cases h : j = 0
  · subst h
    simp
  · have hj : (j : ℝ) ≠ 0 := by exact_mod_cast h
    rw [intervalIntegral.integral_comp_mul_left (fun x => Real.sin x) hj, integral_sin, Real.cos_int_mul_two_pi j]
    simp

theorem angular_nonneg (m : ℤ) (h : 0 ≤ m) (t : ℝ) : getZernAngular m t = Real.cos (m * t) := by
  unfold getZernAngular
  split_ifs with h1 h2
  · subst h1
    simp
  · rfl
  · omega

theorem angular_neg (m : ℤ) (h : m < 0) (t : ℝ) : getZernAngular m t = -Real.sin (m * t) := by
  unfold getZernAngular
  rw [if_neg (by omega), if_neg (by omega), abs_of_neg h, ← Real.sin_neg]
  congr 1
  push_cast
  ring

theorem ci (j : ℤ) : IntervalIntegrable (fun t : ℝ => Real.cos (j * t)) MeasureTheory.volume 0 (2 * Real.pi) :=
  Continuous.intervalIntegrable (by fun_prop) _ _

theorem si (j : ℤ) : IntervalIntegrable (fun t : ℝ => Real.sin (j * t)) MeasureTheory.volume 0 (2 * Real.pi) :=
  Continuous.intervalIntegrable (by fun_prop) _ _

/-- Integral of the product of angular functions. -/
theorem angular_integral (m m' : ℤ) : ∫ t in (0:ℝ)..2 * Real.pi, getZernAngular m t * getZernAngular m' t =
    if m = m' then (if m = 0 then 2 * Real.pi else Real.pi) else 0 := by
  rcases lt_or_ge m 0 with h | h <;> rcases lt_or_ge m' 0 with h' | h'
  · have e : ∀ t : ℝ, getZernAngular m t * getZernAngular m' t = 1 / 2 * Real.cos (((m - m' : ℤ) : ℝ) * t) - 1 / 2 * Real.cos (((m + m' : ℤ) : ℝ) * t) := by
      intro t
      rw [angular_neg m h, angular_neg m' h']
      push_cast
      rw [sub_mul, add_mul, Real.cos_sub, Real.cos_add]
      ring
    simp_rw [e]
    rw [intervalIntegral.integral_sub ((ci _).const_mul _) ((ci _).const_mul _), intervalIntegral.integral_const_mul, intervalIntegral.integral_const_mul,
      cos_integral, cos_integral]
    rw [if_neg (show ¬ m + m' = 0 by omega)]
    by_cases hm : m = m'
    · rw [if_pos (show m - m' = 0 by omega), if_pos hm, if_neg (by omega)]
      ring
    · rw [if_neg (show ¬ m - m' = 0 by omega), if_neg hm]
      ring
  · have e : ∀ t : ℝ, getZernAngular m t * getZernAngular m' t = -(1 / 2) * Real.sin (((m - m' : ℤ) : ℝ) * t) - 1 / 2 * Real.sin (((m + m' : ℤ) : ℝ) * t) := by
      intro t
      rw [angular_neg m h, angular_nonneg m' h']
      push_cast
      rw [sub_mul, add_mul, Real.sin_sub, Real.sin_add]
      ring
    simp_rw [e]
    rw [intervalIntegral.integral_sub ((si _).const_mul _) ((si _).const_mul _), intervalIntegral.integral_const_mul, intervalIntegral.integral_const_mul,
      sin_integral, sin_integral, if_neg (by omega)]
    ring
  · have e : ∀ t : ℝ, getZernAngular m t * getZernAngular m' t = 1 / 2 * Real.sin (((m - m' : ℤ) : ℝ) * t) - 1 / 2 * Real.sin (((m + m' : ℤ) : ℝ) * t) := by
      intro t
      rw [angular_nonneg m h, angular_neg m' h']
      push_cast
      rw [sub_mul, add_mul, Real.sin_sub, Real.sin_add]
      ring
    simp_rw [e]
    rw [intervalIntegral.integral_sub ((si _).const_mul _) ((si _).const_mul _), intervalIntegral.integral_const_mul, intervalIntegral.integral_const_mul,
      sin_integral, sin_integral, if_neg (by omega)]
    ring
  · have e : ∀ t : ℝ, getZernAngular m t * getZernAngular m' t = 1 / 2 * Real.cos (((m - m' : ℤ) : ℝ) * t) + 1 / 2 * Real.cos (((m + m' : ℤ) : ℝ) * t) := by
      intro t
      rw [angular_nonneg m h, angular_nonneg m' h']
      push_cast
      rw [sub_mul, add_mul, Real.cos_sub, Real.cos_add]
      ring
    simp_rw [e]
    rw [intervalIntegral.integral_add ((ci _).const_mul _) ((ci _).const_mul _), intervalIntegral.integral_const_mul, intervalIntegral.integral_const_mul,
      cos_integral, cos_integral]
    by_cases hm : m = m'
    · rw [if_pos (show m - m' = 0 by omega), if_pos hm]
      by_cases h0 : m = 0
      · rw [if_pos (show m + m' = 0 by omega), if_pos h0]
        ring
      · rw [if_neg (show ¬ m + m' = 0 by omega), if_neg h0]
        ring
    · rw [if_neg (show ¬ m - m' = 0 by omega), if_neg hm, if_neg (show ¬ m + m' = 0 by omega)]
      ring

/-! ## The functions on the disc -/

/-- Integral over the unit disc, in polar coordinates. -/
noncomputable def disc (f : ℝ → ℝ → ℝ) : ℝ := ∫ r in (0:ℝ)..1, (∫ t in (0:ℝ)..2 * Real.pi, f (r * Real.cos t) (r * Real.sin t)) * r

theorem cs_polar (r t : ℝ) (m : ℕ) : cs (r * Real.cos t) (r * Real.sin t) m = (r ^ m * Real.cos (m * t), r ^ m * Real.sin (m * t)) := by
  induction m with
  | zero => simp [cs]
  | succ m ih =>
    have ec : Real.cos ((m + 1 : ℕ) * t) = Real.cos (m * t) * Real.cos t - Real.sin (m * t) * Real.sin t := by
      rw [← Real.cos_add]; congr 1; push_cast; ring
    have es : Real.sin ((m + 1 : ℕ) * t) = Real.sin (m * t) * Real.cos t + Real.cos (m * t) * Real.sin t := by
      rw [← Real.sin_add]; congr 1; push_cast; ring
    rw [cs, ih, ec, es]
    dsimp only
    rw [Prod.mk.injEq]
    constructor <;> ring

theorem ang_polar (r t : ℝ) (m : ℤ) : ang (r * Real.cos t) (r * Real.sin t) m = r ^ m.natAbs * getZernAngular m t := by
  unfold ang
  rw [cs_polar]
  split_ifs with h
  · rw [angular_nonneg m h, Nat.cast_natAbs, abs_of_nonneg h]
  · rw [angular_neg m (by omega), Nat.cast_natAbs, abs_of_neg (by omega)]
    push_cast
    rw [neg_mul, Real.sin_neg]

theorem func_polar (n : ℕ) (m : ℤ) (h : m.natAbs ≤ n) (hp : (n - m.natAbs) % 2 = 0) (r t : ℝ) :
    getZernFuncXY ((n : ℤ), m) (r * Real.cos t) (r * Real.sin t) = getZernRadial n m.natAbs r * getZernAngular m t := by
  rw [func_eq n m h hp, ang_polar, ZhaoBurge.radial_eq n m.natAbs h hp,
    show (r * Real.cos t) ^ 2 + (r * Real.sin t) ^ 2 = r ^ 2 by linear_combination r ^ 2 * Real.sin_sq_add_cos_sq t]
  ring

/-- Orthogonality of the functions. -/
theorem func_disc (n n' : ℕ) (m m' : ℤ) (h : m.natAbs ≤ n) (hp : (n - m.natAbs) % 2 = 0) (h' : m'.natAbs ≤ n') (hp' : (n' - m'.natAbs) % 2 = 0) :
    disc (fun x y => getZernFuncXY ((n : ℤ), m) x y * getZernFuncXY ((n' : ℤ), m') x y) =
      if n = n' ∧ m = m' then Real.pi / ((n + 1) * (if m = 0 then 1 else 2)) else 0 := by
  unfold disc
  have e : ∀ r : ℝ, (∫ t in (0:ℝ)..2 * Real.pi, getZernFuncXY ((n : ℤ), m) (r * Real.cos t) (r * Real.sin t) * getZernFuncXY ((n' : ℤ), m') (r * Real.cos t) (r * Real.sin t)) * r =
      (if m = m' then (if m = 0 then 2 * Real.pi else Real.pi) else 0) * (getZernRadial n m.natAbs r * getZernRadial n' m'.natAbs r * r) := by
    intro r
    rw [← angular_integral m m']
    have : ∀ t, getZernFuncXY ((n : ℤ), m) (r * Real.cos t) (r * Real.sin t) * getZernFuncXY ((n' : ℤ), m') (r * Real.cos t) (r * Real.sin t) =
        (getZernRadial n m.natAbs r * getZernRadial n' m'.natAbs r) * (getZernAngular m t * getZernAngular m' t) := by
      intro t
      rw [func_polar n m h hp, func_polar n' m' h' hp']
      ring
    simp_rw [this]
    rw [intervalIntegral.integral_const_mul]
    ring
  simp_rw [e]
  rw [intervalIntegral.integral_const_mul]
  by_cases hm : m = m'
  · subst hm
    obtain ⟨k, rfl⟩ : ∃ k, n = m.natAbs + 2 * k := ⟨(n - m.natAbs) / 2, by omega⟩
    obtain ⟨k', rfl⟩ : ∃ k, n' = m.natAbs + 2 * k := ⟨(n' - m.natAbs) / 2, by omega⟩
    rw [if_pos rfl, radial_integral]
    clear e
    by_cases hk : k = k'
    · subst hk
      have hq : ((m.natAbs : ℕ) : ℝ) + 2 * k + 1 ≠ 0 := by positivity
      simp only [and_self, if_true]
      push_cast
      split_ifs
      · field_simp
      · field_simp
    · have hk' : ¬ (m.natAbs + 2 * k = m.natAbs + 2 * k' ∧ m = m) := fun h => hk (by omega)
      rw [if_neg hk, if_neg hk', mul_zero]
  · rw [if_neg hm, if_neg (fun h => hm h.2), zero_mul]

theorem cs_continuous (m : ℕ) : Continuous (fun p : ℝ × ℝ => (cs p.1 p.2 m).1) ∧ Continuous (fun p : ℝ × ℝ => (cs p.1 p.2 m).2) := by
  induction m with
  | zero => simp only [cs]; exact ⟨continuous_const, continuous_const⟩
  | succ m ih =>
    obtain ⟨h1, h2⟩ := ih
    simp only [cs]
    constructor <;> fun_prop

theorem func_continuous (n : ℕ) (m : ℤ) (h : m.natAbs ≤ n) (hp : (n - m.natAbs) % 2 = 0) : Continuous (fun p : ℝ × ℝ => getZernFuncXY ((n : ℤ), m) p.1 p.2) := by
  have hr : ∀ s : ℝ, radS n m.natAbs s = ∑ i ∈ Finset.range ((n - m.natAbs) / 2 + 1), ((if i % 2 = 0 then (1:ℝ) else -1) * factorial (n - i)) /
      (factorial i * factorial ((n + m.natAbs) / 2 - i) * factorial ((n - m.natAbs) / 2 - i)) * s ^ ((n - m.natAbs) / 2 - i) := fun s => rfl
  simp_rw [func_eq n m h hp, hr]
  apply Continuous.mul
  · apply continuous_finsetSum
    intro i _
    fun_prop
  · unfold ang
    split_ifs
    · exact (cs_continuous _).1
    · exact (cs_continuous _).2

/-! ## Linearity -/

theorem disc_inner (f : ℝ → ℝ → ℝ) (hf : Continuous fun p : ℝ × ℝ => f p.1 p.2) :
    Continuous fun r : ℝ => (∫ t in (0:ℝ)..2 * Real.pi, f (r * Real.cos t) (r * Real.sin t)) * r := by
  apply Continuous.mul _ continuous_id
  apply intervalIntegral.continuous_parametric_intervalIntegral_of_continuous'
  have : Continuous fun q : ℝ × ℝ => ((q.1 * Real.cos q.2, q.1 * Real.sin q.2) : ℝ × ℝ) := by fun_prop
  exact hf.comp this

theorem disc_add (f g : ℝ → ℝ → ℝ) (hf : Continuous fun p : ℝ × ℝ => f p.1 p.2) (hg : Continuous fun p : ℝ × ℝ => g p.1 p.2) :
    disc (fun x y => f x y + g x y) = disc f + disc g := by
  unfold disc
  rw [← intervalIntegral.integral_add ((disc_inner f hf).intervalIntegrable _ _) ((disc_inner g hg).intervalIntegrable _ _)]
  apply intervalIntegral.integral_congr
  intro r _
  dsimp only
  have h1 : Continuous fun t : ℝ => f (r * Real.cos t) (r * Real.sin t) := hf.comp (f := fun t : ℝ => ((r * Real.cos t, r * Real.sin t) : ℝ × ℝ)) (by fun_prop)
  have h2 : Continuous fun t : ℝ => g (r * Real.cos t) (r * Real.sin t) := hg.comp (f := fun t : ℝ => ((r * Real.cos t, r * Real.sin t) : ℝ × ℝ)) (by fun_prop)
  rw [intervalIntegral.integral_add (h1.intervalIntegrable _ _) (h2.intervalIntegrable _ _)]
  ring

theorem disc_mul (c : ℝ) (f : ℝ → ℝ → ℝ) : disc (fun x y => c * f x y) = c * disc f := by
  unfold disc
  simp_rw [intervalIntegral.integral_const_mul]
  rw [← intervalIntegral.integral_const_mul]
  simp_rw [mul_assoc]

theorem disc_sum {ι : Type} (s : Finset ι) (f : ι → ℝ → ℝ → ℝ) (hf : ∀ i ∈ s, Continuous fun p : ℝ × ℝ => f i p.1 p.2) :
    disc (fun x y => ∑ i ∈ s, f i x y) = ∑ i ∈ s, disc (f i) := by
  classical
  induction s using Finset.induction_on with
  | empty => simp [disc]
  | insert a s ha ih =>
    simp_rw [Finset.sum_insert ha]
    rw [disc_add (f a) (fun x y => ∑ i ∈ s, f i x y) (hf a (by simp)) (continuous_finsetSum _ fun i hi => hf i (by simp [hi])), ih fun i hi => hf i (by simp [hi])]

end Verif.Lemmas.Zernike
