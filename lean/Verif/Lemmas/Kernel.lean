import Verif.Model.Turbulence
import Mathlib.Analysis.Matrix.Order
import Mathlib.Analysis.SpecialFunctions.Exponential
import Mathlib.Analysis.SpecialFunctions.Gamma.Basic
import Mathlib.MeasureTheory.Integral.Gamma
import Mathlib.Analysis.SpecialFunctions.Gaussian.GaussianIntegral

/-!
# Positive definiteness of the covariance kernels
-/

namespace Verif.Lemmas.Kernel
open Matrix Finset

theorem psd_of_quad {ι : Type} [Fintype ι] (M : Matrix ι ι ℝ) (hs : ∀ i j, M i j = M j i)
    (h : ∀ c : ι → ℝ, 0 ≤ ∑ i, ∑ j, c i * c j * M i j) : M.PosSemidef := by
  refine PosSemidef.of_dotProduct_mulVec_nonneg ?_ ?_
  · ext i j
    simp [hs i j]
  · intro c
    have := h c
    have e : star c ⬝ᵥ (M *ᵥ c) = ∑ i, ∑ j, c i * c j * M i j := by
      simp only [dotProduct, mulVec, Pi.star_apply, star_trivial, Finset.mul_sum]
      refine Finset.sum_congr rfl fun i _ => Finset.sum_congr rfl fun j _ => by ring
    rw [e]; exact this

theorem quad_of_psd {ι : Type} [Fintype ι] {M : Matrix ι ι ℝ} (h : M.PosSemidef) (c : ι → ℝ) :
    0 ≤ ∑ i, ∑ j, c i * c j * M i j := by
  have := h.dotProduct_mulVec_nonneg c
  have e : star c ⬝ᵥ (M *ᵥ c) = ∑ i, ∑ j, c i * c j * M i j := by
    simp only [dotProduct, mulVec, Pi.star_apply, star_trivial, Finset.mul_sum]
    refine Finset.sum_congr rfl fun i _ => Finset.sum_congr rfl fun j _ => by ring
  rw [e] at this; exact this

/-- A matrix that is a convergent sum of rank one squares is positive semidefinite. -/
theorem psd_of_features {ι : Type} [Fintype ι] (M : Matrix ι ι ℝ) (F : ℕ → ι → ℝ)
    (h : ∀ i j, HasSum (fun a => F a i * F a j) (M i j)) : M.PosSemidef := by
  refine psd_of_quad M ?_ ?_
  · intro i j
    exact (h i j).unique (by simpa only [mul_comm] using h j i)
  · intro c
    have : HasSum (fun a => ∑ i, ∑ j, c i * c j * (F a i * F a j)) (∑ i, ∑ j, c i * c j * M i j) :=
      hasSum_sum fun i _ => hasSum_sum fun j _ => (h i j).mul_left _
    refine this.nonneg fun a => ?_
    have e : ∑ i, ∑ j, c i * c j * (F a i * F a j) = (∑ i, c i * F a i) ^ 2 := by
      rw [sq, Finset.sum_mul_sum]
      refine Finset.sum_congr rfl fun i _ => Finset.sum_congr rfl fun j _ => by ring
    rw [e]; positivity

/-- Value and derivative of `exp (-D²/2)` in its two arguments, `D` the difference. -/
noncomputable def jet (d : Bool) (x : ℝ) (d' : Bool) (x' : ℝ) : ℝ :=
  (match d, d' with
    | false, false => 1
    | true, false => -(x - x')
    | false, true => x - x'
    | true, true => 1 - (x - x') ^ 2) * Real.exp (-(x - x') ^ 2 / 2)

/-- Features of `jet`. -/
noncomputable def feat (a : ℕ) (d : Bool) (x : ℝ) : ℝ :=
  Real.exp (-x ^ 2 / 2) * (match d with
    | false => x ^ a
    | true => a * x ^ (a - 1) - x ^ (a + 1)) / Real.sqrt (a.factorial)

theorem hasSum_exp (z : ℝ) : HasSum (fun a : ℕ => z ^ a / a.factorial) (Real.exp z) := by
  have := NormedSpace.expSeries_div_hasSum_exp (𝔸 := ℝ) z
  rwa [← Real.exp_eq_exp_ℝ] at this

theorem hasSum_exp1 (z : ℝ) : HasSum (fun a : ℕ => a * z ^ (a - 1) / a.factorial) (Real.exp z) := by
  rw [← hasSum_nat_add_iff' 1]
  simp only [Finset.sum_range_one, Nat.cast_zero, zero_mul, zero_div, sub_zero]
  refine (hasSum_exp z).congr_fun fun a => ?_
  rw [Nat.factorial_succ]; push_cast
  have : (a.factorial : ℝ) ≠ 0 := by positivity
  have h2 : (a : ℝ) + 1 ≠ 0 := by positivity
  field_simp

theorem hasSum_exp2 (z : ℝ) : HasSum (fun a : ℕ => a * z ^ a / a.factorial) (z * Real.exp z) := by
  refine ((hasSum_exp1 z).mul_left z).congr_fun fun a => ?_
  rcases a with _ | a
  · simp
  · simp [pow_succ]; ring

theorem hasSum_exp3 (z : ℝ) :
    HasSum (fun a : ℕ => (a : ℝ) ^ 2 * z ^ (a - 1) / a.factorial) ((1 + z) * Real.exp z) := by
  rw [← hasSum_nat_add_iff' 1]
  simp only [Finset.sum_range_one, Nat.cast_zero, ne_eq, OfNat.ofNat_ne_zero, not_false_eq_true,
    zero_pow, zero_mul, zero_div, sub_zero]
  have := (hasSum_exp z).add (hasSum_exp2 z)
  rw [add_mul, one_mul]
  refine this.congr_fun fun a => ?_
  rw [Nat.factorial_succ]; push_cast
  have : (a.factorial : ℝ) ≠ 0 := by positivity
  have h2 : (a : ℝ) + 1 ≠ 0 := by positivity
  field_simp
  ring

theorem exp_split (x x' : ℝ) :
    Real.exp (-(x - x') ^ 2 / 2) = Real.exp (-x ^ 2 / 2) * Real.exp (-x' ^ 2 / 2) * Real.exp (x * x') := by
  rw [← Real.exp_add, ← Real.exp_add]; congr 1; ring

theorem jet_features (d d' : Bool) (x x' : ℝ) :
    HasSum (fun a => feat a d x * feat a d' x') (jet d x d' x') := by
  have key : ∀ (a : ℕ) (p q : ℝ),
      Real.exp (-x ^ 2 / 2) * p / Real.sqrt (a.factorial) * (Real.exp (-x' ^ 2 / 2) * q / Real.sqrt (a.factorial))
        = Real.exp (-x ^ 2 / 2) * Real.exp (-x' ^ 2 / 2) * (p * q / a.factorial) := by
    intro a p q
    have h : Real.sqrt (a.factorial : ℝ) * Real.sqrt (a.factorial) = a.factorial :=
      Real.mul_self_sqrt (by positivity)
    have h0 : (a.factorial : ℝ) ≠ 0 := by positivity
    have h1 : Real.sqrt (a.factorial : ℝ) ≠ 0 := by positivity
    have h2 : Real.sqrt (a.factorial : ℝ) ^ 2 = a.factorial := by rw [sq, h]
    field_simp
    rw [h2]
    ring
  unfold feat jet
  simp only [key]
  have E := exp_split x x'
  cases d <;> cases d' <;> simp only
  · have := (hasSum_exp (x * x')).mul_left (Real.exp (-x ^ 2 / 2) * Real.exp (-x' ^ 2 / 2))
    rw [E, one_mul]
    exact this.congr_fun fun a => by rw [mul_pow]
  · have := (((hasSum_exp1 (x * x')).mul_left x).sub ((hasSum_exp (x * x')).mul_left x')).mul_left
      (Real.exp (-x ^ 2 / 2) * Real.exp (-x' ^ 2 / 2))
    have e : (x - x') * Real.exp (-(x - x') ^ 2 / 2) = Real.exp (-x ^ 2 / 2) * Real.exp (-x' ^ 2 / 2) *
        (x * Real.exp (x * x') - x' * Real.exp (x * x')) := by rw [E]; ring
    rw [e]
    refine this.congr_fun fun a => ?_
    rcases a with _ | a
    · simp
    · simp only [Nat.add_sub_cancel, mul_pow, pow_succ]; ring
  · have := (((hasSum_exp1 (x * x')).mul_left x').sub ((hasSum_exp (x * x')).mul_left x)).mul_left
      (Real.exp (-x ^ 2 / 2) * Real.exp (-x' ^ 2 / 2))
    have e : -(x - x') * Real.exp (-(x - x') ^ 2 / 2) = Real.exp (-x ^ 2 / 2) * Real.exp (-x' ^ 2 / 2) *
        (x' * Real.exp (x * x') - x * Real.exp (x * x')) := by rw [E]; ring
    rw [e]
    refine this.congr_fun fun a => ?_
    rcases a with _ | a
    · simp
    · simp only [Nat.add_sub_cancel, mul_pow, pow_succ]; ring
  · have := ((((hasSum_exp3 (x * x')).sub ((hasSum_exp1 (x * x')).mul_left (x ^ 2))).sub
      ((hasSum_exp1 (x * x')).mul_left (x' ^ 2))).add ((hasSum_exp (x * x')).mul_left (x * x'))).mul_left
      (Real.exp (-x ^ 2 / 2) * Real.exp (-x' ^ 2 / 2))
    have e : (1 - (x - x') ^ 2) * Real.exp (-(x - x') ^ 2 / 2) =
        Real.exp (-x ^ 2 / 2) * Real.exp (-x' ^ 2 / 2) *
        ((1 + x * x') * Real.exp (x * x') - x ^ 2 * Real.exp (x * x') - x' ^ 2 * Real.exp (x * x') +
          x * x' * Real.exp (x * x')) := by rw [E]; ring
    rw [e]
    refine this.congr_fun fun a => ?_
    rcases a with _ | a
    · simp
    · simp only [Nat.add_sub_cancel, mul_pow, pow_succ]; ring

theorem jet_psd {ι : Type} [Fintype ι] (d : ι → Bool) (x : ι → ℝ) :
    (Matrix.of fun i j => jet (d i) (x i) (d j) (x j) : Matrix ι ι ℝ).PosSemidef :=
  psd_of_features _ (fun a i => feat a (d i) (x i)) fun i j => jet_features _ _ _ _

open Verif.Model.Turbulence

theorem gauss_psd {ι : Type} [Fintype ι] (p : ι → ℝ × ℝ) :
    (Matrix.of fun i j => Real.exp (-(((p i).1 - (p j).1) ^ 2 + ((p i).2 - (p j).2) ^ 2) / 2) :
      Matrix ι ι ℝ).PosSemidef := by
  have h := (jet_psd (fun _ : ι => false) (fun i => (p i).1)).hadamard
    (jet_psd (fun _ : ι => false) (fun i => (p i).2))
  have e : (Matrix.of fun i j => Real.exp (-(((p i).1 - (p j).1) ^ 2 + ((p i).2 - (p j).2) ^ 2) / 2) :
      Matrix ι ι ℝ) = (Matrix.of fun i j => jet false (p i).1 false (p j).1) ⊙
        (Matrix.of fun i j => jet false (p i).2 false (p j).2) := by
    ext i j
    simp only [of_apply, hadamard_apply, jet, one_mul]
    rw [← Real.exp_add]; congr 1; ring
  rw [e]; exact h

/-- The rational quadratic kernel is a mixture of Gaussians. -/
theorem rq_psd {ι : Type} [Fintype ι] (p : ι → ℝ × ℝ) (al : ℝ) (hal : 0 < al) :
    (Matrix.of fun i j => (1 + (((p i).1 - (p j).1) ^ 2 + ((p i).2 - (p j).2) ^ 2) / (2 * al)) ^ (-al) :
      Matrix ι ι ℝ).PosSemidef := by
  refine psd_of_quad _ ?_ ?_
  · intro i j; simp only [of_apply]; congr 3; ring
  · intro c
    set r : ι → ι → ℝ := fun i j => 1 + (((p i).1 - (p j).1) ^ 2 + ((p i).2 - (p j).2) ^ 2) / (2 * al) with hr
    have hpos : ∀ i j, 0 < r i j := fun i j => by
      have : 0 ≤ (((p i).1 - (p j).1) ^ 2 + ((p i).2 - (p j).2) ^ 2) / (2 * al) := by positivity
      simp only [hr]; linarith
    have hint : ∀ i j, MeasureTheory.IntegrableOn (fun t : ℝ => t ^ (al - 1) * Real.exp (-(r i j * t))) (Set.Ioi 0) := by
      intro i j
      have := integrableOn_rpow_mul_exp_neg_mul_rpow (p := 1) (s := al - 1) (by linarith) one_pos (hpos i j)
      simpa [Real.rpow_one] using this
    have hG : ∀ i j, (r i j) ^ (-al) * Real.Gamma al = ∫ t in Set.Ioi (0:ℝ), t ^ (al - 1) * Real.exp (-(r i j * t)) := by
      intro i j
      rw [Real.integral_rpow_mul_exp_neg_mul_Ioi hal (hpos i j), Real.rpow_neg (hpos i j).le,
        one_div, Real.inv_rpow (hpos i j).le]
    have hg : 0 < Real.Gamma al := Real.Gamma_pos_of_pos hal
    have main : 0 ≤ (∑ i, ∑ j, c i * c j * (r i j) ^ (-al)) * Real.Gamma al := by
      have e : (∑ i, ∑ j, c i * c j * (r i j) ^ (-al)) * Real.Gamma al =
          ∫ t in Set.Ioi (0:ℝ), ∑ i, ∑ j, c i * c j * (t ^ (al - 1) * Real.exp (-(r i j * t))) := by
        rw [MeasureTheory.integral_finsetSum]
        · rw [Finset.sum_mul]
          refine Finset.sum_congr rfl fun i _ => ?_
          rw [MeasureTheory.integral_finsetSum]
          · rw [Finset.sum_mul]
            refine Finset.sum_congr rfl fun j _ => ?_
            rw [MeasureTheory.integral_const_mul, ← hG, mul_assoc]
          · intro j _; exact (hint i j).const_mul _
        · intro i _
          exact MeasureTheory.integrable_finsetSum _ fun j _ => (hint i j).const_mul _
      rw [e]
      refine MeasureTheory.setIntegral_nonneg measurableSet_Ioi fun t ht => ?_
      have ht : 0 < t := ht
      set q : ι → ℝ × ℝ := fun i => (Real.sqrt (t / al) * (p i).1, Real.sqrt (t / al) * (p i).2) with hq
      have h1 := quad_of_psd (gauss_psd q) c
      have hs : Real.sqrt (t / al) ^ 2 = t / al := Real.sq_sqrt (by positivity)
      have e2 : ∀ i j, t ^ (al - 1) * Real.exp (-(r i j * t)) = t ^ (al - 1) * Real.exp (-t) *
          Real.exp (-(((q i).1 - (q j).1) ^ 2 + ((q i).2 - (q j).2) ^ 2) / 2) := by
        intro i j
        rw [mul_assoc, ← Real.exp_add]
        congr 2
        simp only [hq, hr, ← mul_sub, mul_pow, hs]
        field_simp
        ring
      have e3 : ∑ i, ∑ j, c i * c j * (t ^ (al - 1) * Real.exp (-(r i j * t))) =
          t ^ (al - 1) * Real.exp (-t) * ∑ i, ∑ j, c i * c j *
            Real.exp (-(((q i).1 - (q j).1) ^ 2 + ((q i).2 - (q j).2) ^ 2) / 2) := by
        rw [Finset.mul_sum]
        refine Finset.sum_congr rfl fun i _ => ?_
        rw [Finset.mul_sum]
        refine Finset.sum_congr rfl fun j _ => ?_
        rw [e2]; ring
      rw [e3]
      exact mul_nonneg (by positivity) h1
    have := nonneg_of_mul_nonneg_left main hg
    simpa only [of_apply] using this

theorem cov_psd {n : ℕ} (p : Param) (pos : Fin n → ℝ × ℝ) : (covNoNoise p pos pos).PosSemidef := by
  unfold covNoNoise kern
  rcases hal : p.alpha with _ | al
  · have h := (gauss_psd fun i => ((pos i).1 / p.ll, (pos i).2 / p.ll)).smul (sq_nonneg p.aa)
    convert h using 1
    ext i j
    simp only [of_apply, Matrix.smul_apply, smul_eq_mul]
    congr 2
    ring
  · have h := (rq_psd (fun i => ((pos i).1 / p.ll, (pos i).2 / p.ll)) (min (max al 0.1) 1000)
      (lt_min (lt_max_of_lt_right (by norm_num)) (by norm_num))).smul (sq_nonneg p.aa)
    convert h using 1
    ext i j
    simp only [of_apply, Matrix.smul_apply, smul_eq_mul]
    congr 4
    ring

theorem grad_psd {n : ℕ} (p : Param) (pos : Fin n → ℝ × ℝ) : (gradNoNoise p pos pos).PosSemidef := by
  have h := (jet_psd (fun r : Fin n ⊕ Fin n => r.isLeft)
      (fun r => (pos (r.elim id id)).1 / p.ll)).hadamard
    (jet_psd (fun r : Fin n ⊕ Fin n => !r.isLeft) (fun r => (pos (r.elim id id)).2 / p.ll))
  suffices e : gradNoNoise p pos pos = (p.aa ^ 2) • (((Matrix.of fun i j =>
      jet (Sum.isLeft i) ((pos (i.elim id id)).1 / p.ll) (Sum.isLeft j) ((pos (j.elim id id)).1 / p.ll)) :
        Matrix (Fin n ⊕ Fin n) (Fin n ⊕ Fin n) ℝ) ⊙ Matrix.of fun i j =>
      jet (!Sum.isLeft i) ((pos (i.elim id id)).2 / p.ll) (!Sum.isLeft j) ((pos (j.elim id id)).2 / p.ll)) by
    rw [e]; exact PosSemidef.smul h (sq_nonneg p.aa)
  ext r c
  have E : ∀ a b a' b' : ℝ, Real.exp (-(((a' - a) / p.ll) ^ 2 + ((b' - b) / p.ll) ^ 2) / 2) =
      Real.exp (-(a / p.ll - a' / p.ll) ^ 2 / 2) * Real.exp (-(b / p.ll - b' / p.ll) ^ 2 / 2) := by
    intro a b a' b'
    rw [← Real.exp_add]; congr 1; ring
  rcases r with j | j <;> rcases c with i | i <;>
    simp only [gradNoNoise, of_apply, Matrix.smul_apply, hadamard_apply, jet, smul_eq_mul, Sum.isLeft, Bool.not_true,
      Bool.not_false, Sum.elim_inl, Sum.elim_inr, id, E] <;> ring

theorem noise_posDef {ι : Type} [Fintype ι] [DecidableEq ι] {K : Matrix ι ι ℝ} (h : K.PosSemidef)
    {s : ℝ} (hs : s ≠ 0) : (K + (s ^ 2) • (1 : Matrix ι ι ℝ)).PosDef :=
  Matrix.PosDef.posSemidef_add h (Matrix.PosDef.one.smul (by positivity))

end Verif.Lemmas.Kernel
