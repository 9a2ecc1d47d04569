import Verif.Lemmas.Kernel

/-!
# The three solution formulas of the Gaussian process code
-/

namespace Verif.Lemmas.Gp
open Matrix Finset Verif.Model.Turbulence Verif.Lemmas.Kernel

variable {ι κ : Type} [Fintype ι] [DecidableEq ι]

theorem cmul (K : Matrix ι ι ℝ) (s : ℝ) (w : ι → ℝ) (j : ι) :
    ((K + (s ^ 2) • (1 : Matrix ι ι ℝ)) *ᵥ w) j = (∑ k, K j k * w k) + s ^ 2 * w j := by
  rw [Matrix.add_mulVec, Matrix.smul_mulVec, Matrix.one_mulVec]
  simp [mulVec, dotProduct]

theorem det_ne {C : Matrix ι ι ℝ} (h : C.PosDef) : C.det ≠ 0 := h.det_pos.ne'

theorem mul_inv_vec {C : Matrix ι ι ℝ} (h : C.det ≠ 0) (d : ι → ℝ) : C *ᵥ (C⁻¹ *ᵥ d) = d := by
  rw [Matrix.mulVec_mulVec, Matrix.mul_nonsing_inv _ (isUnit_iff_ne_zero.2 h), Matrix.one_mulVec]

theorem inv_mul_vec {C : Matrix ι ι ℝ} (h : C.det ≠ 0) (d : ι → ℝ) : C⁻¹ *ᵥ (C *ᵥ d) = d := by
  rw [Matrix.mulVec_mulVec, Matrix.nonsing_inv_mul _ (isUnit_iff_ne_zero.2 h), Matrix.one_mulVec]

theorem exclude {K : Matrix ι ι ℝ} (hK : K.PosSemidef) {s : ℝ} (hs : s ≠ 0) (d : ι → ℝ) :
    ∃ r, gpExclude (K + (s ^ 2) • (1 : Matrix ι ι ℝ)) d = .ok r ∧
      ∀ i, ∃ w : ι → ℝ, w i = 0 ∧ (∀ j, j ≠ i → (∑ k, K j k * w k) + s ^ 2 * w j = d j) ∧
        r i = ∑ k, K i k * w k := by
  have hC := noise_posDef hK hs
  set C := K + (s ^ 2) • (1 : Matrix ι ι ℝ) with hCdef
  have hd := det_ne hC
  have hii : ∀ i, C⁻¹ i i ≠ 0 := fun i => (hC.inv.diag_pos (i := i)).ne'
  refine ⟨fun i => d i - (C⁻¹ *ᵥ d) i / C⁻¹ i i, ?_, ?_⟩
  · unfold gpExclude
    rw [if_neg hd]
    dsimp only
    rw [if_neg (by push Not; exact hii)]
  · intro i
    set lam := (C⁻¹ *ᵥ d) i / C⁻¹ i i with hl
    have hw : C *ᵥ (C⁻¹ *ᵥ (d - lam • Pi.single i 1)) = d - lam • Pi.single i 1 := mul_inv_vec hd _
    set w := C⁻¹ *ᵥ (d - lam • Pi.single i 1) with hwdef
    have hwi : w i = 0 := by
      rw [hwdef, Matrix.mulVec_sub, Matrix.mulVec_smul]
      simp only [Matrix.mulVec_single_one, Pi.sub_apply, Pi.smul_apply, smul_eq_mul, Matrix.col_apply]
      rw [hl, div_mul_cancel₀ _ (hii i), sub_self]
    refine ⟨w, hwi, ?_, ?_⟩
    · intro j hj
      rw [← cmul, ← hCdef, hw]
      simp [hj]
    · have := congrFun hw i
      rw [hCdef, cmul, hwi] at this
      simp only [mul_zero, add_zero] at this
      rw [this]
      simp [hl]

theorem direct {K : Matrix ι ι ℝ} (hK : K.PosSemidef) {s : ℝ} (hs : s ≠ 0) (d : ι → ℝ) :
    ∃ r, gpDirect (K + (s ^ 2) • (1 : Matrix ι ι ℝ)) s d = .ok r ∧
      ∃ w : ι → ℝ, (∀ j, (∑ k, K j k * w k) + s ^ 2 * w j = d j) ∧ ∀ i, r i = ∑ k, K i k * w k := by
  have hC := noise_posDef hK hs
  have hs2 : s ^ 2 ≠ 0 := pow_ne_zero 2 hs
  have hd := det_ne hC
  have e1 : (K + (s ^ 2) • (1 : Matrix ι ι ℝ) - (s ^ 2) • (1 : Matrix ι ι ℝ)) * ((s ^ 2)⁻¹ • (1 : Matrix ι ι ℝ))
      = (s ^ 2)⁻¹ • K := by
    rw [add_sub_cancel_right, Matrix.mul_smul, Matrix.mul_one]
  have e2 : (s ^ 2)⁻¹ • K + 1 = (s ^ 2)⁻¹ • (K + (s ^ 2) • (1 : Matrix ι ι ℝ)) := by
    rw [smul_add, smul_smul, inv_mul_cancel₀ hs2, one_smul]
  set C := K + (s ^ 2) • (1 : Matrix ι ι ℝ) with hCdef
  have haa : ((s ^ 2)⁻¹ • K + 1).PosDef := by
    rw [e2]; exact hC.smul (by positivity)
  have hda := det_ne haa
  have hKC : K * C = C * K := by
    rw [hCdef, Matrix.mul_add, Matrix.add_mul]; simp
  refine ⟨K *ᵥ (C⁻¹ *ᵥ d), ?_, C⁻¹ *ᵥ d, ?_, fun i => by simp [mulVec, dotProduct]⟩
  · unfold gpDirect
    rw [if_neg hs]
    dsimp only
    rw [e1, if_neg hda]
    congr 1
    have e3 : ((s ^ 2)⁻¹ • K) *ᵥ d = ((s ^ 2)⁻¹ • K + 1) *ᵥ (K *ᵥ (C⁻¹ *ᵥ d)) := by
      rw [e2, Matrix.smul_mulVec, Matrix.smul_mulVec, Matrix.mulVec_mulVec, ← hKC, ← Matrix.mulVec_mulVec,
        mul_inv_vec hd]
    rw [e3, inv_mul_vec hda]
  · intro j
    rw [← cmul, ← hCdef, mul_inv_vec hd]

theorem predict {K : Matrix ι ι ℝ} (hK : K.PosSemidef) {s : ℝ} (hs : s ≠ 0) (P : Matrix κ ι ℝ) (d : ι → ℝ) :
    ∃ r, gpPredict (K + (s ^ 2) • (1 : Matrix ι ι ℝ)) P d = .ok r ∧
      ∃ w : ι → ℝ, (∀ j, (∑ k, K j k * w k) + s ^ 2 * w j = d j) ∧ ∀ i, r i = ∑ k, P i k * w k := by
  have hC := noise_posDef hK hs
  refine ⟨_, if_pos hC, (K + (s ^ 2) • (1 : Matrix ι ι ℝ))⁻¹ *ᵥ d, fun j => ?_, fun i => rfl⟩
  rw [← cmul, mul_inv_vec (det_ne hC)]

/-- The weights on a subset of the observations are determined, and exist. -/
theorem weights_unique {K : Matrix ι ι ℝ} (hK : K.PosSemidef) {s : ℝ} (hs : s ≠ 0) (d : ι → ℝ)
    (S : ι → Prop) {w w' : ι → ℝ} (h0 : ∀ j, ¬ S j → w j = 0) (h0' : ∀ j, ¬ S j → w' j = 0)
    (h : ∀ j, S j → (∑ k, K j k * w k) + s ^ 2 * w j = d j)
    (h' : ∀ j, S j → (∑ k, K j k * w' k) + s ^ 2 * w' j = d j) : w = w' := by
  have hq := quad_of_psd hK (w - w')
  have e : ∑ i, ∑ j, (w - w') i * (w - w') j * K i j = -(s ^ 2 * ∑ i, (w i - w' i) ^ 2) := by
    rw [Finset.mul_sum, ← Finset.sum_neg_distrib]
    refine Finset.sum_congr rfl fun i _ => ?_
    by_cases hi : S i
    · have a := h i hi
      have b := h' i hi
      have c : ∑ j, (w - w') i * (w - w') j * K i j = (w i - w' i) * ((∑ k, K i k * w k) - ∑ k, K i k * w' k) := by
        rw [← Finset.sum_sub_distrib, Finset.mul_sum]
        refine Finset.sum_congr rfl fun j _ => by simp only [Pi.sub_apply]; ring
      rw [c]
      have : (∑ k, K i k * w k) - ∑ k, K i k * w' k = -(s ^ 2 * (w i - w' i)) := by linarith
      rw [this]; ring
    · simp [h0 i hi, h0' i hi]
  rw [e] at hq
  have h2 : 0 ≤ ∑ i, (w i - w' i) ^ 2 := Finset.sum_nonneg fun i _ => sq_nonneg _
  have h3 : ∑ i, (w i - w' i) ^ 2 = 0 := by
    have : 0 < s ^ 2 := by positivity
    nlinarith
  funext i
  have := (Finset.sum_eq_zero_iff_of_nonneg (fun i _ => sq_nonneg _)).1 h3 i (Finset.mem_univ i)
  have := pow_eq_zero_iff (two_ne_zero) |>.1 this
  linarith

theorem weights_exist {K : Matrix ι ι ℝ} (hK : K.PosSemidef) {s : ℝ} (hs : s ≠ 0) (d : ι → ℝ)
    (S : ι → Prop) : ∃ w : ι → ℝ, (∀ j, ¬ S j → w j = 0) ∧
      ∀ j, S j → (∑ k, K j k * w k) + s ^ 2 * w j = d j := by
  classical
  set D : Matrix ι ι ℝ := Matrix.diagonal fun j => if S j then 1 else 0 with hD
  have hM : (D * K * D).PosSemidef := by
    have := hK.conjTranspose_mul_mul_same D
    have e : Dᴴ = D := by
      rw [hD, Matrix.diagonal_conjTranspose]; congr 1
    rwa [e] at this
  have hC := noise_posDef hM hs
  have hw := mul_inv_vec (det_ne hC) (fun j => if S j then d j else 0)
  set w := (D * K * D + (s ^ 2) • (1 : Matrix ι ι ℝ))⁻¹ *ᵥ (fun j => if S j then d j else 0)
  have hj : ∀ j, (∑ k, (D * K * D) j k * w k) + s ^ 2 * w j = if S j then d j else 0 := by
    intro j
    rw [← cmul, hw]
  have hDKD : ∀ j k, (D * K * D) j k = (if S j then 1 else 0) * K j k * (if S k then 1 else 0) := by
    intro j k
    rw [hD, Matrix.mul_diagonal, Matrix.diagonal_mul]
  have h0 : ∀ j, ¬ S j → w j = 0 := by
    intro j hS
    have := hj j
    simp only [hDKD, hS, if_false, zero_mul, Finset.sum_const_zero, zero_add] at this
    exact (mul_eq_zero.1 this).resolve_left (pow_ne_zero 2 hs)
  refine ⟨w, h0, fun j hS => ?_⟩
  have := hj j
  rw [if_pos hS] at this
  rw [← this]
  congr 1
  refine Finset.sum_congr rfl fun k _ => ?_
  rw [hDKD, if_pos hS]
  by_cases hk : S k
  · simp [hk]
  · simp [hk, h0 k hk]

end Verif.Lemmas.Gp
