import Verif.Props.TurbPoly
import Mathlib.Analysis.InnerProductSpace.PiL2
import Mathlib.Analysis.InnerProductSpace.Projection.FiniteDimensional

/-!
# C72: the hypotheses can be met
-/

namespace Verif.Props.TurbPoly
open Verif.Py Verif.Model.TurbPoly Verif

section
variable {E F : Type*} [NormedAddCommGroup E] [InnerProductSpace ℝ E] [FiniteDimensional ℝ E]
  [NormedAddCommGroup F] [InnerProductSpace ℝ F] [FiniteDimensional ℝ F]

/-- A least squares solution of smallest norm exists. -/
theorem exists_ls (A : E →ₗ[ℝ] F) (b : F) : ∃ c, (∀ c', ‖A c - b‖ ^ 2 ≤ ‖A c' - b‖ ^ 2) ∧ ∀ c', ‖A c' - b‖ ^ 2 = ‖A c - b‖ ^ 2 → ‖c‖ ^ 2 ≤ ‖c'‖ ^ 2 := by
  obtain ⟨c0, hc0⟩ : ∃ c0, A c0 = (LinearMap.range A).starProjection b :=
    LinearMap.mem_range.1 (Submodule.starProjection_apply_mem _ b)
  have horth : ∀ c, inner ℝ (A c) (A c0 - b) = 0 := by
    intro c
    have := Submodule.sub_starProjection_mem_orthogonal (K := LinearMap.range A) b
    have h2 := (Submodule.mem_orthogonal _ _).1 this (A c) (LinearMap.mem_range_self A c)
    rw [← hc0] at h2
    rw [← neg_sub, inner_neg_right, h2, neg_zero]
  have hpyth : ∀ c, ‖A c - b‖ ^ 2 = ‖A (c - c0)‖ ^ 2 + ‖A c0 - b‖ ^ 2 := by
    intro c
    have e1 : A c - b = A (c - c0) + (A c0 - b) := by rw [map_sub]; abel
    rw [e1, norm_add_sq_real, horth]
    ring
  set c1 := c0 - (LinearMap.ker A).starProjection c0 with hc1
  have hA1 : A c1 = A c0 := by
    rw [hc1, map_sub, LinearMap.mem_ker.1 (Submodule.starProjection_apply_mem _ c0), sub_zero]
  have hperp : ∀ k ∈ LinearMap.ker A, inner ℝ k c1 = 0 := by
    intro k hk
    exact (Submodule.mem_orthogonal _ _).1 (Submodule.sub_starProjection_mem_orthogonal (K := LinearMap.ker A) c0) k hk
  refine ⟨c1, ?_, ?_⟩
  · intro c'
    rw [hA1, hpyth c']
    have := sq_nonneg ‖A (c' - c0)‖
    linarith
  · intro c' h
    rw [hA1, hpyth c'] at h
    have h0 : A (c' - c0) = 0 := by
      have : ‖A (c' - c0)‖ ^ 2 = 0 := by linarith
      exact norm_eq_zero.1 (pow_eq_zero_iff two_ne_zero |>.1 this)
    have hk : c' - c1 ∈ LinearMap.ker A := by
      rw [LinearMap.mem_ker, map_sub, hA1, ← map_sub, h0]
    have e1 : c' = (c' - c1) + c1 := by abel
    rw [e1, norm_add_sq_real, hperp _ hk]
    have := sq_nonneg ‖c' - c1‖
    linarith
end

theorem dot_fin {k : ℕ} {a b : List ℝ} (ha : a.length = k) (hb : b.length = k) :
    dot a b = ∑ i : Fin k, a.getD i 0 * b.getD i 0 := by
  unfold dot
  rw [← List.sum_ofFn]
  congr 1
  apply List.ext_getElem
  · simp [ha, hb]
  · intro j h1 h2
    simp only [List.length_ofFn] at h2
    simp [List.getElem?_eq_getElem (show j < a.length by omega), List.getElem?_eq_getElem (show j < b.length by omega)]

/-- There is such a solver. -/
theorem lstsq_exists : ∃ lst, LeastSquares lst := by
  have h : ∀ k rows b, ∃ v : List ℝ, (∀ r ∈ rows, r.length = k) → b.length = rows.length →
      v.length = k ∧ (∀ c, c.length = k → ssq rows b v ≤ ssq rows b c) ∧
      ∀ c, c.length = k → ssq rows b c = ssq rows b v → dot v v ≤ dot c c := by
    intro k rows b
    by_cases hr : (∀ r ∈ rows, r.length = k) ∧ b.length = rows.length
    · obtain ⟨hr, hb⟩ := hr
      let A : EuclideanSpace ℝ (Fin k) →ₗ[ℝ] EuclideanSpace ℝ (Fin rows.length) :=
        { toFun := fun c => WithLp.toLp 2 fun r => ∑ i : Fin k, rows[r].getD i 0 * c i
          map_add' := by
            intro x y
            ext r
            simp [mul_add, Finset.sum_add_distrib]
          map_smul' := by
            intro t x
            ext r
            simp only [PiLp.smul_apply, smul_eq_mul, RingHom.id_apply, Finset.mul_sum]
            apply Finset.sum_congr rfl
            intro i _
            ring }
      let bb : EuclideanSpace ℝ (Fin rows.length) := WithLp.toLp 2 fun r => b.getD r 0
      let vec : List ℝ → EuclideanSpace ℝ (Fin k) := fun v => WithLp.toLp 2 fun i => v.getD i 0
      have hssq : ∀ v : List ℝ, v.length = k → ssq rows b v = ‖A (vec v) - bb‖ ^ 2 := by
        intro v hv
        rw [EuclideanSpace.real_norm_sq_eq]
        unfold ssq
        rw [← List.sum_ofFn]
        congr 1
        apply List.ext_getElem
        · simp [hb]
        · intro j h1 h2
          simp only [List.length_ofFn] at h2
          rw [List.getElem_zipWith, List.getElem_ofFn, dot_fin (hr _ (List.getElem_mem _)) hv]
          simp [A, bb, vec, List.getElem?_eq_getElem (show j < b.length by omega)]
      have hdot : ∀ v : List ℝ, v.length = k → dot v v = ‖vec v‖ ^ 2 := by
        intro v hv
        rw [EuclideanSpace.real_norm_sq_eq, dot_fin hv hv]
        apply Finset.sum_congr rfl
        intro i _
        simp only [vec]
        ring
      obtain ⟨c, h1, h2⟩ := exists_ls A bb
      have hc : vec (List.ofFn fun i => c i) = c := by
        ext i
        simp [vec]
      refine ⟨List.ofFn fun i => c i, fun _ _ => ⟨by simp, ?_, ?_⟩⟩
      · intro c' hc'
        rw [hssq _ (by simp), hssq _ hc', hc]
        exact h1 _
      · intro c' hc' he
        rw [hssq _ hc', hssq (List.ofFn fun i => c i) (by simp), hc] at he
        rw [hdot _ (by simp), hdot _ hc', hc]
        exact h2 _ he
    · exact ⟨[], fun a b => absurd ⟨a, b⟩ hr⟩
  choose lst hlst using h
  exact ⟨lst, fun k rows b h1 h2 => hlst k rows b h1 h2⟩

theorem sum_mons4 (f : ℕ × ℕ → ℝ) : ∑ p ∈ mons 4, f p =
    f (0, 1) + f (1, 0) + f (0, 2) + f (1, 1) + f (2, 0) + f (0, 3) + f (1, 2) + f (2, 1) + f (3, 0) +
      f (0, 4) + f (1, 3) + f (2, 2) + f (3, 1) + f (4, 0) := by
  rw [← exps_toFinset, List.sum_toFinset _ (exps_nodup 4)]
  have : exps 4 = [(0, 1), (1, 0), (0, 2), (1, 1), (2, 0), (0, 3), (1, 2), (2, 1), (3, 0), (0, 4), (1, 3), (2, 2), (3, 1), (4, 0)] := by decide
  rw [this]
  simp only [List.map_cons, List.map_nil, List.sum_cons, List.sum_nil]
  ring

/-- A gradient of degree 3 that vanishes on a grid of four times four points is zero. -/
theorem grid_zero (c : ℕ × ℕ → ℝ) (h : ∀ a b : ℕ, a < 4 → b < 4 → grad 4 c (a, b) = (0, 0)) : ∀ p ∈ mons 4, c p = 0 := by
  have hx : ∀ a b : ℕ, a < 4 → b < 4 → (grad 4 c (a, b)).1 = 0 := fun a b h1 h2 => by rw [h a b h1 h2]
  have hy : ∀ a b : ℕ, a < 4 → b < 4 → (grad 4 c (a, b)).2 = 0 := fun a b h1 h2 => by rw [h a b h1 h2]
  unfold grad at hx hy
  simp only [sum_mons4] at hx hy
  have x00 := hx 0 0 (by omega) (by omega)
  have x10 := hx 1 0 (by omega) (by omega)
  have x20 := hx 2 0 (by omega) (by omega)
  have x30 := hx 3 0 (by omega) (by omega)
  have x01 := hx 0 1 (by omega) (by omega)
  have x02 := hx 0 2 (by omega) (by omega)
  have x03 := hx 0 3 (by omega) (by omega)
  have x11 := hx 1 1 (by omega) (by omega)
  have x12 := hx 1 2 (by omega) (by omega)
  have x21 := hx 2 1 (by omega) (by omega)
  have y00 := hy 0 0 (by omega) (by omega)
  have y01 := hy 0 1 (by omega) (by omega)
  have y02 := hy 0 2 (by omega) (by omega)
  have y03 := hy 0 3 (by omega) (by omega)
  clear hx hy h
  norm_num at x00 x10 x20 x30 x01 x02 x03 x11 x12 x21 y00 y01 y02 y03
  have c20 : c (2, 0) = 0 := by linarith
  have c30 : c (3, 0) = 0 := by linarith
  have c40 : c (4, 0) = 0 := by linarith
  have c11 : c (1, 1) = 0 := by linarith
  have c12 : c (1, 2) = 0 := by linarith
  have c13 : c (1, 3) = 0 := by linarith
  have c02 : c (0, 2) = 0 := by linarith
  have c03 : c (0, 3) = 0 := by linarith
  have c04 : c (0, 4) = 0 := by linarith
  have c21 : c (2, 1) = 0 := by linarith
  have c22 : c (2, 2) = 0 := by linarith
  have c31 : c (3, 1) = 0 := by linarith
  rintro ⟨a, b⟩ hp
  rw [mem_mons] at hp
  simp only at hp
  have ha : a ≤ 4 := by omega
  have hb : b ≤ 4 := by omega
  interval_cases a <;> interval_cases b <;> first | omega | assumption

/-- Four fibres at each point of a grid. -/
noncomputable def gridPos (j : Fin 64) : ℝ × ℝ := (((j.1 / 4 % 4 : ℕ) : ℝ), ((j.1 / 16 : ℕ) : ℝ))

/-- All folds determine the polynomials. -/
theorem grid_determined (i : Fin 64) (f : ℕ) (_hf : f < 3) : Determined (List.finRange 64) gridPos i (fun k => k % 3 ≠ f) := by
  intro c hc
  have hlen : (List.finRange 64).length = 64 := List.length_finRange
  have hzero : ∀ a b : ℕ, a < 4 → b < 4 → grad 4 c ((a : ℝ) - (gridPos i).1, (b : ℝ) - (gridPos i).2) = (0, 0) := by
    intro a b ha hb
    have hpos : ∀ t, t < 4 → gridPos ⟨16 * b + 4 * a + t % 4, by omega⟩ = ((a : ℝ), (b : ℝ)) := by
      intro t ht
      unfold gridPos
      refine Prod.ext ?_ ?_
      · simp only [Nat.cast_inj]; omega
      · simp only [Nat.cast_inj]; omega
    have pick : ∀ s : ℕ, ∃ t, t < 4 ∧ 16 * b + 4 * a + t % 4 ≠ i.1 ∧ (s + (16 * b + 4 * a + t % 4)) % 3 ≠ f := by
      intro s
      by_contra hn
      push Not at hn
      have h0 := hn 0 (by omega)
      have h1 := hn 1 (by omega)
      have h2 := hn 2 (by omega)
      have h3 := hn 3 (by omega)
      omega
    refine Prod.ext ?_ ?_
    · obtain ⟨t, ht, hne, hk⟩ := pick 0
      have h1 := (hc ⟨16 * b + 4 * a + t % 4, by rw [hlen]; omega⟩ (by
        intro h; apply hne; rw [← h]; simp)).1 (by simpa using hk)
      have e1 : (List.finRange 64)[(⟨16 * b + 4 * a + t % 4, by rw [hlen]; omega⟩ : Fin (List.finRange 64).length)] =
          ⟨16 * b + 4 * a + t % 4, by omega⟩ := by simp
      rw [e1, rel, hpos t ht] at h1
      exact h1
    · obtain ⟨t, ht, hne, hk⟩ := pick 64
      have h1 := (hc ⟨16 * b + 4 * a + t % 4, by rw [hlen]; omega⟩ (by
        intro h; apply hne; rw [← h]; simp)).2 (by simpa using hk)
      have e1 : (List.finRange 64)[(⟨16 * b + 4 * a + t % 4, by rw [hlen]; omega⟩ : Fin (List.finRange 64).length)] =
          ⟨16 * b + 4 * a + t % 4, by omega⟩ := by simp
      rw [e1, rel, hpos t ht] at h1
      exact h1
  obtain ⟨c', hc'⟩ := shift_grad 4 c (-(gridPos i).1) (-(gridPos i).2)
  have h0 := grid_zero c' (fun a b ha hb => by
    rw [← hc', ← sub_eq_add_neg, ← sub_eq_add_neg]
    exact hzero a b ha hb)
  have hall : ∀ x y, grad 4 c (x, y) = (0, 0) := by
    intro x y
    have := hc' (x + (gridPos i).1) (y + (gridPos i).2)
    simp only [add_neg_cancel_right] at this
    rw [this, grad_congr (b := fun _ => 0) h0]
    unfold grad
    simp
  exact grid_zero c fun a b _ _ => hall a b

/-- `C72_exact`: 64 fibres, four at each point of a grid, offsets `(y, x) / 1000`. -/
example : ∃ (lst : Lstsq) (m e : Fin 64 → ℝ × ℝ) (ball : Fin 64 → List (Fin 64)) (c : ℕ × ℕ → ℝ), LeastSquares lst ∧ IsBall 50 m e ball ∧
    (∀ i, ((m i).1 - (e i).1) ^ 2 + ((m i).2 - (e i).2) ^ 2 ≤ 50 ^ 2) ∧ (∀ j, ((m j).1 - (e j).1, (m j).2 - (e j).2) = grad 4 c (m j)) ∧
    (∀ i, ∀ f < 3, Determined (ball i) m i (fun k => k % 3 ≠ f)) ∧ (∃ i, m i ≠ e i) := by
  obtain ⟨lst, hlst⟩ := lstsq_exists
  have hg : ∀ q, grad 4 (fun p => if p = (1, 1) then 1 / 1000 else 0) q = (q.2 / 1000, q.1 / 1000) := by
    intro q
    unfold grad
    simp only [sum_mons4]
    norm_num
    constructor <;> ring
  have hb : ∀ j, 0 ≤ (gridPos j).1 ∧ (gridPos j).1 ≤ 3 ∧ 0 ≤ (gridPos j).2 ∧ (gridPos j).2 ≤ 3 := by
    intro j
    unfold gridPos
    refine ⟨by positivity, ?_, by positivity, ?_⟩
    · have : j.1 / 4 % 4 ≤ 3 := by omega
      simp only
      exact_mod_cast this
    · have : j.1 / 16 ≤ 3 := by omega
      simp only
      exact_mod_cast this
  refine ⟨lst, gridPos, fun j => ((gridPos j).1 - (gridPos j).2 / 1000, (gridPos j).2 - (gridPos j).1 / 1000), fun _ => List.finRange 64,
    fun p => if p = (1, 1) then 1 / 1000 else 0, hlst, ?_, ?_, ?_, fun i f hf => grid_determined i f hf, ⟨63, ?_⟩⟩
  · intro i
    refine ⟨List.nodup_finRange 64, fun j => ⟨fun _ => ?_, fun _ => List.mem_finRange j⟩⟩
    obtain ⟨a1, a2, a3, a4⟩ := hb i
    obtain ⟨b1, b2, b3, b4⟩ := hb j
    simp only
    nlinarith [mul_nonneg a1 b1, abs_le.1 (le_refl |(gridPos i).1|)]
  · intro i
    obtain ⟨a1, a2, a3, a4⟩ := hb i
    simp only
    nlinarith
  · intro j
    rw [hg]
    simp
  · intro h
    have := congrArg Prod.fst h
    simp only [gridPos] at this
    norm_num at this

/-- `C72_outside`: two fibres, the second measured 60 mm from where it is expected. -/
example : IsBall 50 (fun i : Fin 2 => if i = 0 then (0, 0) else (160, 0)) (fun i => if i = 0 then (0, 0) else (100, 0))
      (fun i => if i = 0 then [0] else []) ∧ (50 : ℝ) ^ 2 < ((160 : ℝ) - 100) ^ 2 + (0 - 0) ^ 2 := by
  refine ⟨?_, by norm_num⟩
  intro i
  refine ⟨by fin_cases i <;> simp, ?_⟩
  intro j
  fin_cases i <;> fin_cases j <;> norm_num

/-- `C72_isolated`, `C72_prediction`: one fibre, 1 mm off. -/
example : ∃ (lst : Lstsq) (out : List (ℝ × ℝ)), LeastSquares lst ∧
    IsBall 50 (fun _ : Fin 1 => ((1, 0) : ℝ × ℝ)) (fun _ => (0, 0)) (fun _ => [0]) ∧
    correctWithPol lst (fun _ : Fin 1 => [0]) (fun _ => (1, 0)) (fun _ => (0, 0)) = .ok out := by
  obtain ⟨lst, hlst⟩ := lstsq_exists
  have hball : IsBall 50 (fun _ : Fin 1 => ((1, 0) : ℝ × ℝ)) (fun _ => (0, 0)) (fun _ => [0]) := by
    intro i
    refine ⟨by simp, fun j => ?_⟩
    fin_cases j
    norm_num
  obtain ⟨s, hs, hc⟩ := step_spec (lst := lst) (ball := fun _ : Fin 1 => [0]) (m := fun _ => (1, 0)) (e := fun _ => (0, 0)) hlst 0 (by simp) (by simp)
  rcases hc with ⟨n, -, -, -, -, -, c, -, h⟩ | ⟨h, -⟩
  · refine ⟨lst, [(1 - (grad n c (0, 0)).1, 0 - (grad n c (0, 0)).2)], hlst, hball, ?_⟩
    unfold correctWithPol
    have : List.finRange 1 = [0] := rfl
    rw [this, fibres, h]
    rfl
  · exfalso
    obtain ⟨cf, -, h4⟩ := hs 4 (by omega) (le_refl _)
    have hl : ∀ K c, loss [(0 : Fin 1)] (fun _ => ((1, 0) : ℝ × ℝ)) (fun _ => (0, 0)) 0 4 K c = 0 := by
      intro K c
      unfold loss
      simp
    rw [hl, hl, hl] at h4
    have := h 4 (by omega) (le_refl _)
    rw [h4] at this
    norm_num at this

end Verif.Props.TurbPoly
