import Verif.Lemmas.Gp
import Mathlib.Analysis.Complex.ExponentialBounds

/-!
# C54: turbulence estimation

Specification: a linear prediction from noisy observations with prior covariance `K`, defined by
the weights `w` of the observations in a set `S` that solve the normal equations.  The two
covariance functions of the spatial models are written out here independently of the code.
-/

namespace Verif.Props
open Verif.Py Verif.Model.Turbulence
open Verif.Model.MatchPositioners (median)
open Verif.Lemmas (Gp.weights_unique Gp.weights_exist)

namespace Tur

/-- Squared exponential or, with a fourth parameter limited to 0.1..1000, rational quadratic. -/
noncomputable def Cov (p : Param) (a b : ℝ × ℝ) : ℝ :=
  let r2 := ((a.1 - b.1) ^ 2 + (a.2 - b.2) ^ 2) / p.ll ^ 2
  match p.alpha with
  | none => p.aa ^ 2 * Real.exp (-(r2 / 2))
  | some al =>
    let al := if al < 0.1 then 0.1 else if 1000 < al then 1000 else al
    p.aa ^ 2 * (1 + r2 / (2 * al)) ^ (-al)

/-- Covariances of the gradient of a random field; the flag selects the y component. -/
noncomputable def CovGrad (p : Param) (a : ℝ × ℝ) (ya : Bool) (b : ℝ × ℝ) (yb : Bool) : ℝ :=
  let X := (a.1 - b.1) / p.ll
  let Y := (a.2 - b.2) / p.ll
  p.aa ^ 2 * Real.exp (-(X ^ 2 + Y ^ 2) / 2) *
    (match ya, yb with
      | false, false => 1 - X ^ 2
      | true, true => 1 - Y ^ 2
      | _, _ => -(X * Y))

/-- `v` is the prediction, from the observations `d j` with `j` in `S`, of a quantity with
covariances `kv` to the observed field. -/
def Predicts {ι : Type} [Fintype ι] (K : ι → ι → ℝ) (s : ℝ) (d : ι → ℝ) (S : ι → Prop)
    (kv : ι → ℝ) (v : ℝ) : Prop :=
  ∃ w : ι → ℝ, (∀ j, ¬ S j → w j = 0) ∧ (∀ j, S j → (∑ k, K j k * w k) + s ^ 2 * w j = d j) ∧
    v = ∑ k, kv k * w k

/-- Component of a fibre in the gradient model: `inl` x, `inr` y. -/
noncomputable def KGrad {n : ℕ} (p : Param) (pos : Fin n → ℝ × ℝ) (r c : Fin n ⊕ Fin n) : ℝ :=
  CovGrad p (pos (r.elim id id)) r.isRight (pos (c.elim id id)) c.isRight

theorem cov_eq (p : Param) (a b : ℝ × ℝ) : kern p a b = Cov p a b := by
  unfold kern Cov
  have e : ((b.1 - a.1) ^ 2 + (b.2 - a.2) ^ 2) = ((a.1 - b.1) ^ 2 + (a.2 - b.2) ^ 2) := by ring
  rcases p.alpha with _ | al
  · simp only [e, neg_div]
  · have h : min (max al 0.1) 1000 = if al < 0.1 then (0.1 : ℝ) else if 1000 < al then 1000 else al := by
      split_ifs with h1 h2
      · rw [max_eq_right h1.le, min_eq_left (by norm_num)]
      · rw [max_eq_left (not_lt.1 h1), min_eq_right h2.le]
      · rw [max_eq_left (not_lt.1 h1), min_eq_left (not_lt.1 h2)]
    simp only [e, h]

theorem grad_eq {n m : ℕ} (p : Param) (at1 : Fin n → ℝ × ℝ) (at2 : Fin m → ℝ × ℝ) (r : Fin m ⊕ Fin m)
    (c : Fin n ⊕ Fin n) :
    gradNoNoise p at1 at2 r c = CovGrad p (at2 (r.elim id id)) r.isRight (at1 (c.elim id id)) c.isRight := by
  have e : ∀ a b a' b' : ℝ, Real.exp (-(((a' - a) / p.ll) ^ 2 + ((b' - b) / p.ll) ^ 2) / 2) =
      Real.exp (-(((a - a') / p.ll) ^ 2 + ((b - b') / p.ll) ^ 2) / 2) := by
    intro a b a' b'; congr 1; ring
  rcases r with j | j <;> rcases c with i | i <;>
    simp only [gradNoNoise, CovGrad, Matrix.of_apply, Sum.elim_inl, Sum.elim_inr, id, Sum.isRight] <;>
    rw [e] <;> ring

theorem predicts_unique {ι : Type} [Fintype ι] [DecidableEq ι] {K : Matrix ι ι ℝ} (hK : K.PosSemidef)
    {s : ℝ} (hs : s ≠ 0) (d : ι → ℝ) (S : ι → Prop) (kv : ι → ℝ) : ∃! v, Predicts K s d S kv v := by
  obtain ⟨w, h0, h⟩ := Gp.weights_exist hK hs d S
  refine ⟨_, ⟨w, h0, h, rfl⟩, ?_⟩
  rintro v ⟨w', h0', h', rfl⟩
  rw [Gp.weights_unique hK hs d S h0' h0 h' h]

theorem kern_mat {n : ℕ} (p : Param) (pos : Fin n → ℝ × ℝ) :
    (fun i j => Cov p (pos i) (pos j)) = covNoNoise p pos pos := by
  funext i j; simp [covNoNoise, cov_eq]

theorem grad_mat {n : ℕ} (p : Param) (pos : Fin n → ℝ × ℝ) : KGrad p pos = gradNoNoise p pos pos := by
  funext i j; rw [grad_eq]; rfl

end Tur

open Tur

/-- Whatever fibres are used, the prediction is determined: the covariance functions are positive
semidefinite for all positions and parameters, also for coinciding fibres. -/
theorem C54_well_posed {n : ℕ} (p : Param) (hs : p.sigma ≠ 0) (pos : Fin n → ℝ × ℝ) :
    (∀ d S kv, ∃! v, Predicts (fun i j => Cov p (pos i) (pos j)) p.sigma d S kv v) ∧
    (∀ d S kv, ∃! v, Predicts (KGrad p pos) p.sigma d S kv v) := by
  rw [kern_mat, grad_mat]
  exact ⟨fun d S kv => predicts_unique (Lemmas.Kernel.cov_psd p pos) hs d S kv,
    fun d S kv => predicts_unique (Lemmas.Kernel.grad_psd p pos) hs d S kv⟩

/-- `excludeself`: the turbulence of each fibre is the prediction from all other fibres. -/
theorem C54_excludeself {n : ℕ} (data : Data n) (p : Param) (hs : p.sigma ≠ 0) (hl : p.ll ≠ 0) :
    ∃ xs ys : Fin n → ℝ,
      solveIndependent data true none p = .ok (List.ofFn xs, List.ofFn ys) ∧
      ∀ i, Predicts (fun i j => Cov p (data.pos i) (data.pos j)) p.sigma data.dx (· ≠ i)
            (fun k => Cov p (data.pos i) (data.pos k)) (xs i) ∧
          Predicts (fun i j => Cov p (data.pos i) (data.pos j)) p.sigma data.dy (· ≠ i)
            (fun k => Cov p (data.pos i) (data.pos k)) (ys i) := by
  obtain ⟨xs, hx, hxw⟩ := Lemmas.Gp.exclude (Lemmas.Kernel.cov_psd p data.pos) hs data.dx
  obtain ⟨ys, hy, hyw⟩ := Lemmas.Gp.exclude (Lemmas.Kernel.cov_psd p data.pos) hs data.dy
  refine ⟨xs, ys, ?_, fun i => ⟨?_, ?_⟩⟩
  · simp only [solveIndependent, Option.isSome_none, Bool.false_and, Bool.false_eq_true, if_false, hl,
      Bool.not_true, covIndependent]
    rw [hx, hy]; rfl
  · obtain ⟨w, h0, h, hr⟩ := hxw i
    rw [kern_mat]
    exact ⟨w, fun j hj => by rw [not_not.1 hj, h0], h, by rw [hr]; simp [covNoNoise, cov_eq]⟩
  · obtain ⟨w, h0, h, hr⟩ := hyw i
    rw [kern_mat]
    exact ⟨w, fun j hj => by rw [not_not.1 hj, h0], h, by rw [hr]; simp [covNoNoise, cov_eq]⟩

/-- Without `excludeself` and `predict_at`: prediction at each fibre from all fibres. -/
theorem C54_smooth {n : ℕ} (data : Data n) (p : Param) (hs : p.sigma ≠ 0) (hl : p.ll ≠ 0) :
    ∃ xs ys : Fin n → ℝ,
      solveIndependent data false none p = .ok (List.ofFn xs, List.ofFn ys) ∧
      ∀ i, Predicts (fun i j => Cov p (data.pos i) (data.pos j)) p.sigma data.dx (fun _ => True)
            (fun k => Cov p (data.pos i) (data.pos k)) (xs i) ∧
          Predicts (fun i j => Cov p (data.pos i) (data.pos j)) p.sigma data.dy (fun _ => True)
            (fun k => Cov p (data.pos i) (data.pos k)) (ys i) := by
  obtain ⟨xs, hx, w, hw, hxw⟩ := Lemmas.Gp.direct (Lemmas.Kernel.cov_psd p data.pos) hs data.dx
  obtain ⟨ys, hy, w', hw', hyw⟩ := Lemmas.Gp.direct (Lemmas.Kernel.cov_psd p data.pos) hs data.dy
  refine ⟨xs, ys, ?_, fun i => ⟨?_, ?_⟩⟩
  · simp only [solveIndependent, Option.isSome_none, Bool.false_and, Bool.false_eq_true, if_false, hl,
      Bool.not_false, if_true, covIndependent]
    rw [hx, hy]; rfl
  · rw [kern_mat]
    exact ⟨w, fun j hj => absurd trivial hj, fun j _ => hw j, by rw [hxw]; simp [covNoNoise, cov_eq]⟩
  · rw [kern_mat]
    exact ⟨w', fun j hj => absurd trivial hj, fun j _ => hw' j, by rw [hyw]; simp [covNoNoise, cov_eq]⟩

/-- With `predict_at`: one pair of values per requested position, the prediction there from all
fibres. -/
theorem C54_predict_at {n : ℕ} (data : Data n) (p : Param) (hs : p.sigma ≠ 0) (hl : p.ll ≠ 0)
    (pts : List (ℝ × ℝ)) :
    ∃ tx ty : ℝ × ℝ → ℝ,
      solveIndependent data false (some pts) p = .ok (pts.map tx, pts.map ty) ∧
      ∀ q, Predicts (fun i j => Cov p (data.pos i) (data.pos j)) p.sigma data.dx (fun _ => True)
            (fun k => Cov p q (data.pos k)) (tx q) ∧
          Predicts (fun i j => Cov p (data.pos i) (data.pos j)) p.sigma data.dy (fun _ => True)
            (fun k => Cov p q (data.pos k)) (ty q) := by
  have hK := Lemmas.Kernel.cov_psd p data.pos
  obtain ⟨xs, hx, w, hw, hxw⟩ := Lemmas.Gp.predict hK hs (covNoNoise p data.pos pts.get) data.dx
  obtain ⟨ys, hy, w', hw', hyw⟩ := Lemmas.Gp.predict hK hs (covNoNoise p data.pos pts.get) data.dy
  refine ⟨fun q => ∑ k, Cov p q (data.pos k) * w k, fun q => ∑ k, Cov p q (data.pos k) * w' k, ?_,
    fun q => ⟨?_, ?_⟩⟩
  · simp only [solveIndependent, Option.isSome_some, Bool.true_and, Bool.false_eq_true, if_false, hl,
      Bool.not_false, if_true, covIndependent]
    rw [hx, hy]
    have a : ∀ (z : Fin pts.length → ℝ) (u : Fin n → ℝ)
        (_ : ∀ i, z i = ∑ k, covNoNoise p data.pos pts.get i k * u k),
        List.ofFn z = pts.map fun q => ∑ k, Cov p q (data.pos k) * u k := by
      intro z u hz
      apply List.ext_getElem (by simp)
      intro i h1 h2
      simp [hz, covNoNoise, cov_eq]
    show Except.ok _ = _
    rw [a xs w hxw, a ys w' hyw]
  · rw [kern_mat]
    exact ⟨w, fun j hj => absurd trivial hj, fun j _ => hw j, rfl⟩
  · rw [kern_mat]
    exact ⟨w', fun j hj => absurd trivial hj, fun j _ => hw' j, rfl⟩

/-- The same for the gradient model, on the 2n observed components.  `excludeself` leaves out only
the component that is predicted. -/
theorem C54_gradwavefront {n : ℕ} (data : Data n) (p : Param) (hs : p.sigma ≠ 0) (hl : p.ll ≠ 0)
    (ha : p.alpha = none) (pts : List (ℝ × ℝ)) :
    (∃ xs ys : Fin n → ℝ,
      solveGradwavefront data true none p = .ok (List.ofFn xs, List.ofFn ys) ∧
      ∀ i, Predicts (KGrad p data.pos) p.sigma (Sum.elim data.dx data.dy) (· ≠ .inl i)
            (KGrad p data.pos (.inl i)) (xs i) ∧
          Predicts (KGrad p data.pos) p.sigma (Sum.elim data.dx data.dy) (· ≠ .inr i)
            (KGrad p data.pos (.inr i)) (ys i)) ∧
    (∃ xs ys : Fin n → ℝ,
      solveGradwavefront data false none p = .ok (List.ofFn xs, List.ofFn ys) ∧
      ∀ i, Predicts (KGrad p data.pos) p.sigma (Sum.elim data.dx data.dy) (fun _ => True)
            (KGrad p data.pos (.inl i)) (xs i) ∧
          Predicts (KGrad p data.pos) p.sigma (Sum.elim data.dx data.dy) (fun _ => True)
            (KGrad p data.pos (.inr i)) (ys i)) ∧
    (∃ tx ty : ℝ × ℝ → ℝ,
      solveGradwavefront data false (some pts) p = .ok (pts.map tx, pts.map ty) ∧
      ∀ q, Predicts (KGrad p data.pos) p.sigma (Sum.elim data.dx data.dy) (fun _ => True)
            (fun k => CovGrad p q false (data.pos (k.elim id id)) k.isRight) (tx q) ∧
          Predicts (KGrad p data.pos) p.sigma (Sum.elim data.dx data.dy) (fun _ => True)
            (fun k => CovGrad p q true (data.pos (k.elim id id)) k.isRight) (ty q)) := by
  have hK := Lemmas.Kernel.grad_psd p data.pos
  rw [grad_mat]
  refine ⟨?_, ?_, ?_⟩
  · obtain ⟨r, hr, h⟩ := Lemmas.Gp.exclude hK hs (Sum.elim data.dx data.dy)
    refine ⟨fun i => r (.inl i), fun i => r (.inr i), ?_, fun i => ⟨?_, ?_⟩⟩
    · simp only [solveGradwavefront, Option.isSome_none, Bool.false_and, Bool.false_eq_true, if_false, hl,
        Bool.not_true, covGrad, ha]
      rw [hr]; rfl
    · obtain ⟨w, h0, h, hr⟩ := h (.inl i)
      exact ⟨w, fun j hj => by rw [not_not.1 hj, h0], h, hr⟩
    · obtain ⟨w, h0, h, hr⟩ := h (.inr i)
      exact ⟨w, fun j hj => by rw [not_not.1 hj, h0], h, hr⟩
  · obtain ⟨r, hr, w, hw, h⟩ := Lemmas.Gp.direct hK hs (Sum.elim data.dx data.dy)
    refine ⟨fun i => r (.inl i), fun i => r (.inr i), ?_, fun i => ⟨?_, ?_⟩⟩
    · simp only [solveGradwavefront, Option.isSome_none, Bool.false_and, Bool.false_eq_true, if_false, hl,
        Bool.not_false, if_true, covGrad, ha]
      rw [hr]; rfl
    · exact ⟨w, fun j hj => absurd trivial hj, fun j _ => hw j, h _⟩
    · exact ⟨w, fun j hj => absurd trivial hj, fun j _ => hw j, h _⟩
  · obtain ⟨r, hr, w, hw, h⟩ := Lemmas.Gp.predict hK hs (gradNoNoise p data.pos pts.get)
      (Sum.elim data.dx data.dy)
    refine ⟨fun q => ∑ k, CovGrad p q false (data.pos (k.elim id id)) k.isRight * w k,
      fun q => ∑ k, CovGrad p q true (data.pos (k.elim id id)) k.isRight * w k, ?_, fun q => ⟨?_, ?_⟩⟩
    · simp only [solveGradwavefront, Option.isSome_some, Bool.true_and, Bool.false_eq_true, if_false, hl,
        Bool.not_false, if_true, covGrad, ha, Option.isSome_none]
      rw [hr]
      show Except.ok _ = _
      congr 2
      · apply List.ext_getElem (by simp)
        intro i h1 h2
        simp only [List.getElem_ofFn, List.getElem_map, h, grad_eq]
        rfl
      · apply List.ext_getElem (by simp)
        intro i h1 h2
        simp only [List.getElem_ofFn, List.getElem_map, h, grad_eq]
        rfl
    · exact ⟨w, fun j hj => absurd trivial hj, fun j _ => hw j, rfl⟩
    · exact ⟨w, fun j hj => absurd trivial hj, fun j _ => hw j, rfl⟩

/-- A fibre's own offset has no influence on its turbulence when `excludeself` is set. -/
theorem C54_own_offset_unused {n : ℕ} (data data' : Data n) (p : Param) (hs : p.sigma ≠ 0) (hl : p.ll ≠ 0)
    (i : Fin n) (hpos : data.pos = data'.pos)
    (hd : ∀ j, j ≠ i → data.dx j = data'.dx j ∧ data.dy j = data'.dy j) :
    ∃ xs ys xs' ys' : Fin n → ℝ,
      solveIndependent data true none p = .ok (List.ofFn xs, List.ofFn ys) ∧
      solveIndependent data' true none p = .ok (List.ofFn xs', List.ofFn ys') ∧
      xs i = xs' i ∧ ys i = ys' i := by
  obtain ⟨xs, ys, h, hp⟩ := C54_excludeself data p hs hl
  obtain ⟨xs', ys', h', hp'⟩ := C54_excludeself data' p hs hl
  refine ⟨xs, ys, xs', ys', h, h', ?_, ?_⟩
  · obtain ⟨w, h0, h1, e⟩ := (hp i).1
    have : Predicts (fun i j => Cov p (data'.pos i) (data'.pos j)) p.sigma data'.dx (· ≠ i)
        (fun k => Cov p (data'.pos i) (data'.pos k)) (xs i) := by
      rw [← hpos]
      exact ⟨w, h0, fun j hj => by rw [h1 j hj, (hd j hj).1], e⟩
    exact ((C54_well_posed p hs data'.pos).1 _ _ _).unique this (hp' i).1
  · obtain ⟨w, h0, h1, e⟩ := (hp i).2
    have : Predicts (fun i j => Cov p (data'.pos i) (data'.pos j)) p.sigma data'.dy (· ≠ i)
        (fun k => Cov p (data'.pos i) (data'.pos k)) (ys i) := by
      rw [← hpos]
      exact ⟨w, h0, fun j hj => by rw [h1 j hj, (hd j hj).2], e⟩
    exact ((C54_well_posed p hs data'.pos).1 _ _ _).unique this (hp' i).2

/-- In the gradient model `excludeself` does not leave the fibre out: for every parameter set there
are two fibres with all offsets zero except the y offset of the first, and the x turbulence
found for that same first fibre is not zero (with that offset zero it is zero). -/
theorem C54_gradwavefront_uses_self (p : Param) (hs : p.sigma ≠ 0) (hl : p.ll ≠ 0) (haa : p.aa ≠ 0)
    (ha : p.alpha = none) :
    ∃ (pos : Fin 2 → ℝ × ℝ) (xs ys xs' ys' : Fin 2 → ℝ),
      solveGradwavefront ⟨pos, fun _ => 0, ![1, 0]⟩ true none p = .ok (List.ofFn xs, List.ofFn ys) ∧
      solveGradwavefront ⟨pos, fun _ => 0, ![0, 0]⟩ true none p = .ok (List.ofFn xs', List.ofFn ys') ∧
      xs 0 ≠ 0 ∧ xs' 0 = 0 := by
  set pos : Fin 2 → ℝ × ℝ := ![(0, 0), (p.ll, 2 * p.ll)] with hpos
  obtain ⟨⟨xs, ys, h, hp⟩, -⟩ := C54_gradwavefront ⟨pos, fun _ => 0, ![1, 0]⟩ p hs hl ha []
  obtain ⟨⟨xs', ys', h', hp'⟩, -⟩ := C54_gradwavefront ⟨pos, fun _ => 0, ![0, 0]⟩ p hs hl ha []
  refine ⟨pos, xs, ys, xs', ys', h, h', ?_, ?_⟩
  · set A := p.aa ^ 2 + p.sigma ^ 2 with hA
    set g := p.aa ^ 2 * Real.exp (-5 / 2) with hg
    have hgpos : 0 < g := by positivity
    have hApos : 0 < A := by positivity
    have hE : 13 * Real.exp (-5 / 2) ^ 2 < 1 := by
      rw [← Real.exp_nat_mul]
      have h5 : Real.exp (((2 : ℕ) : ℝ) * (-5 / 2)) = (Real.exp 5)⁻¹ := by rw [← Real.exp_neg]; congr 1; norm_num
      rw [h5]
      have h1 : (2.7182818283 : ℝ) < Real.exp 1 := Real.exp_one_gt_d9
      have h2 : Real.exp 5 = Real.exp 1 ^ 5 := by rw [← Real.exp_nat_mul]; norm_num
      have h3 : (13 : ℝ) < Real.exp 5 := by
        rw [h2]
        have : (2.7 : ℝ) ^ 5 ≤ Real.exp 1 ^ 5 := pow_le_pow_left₀ (by norm_num) (by linarith) 5
        norm_num at this ⊢; linarith
      have h4 : 0 < Real.exp 5 := Real.exp_pos 5
      rw [← div_eq_mul_inv, div_lt_one h4]; exact h3
    have hD : 0 < A ^ 2 - 13 * g ^ 2 := by
      have h1 : 13 * g ^ 2 < (p.aa ^ 2) ^ 2 := by
        rw [hg, mul_pow]
        have : 0 < (p.aa ^ 2) ^ 2 := by positivity
        nlinarith
      have h2 : (p.aa ^ 2) ^ 2 ≤ A ^ 2 := by
        rw [hA]; nlinarith [sq_nonneg p.sigma, sq_nonneg p.aa]
      linarith
    set w0 := A / (A ^ 2 - 13 * g ^ 2) with hw0
    have hw0pos : 0 < w0 := by positivity
    have q1 : (0 - p.ll) / p.ll = -1 := by field_simp; ring
    have q2 : (0 - 2 * p.ll) / p.ll = -2 := by field_simp; ring
    have q3 : (p.ll - 0) / p.ll = 1 := by field_simp; ring
    have q4 : (2 * p.ll - 0) / p.ll = 2 := by field_simp; ring
    have e5 : Real.exp (-((-1) ^ 2 + (-2) ^ 2) / 2) = Real.exp (-5 / 2) := by norm_num
    have e6 : Real.exp (-(1 ^ 2 + 2 ^ 2) / 2) = Real.exp (-5 / 2) := by norm_num
    have c01 : ∀ ya yb, CovGrad p (0, 0) ya (p.ll, 2 * p.ll) yb =
        g * (match ya, yb with | false, false => 0 | true, true => -3 | _, _ => -2) := by
      intro ya yb
      simp only [CovGrad, q1, q2, e5]
      rw [← hg]
      cases ya <;> cases yb <;> norm_num
    have c10 : ∀ ya yb, CovGrad p (p.ll, 2 * p.ll) ya (0, 0) yb =
        g * (match ya, yb with | false, false => 0 | true, true => -3 | _, _ => -2) := by
      intro ya yb
      simp only [CovGrad, q3, q4, e6]
      rw [← hg]
      cases ya <;> cases yb <;> norm_num
    have cs : ∀ q ya yb, CovGrad p q ya q yb = if ya = yb then p.aa ^ 2 else 0 := by
      intro q ya yb
      cases ya <;> cases yb <;> simp [CovGrad]
    have hk : Predicts (KGrad p pos) p.sigma (Sum.elim (fun _ => 0) ![1, 0]) (· ≠ .inl 0)
        (KGrad p pos (.inl 0)) (-(6 * g ^ 2 * w0 / A)) := by
      refine ⟨Sum.elim ![0, 2 * g * w0 / A] ![w0, 3 * g * w0 / A], ?_, ?_, ?_⟩
      · intro j hj; rw [not_not.1 hj]; rfl
      · intro j hj
        rcases j with j | j <;> fin_cases j
        · exact absurd rfl hj
        · simp [KGrad, hpos, c10, cs]
          field_simp
          rw [hA]; ring
        · simp [KGrad, hpos, c01, cs]
          have hwA : w0 * (A ^ 2 - 13 * g ^ 2) = A := div_mul_cancel₀ _ hD.ne'
          field_simp
          linear_combination hwA - A * w0 * hA
        · simp [KGrad, hpos, c10, cs]
          field_simp
          rw [hA]; ring
      · simp [KGrad, hpos, c01, cs]
        field_simp
        ring
    have := ((C54_well_posed p hs pos).2 _ _ _).unique (hp 0).1 hk
    rw [this]
    have : 0 < 6 * g ^ 2 * w0 / A := by positivity
    intro hc; linarith
  · have hk : Predicts (KGrad p pos) p.sigma (Sum.elim (fun _ => 0) ![0, 0]) (· ≠ .inl 0)
        (KGrad p pos (.inl 0)) 0 := by
      refine ⟨fun _ => 0, fun _ _ => rfl, ?_, by simp⟩
      intro j hj
      rcases j with j | j <;> fin_cases j <;> simp
    exact ((C54_well_posed p hs pos).2 _ _ _).unique (hp' 0).1 hk

/-- `predict_at` together with `excludeself` is always rejected, in both models; the gradient
model rejects the rational quadratic covariance. -/
theorem C54_rejected {n : ℕ} (data : Data n) (p : Param) (pts : List (ℝ × ℝ)) (ex : Bool)
    (pa : Option (List (ℝ × ℝ))) (al : ℝ) :
    solveIndependent data true (some pts) p = .error .valueError ∧
    solveGradwavefront data true (some pts) p = .error .valueError ∧
    solveGradwavefront data ex pa { p with alpha := some al } = .error .valueError := by
  refine ⟨by simp [solveIndependent], by simp [solveGradwavefront], ?_⟩
  simp [solveGradwavefront]

/-- Only relative positions matter: shifting all fibres and all requested positions by the same
vector gives the same turbulence. -/
theorem C54_shift {n : ℕ} (data : Data n) (p : Param) (ex : Bool) (pa : Option (List (ℝ × ℝ))) (v : ℝ × ℝ) :
    solveIndependent { data with pos := fun i => data.pos i + v } ex (pa.map (List.map (· + v))) p =
      solveIndependent data ex pa p := by
  have hk : ∀ a b : ℝ × ℝ, kern p (a + v) (b + v) = kern p a b := by
    intro a b; simp [kern]
  have hc : covIndependent p (fun i => data.pos i + v) = covIndependent p data.pos := by
    simp [covIndependent, covNoNoise, hk]
  rcases pa with _ | pts
  · simp [solveIndependent, hc]
  · have hlen : (pts.map (· + v)).length = pts.length := by simp
    have gen : ∀ (m : ℕ) (hm : m = pts.length) (f : Fin m → ℝ × ℝ) (hf : ∀ i, f i = pts.get (i.cast hm) + v)
        (d : Fin n → ℝ),
        (do let x ← gpPredict (covIndependent p data.pos) (covNoNoise p (fun i => data.pos i + v) f) d
            pure (List.ofFn x) : Except PyErr (List ℝ)) =
        (do let x ← gpPredict (covIndependent p data.pos) (covNoNoise p data.pos pts.get) d
            pure (List.ofFn x)) := by
      intro m hm f hf d
      subst hm
      have : covNoNoise p (fun i => data.pos i + v) f = covNoNoise p data.pos pts.get := by
        ext i j; simp [covNoNoise, hf, hk]
      rw [this]
    have g := gen _ hlen (pts.map (· + v)).get (fun i => by simp)
    have split : ∀ (m : ℕ) (P : Matrix (Fin m) (Fin n) ℝ) (C : Matrix (Fin n) (Fin n) ℝ) (d d' : Fin n → ℝ),
        (do let x ← gpPredict C P d
            let y ← gpPredict C P d'
            pure (List.ofFn x, List.ofFn y) : Except PyErr (List ℝ × List ℝ)) =
        (do let x ← (do let x ← gpPredict C P d; pure (List.ofFn x) : Except PyErr (List ℝ))
            let y ← (do let y ← gpPredict C P d'; pure (List.ofFn y) : Except PyErr (List ℝ))
            pure (x, y)) := by
      intro m P C d d'
      simp only [bind_assoc, pure_bind]
    simp only [solveIndependent, Option.map_some, hc, split]
    rw [g, g]
    rfl

/-- `correct`: each corrected position is the measured one minus the prediction from the other
fibres' offsets. -/
theorem C54_correct {n : ℕ} (opt : Data n → Param) (xy xy0 : Fin n → ℝ × ℝ) (p : Param)
    (hp : opt ⟨xy, fun i => (xy i).1 - (xy0 i).1, fun i => (xy i).2 - (xy0 i).2⟩ = p)
    (hs : p.sigma ≠ 0) (hl : p.ll ≠ 0) :
    ∃ tx ty : Fin n → ℝ,
      correct opt xy xy0 = .ok (List.ofFn fun i => (xy i).1 - tx i, List.ofFn fun i => (xy i).2 - ty i) ∧
      ∀ i, Predicts (fun i j => Cov p (xy i) (xy j)) p.sigma (fun j => (xy j).1 - (xy0 j).1) (· ≠ i)
            (fun k => Cov p (xy i) (xy k)) (tx i) ∧
          Predicts (fun i j => Cov p (xy i) (xy j)) p.sigma (fun j => (xy j).2 - (xy0 j).2) (· ≠ i)
            (fun k => Cov p (xy i) (xy k)) (ty i) := by
  obtain ⟨tx, ty, h, hw⟩ := C54_excludeself
    ⟨xy, fun i => (xy i).1 - (xy0 i).1, fun i => (xy i).2 - (xy0 i).2⟩ p hs hl
  refine ⟨tx, ty, ?_, hw⟩
  unfold correct
  dsimp only
  rw [hp, h]
  show Except.ok _ = _
  congr 2 <;>
  · apply List.ext_getElem (by simp)
    intro i h1 h2
    simp

/-- Without correlated offsets nothing is corrected: if all fibres are where expected, `correct`
returns the measured positions. -/
theorem C54_correct_nothing {n : ℕ} (opt : Data n → Param) (xy : Fin n → ℝ × ℝ)
    (hs : ∀ d, (opt d).sigma ≠ 0) (hl : ∀ d, (opt d).ll ≠ 0) :
    correct opt xy xy = .ok (List.ofFn fun i => (xy i).1, List.ofFn fun i => (xy i).2) := by
  obtain ⟨tx, ty, h, hw⟩ := C54_correct opt xy xy _ rfl (hs _) (hl _)
  set p := opt ⟨xy, fun i => (xy i).1 - (xy i).1, fun i => (xy i).2 - (xy i).2⟩ with hpdef
  have hps : p.sigma ≠ 0 := hs _
  have z : ∀ i (v : ℝ) (d : Fin n → ℝ), (∀ j, d j = 0) → Predicts (fun i j => Cov p (xy i) (xy j)) p.sigma d
      (· ≠ i) (fun k => Cov p (xy i) (xy k)) v → v = 0 := by
    intro i v d hd hv
    refine ((C54_well_posed p hps xy).1 _ _ _).unique hv ⟨fun _ => 0, fun _ _ => rfl, fun j _ => ?_, by simp⟩
    simp [hd]
  have hx : tx = fun _ => 0 := funext fun i => z i _ _ (by simp) (hw i).1
  have hy : ty = fun _ => 0 := funext fun i => z i _ _ (by simp) (hw i).2
  rw [h, hx, hy]
  simp

/-! ## Correction by stationary fibres -/

namespace Tur

/-- The fixed model: noise and amplitude 5 micrometres, length 50 mm, all times `scale`. -/
noncomputable def Fixed (scale : ℝ) : Param := ⟨0.005 * scale, 0.005 * scale, 50 * scale, none⟩

/-- `v` is the prediction at `q` from the offsets `f` of the stationary fibres `l`. -/
def TurbAt (scale : ℝ) (l : List Stat) (f : Stat → ℝ) (q : ℝ × ℝ) (v : ℝ) : Prop :=
  Predicts (fun i j : Fin l.length => Cov (Fixed scale) (l.get i).xy (l.get j).xy) (0.005 * scale)
    (fun i => f (l.get i)) (fun _ => True) (fun k => Cov (Fixed scale) q (l.get k).xy) v

/-- Closer than five robust standard deviations to the median of all values. -/
def Near5 (vals : List ℝ) (v : ℝ) : Prop :=
  |v - median vals| < 5 * (1.482602218505602 * median (vals.map fun u => |u - median vals|))

theorem near5_iff (vals : List ℝ) (v : ℝ) : within5 vals v = true ↔ Near5 vals v := by
  unfold within5 Near5
  rw [decide_eq_true_iff, abs_lt]
  unfold madStd
  constructor <;> rintro ⟨h1, h2⟩ <;> constructor <;> linarith

theorem fixed_eq (scale : ℝ) : fixedParam scale = Fixed scale := by
  unfold fixedParam Fixed; norm_num

theorem maskIdx_map {α : Type} (l : List α) (f : α → Bool) : maskIdx l (l.map f) = .ok (l.filter f) := by
  unfold maskIdx
  rw [if_pos (by simp)]
  congr 1
  induction l with
  | nil => rfl
  | cons a l ih =>
    simp only [List.map_cons, List.zip_cons_cons, List.filterMap_cons, List.filter_cons]
    cases h : f a <;> simp [ih]

theorem andInto_map {α : Type} (l : List α) (f g : α → Bool) :
    andInto (l.map f) (l.map g) = .ok (l.map fun a => f a && g a) := by
  unfold andInto
  rw [if_pos (by simp)]
  congr 1
  induction l with
  | nil => rfl
  | cons a l ih => simp [ih]

theorem refine_map {α : Type} (l : List α) (f g : α → Bool) :
    refine (l.map f) ((l.filter f).map g) = l.map fun a => f a && g a := by
  induction l with
  | nil => rfl
  | cons a l ih =>
    cases h : f a <;> simp [h, refine, ih]

theorem resid_list (l : List Stat) (tx ty : ℝ × ℝ → ℝ) :
    (List.zipWith (fun s (t : ℝ × ℝ) => hypot (s.dx - t.1) (s.dy - t.2)) l
      ((l.map fun s => tx s.xy).zip (l.map fun s => ty s.xy))).map (fun v => decide (v < 0.01)) =
    l.map fun s => decide (hypot (s.dx - tx s.xy) (s.dy - ty s.xy) < 0.01) := by
  induction l with
  | nil => rfl
  | cons a l ih => simpa using ih

/-- The smoothing formula, as prediction at the positions of the fibres themselves. -/
theorem smooth_list (l : List Stat) (scale : ℝ) (h : scale ≠ 0) :
    ∃ tx ty : ℝ × ℝ → ℝ, (∀ q, TurbAt scale l Stat.dx q (tx q) ∧ TurbAt scale l Stat.dy q (ty q)) ∧
      solveIndependent (toData l) false none (fixedParam scale) =
        .ok (l.map fun s => tx s.xy, l.map fun s => ty s.xy) := by
  rw [fixed_eq]
  have hs : (Fixed scale).sigma ≠ 0 := by simp only [Fixed]; exact mul_ne_zero (by norm_num) h
  have hl : (Fixed scale).ll ≠ 0 := by simp [Fixed, h]
  obtain ⟨tx, ty, -, hp⟩ := C54_predict_at (toData l) (Fixed scale) hs hl []
  obtain ⟨xs, ys, e, hq⟩ := C54_smooth (toData l) (Fixed scale) hs hl
  refine ⟨tx, ty, hp, ?_⟩
  rw [e]
  congr 2
  · apply List.ext_getElem (by simp)
    intro i h1 h2
    simp only [List.getElem_ofFn, List.getElem_map]
    exact ((C54_well_posed _ hs (toData l).pos).1 _ _ _).unique (hq ⟨i, by simpa using h2⟩).1 (hp _).1
  · apply List.ext_getElem (by simp)
    intro i h1 h2
    simp only [List.getElem_ofFn, List.getElem_map]
    exact ((C54_well_posed _ hs (toData l).pos).1 _ _ _).unique (hq ⟨i, by simpa using h2⟩).2 (hp _).2

theorem predict_list (l : List Stat) (scale : ℝ) (h : scale ≠ 0) (pts : List (ℝ × ℝ)) :
    ∃ tx ty : ℝ × ℝ → ℝ, (∀ q, TurbAt scale l Stat.dx q (tx q) ∧ TurbAt scale l Stat.dy q (ty q)) ∧
      solveIndependent (toData l) false (some pts) (fixedParam scale) = .ok (pts.map tx, pts.map ty) := by
  rw [fixed_eq]
  have hs : (Fixed scale).sigma ≠ 0 := by simp only [Fixed]; exact mul_ne_zero (by norm_num) h
  have hl : (Fixed scale).ll ≠ 0 := by simp [Fixed, h]
  obtain ⟨tx, ty, e, hp⟩ := C54_predict_at (toData l) (Fixed scale) hs hl pts
  exact ⟨tx, ty, hp, e⟩

end Tur

theorem stationary_unclipped (fibres : List (Option Stat)) (pts : List (ℝ × ℝ)) (scale clip : ℝ)
    (hsc : scale ≠ 0) (hc : clip ≤ 0) :
    ∃ tx ty : ℝ × ℝ → ℝ,
      correctUsingStationary fibres pts scale clip = .ok ((pts.map tx, pts.map ty), fibres.map Option.isSome) ∧
      ∀ q, TurbAt scale (fibres.filterMap id) Stat.dx q (tx q) ∧
        TurbAt scale (fibres.filterMap id) Stat.dy q (ty q) := by
  obtain ⟨tx, ty, hp, e⟩ := predict_list (fibres.filterMap id) scale hsc pts
  refine ⟨tx, ty, ?_, hp⟩
  unfold correctUsingStationary
  rw [if_neg (not_lt.2 hc)]
  show (solveIndependent (toData (fibres.filterMap id)) false (some pts) (fixedParam scale) >>= fun _ => _) = _
  rw [e]; rfl

theorem stationary_clipped (l : List Stat) (pts : List (ℝ × ℝ)) (scale clip : ℝ)
    (hsc : scale ≠ 0) (hc : 0 < clip) :
    ∃ (near : Stat → Bool) (sx sy : ℝ × ℝ → ℝ) (keep : Stat → Bool) (tx ty : ℝ × ℝ → ℝ),
      (∀ s ∈ l, near s = true ↔ (Near5 (l.map Stat.dx) s.dx ∧ Near5 (l.map Stat.dy) s.dy) ∨
        ∀ s' ∈ l, ¬ (Near5 (l.map Stat.dx) s'.dx ∧ Near5 (l.map Stat.dy) s'.dy)) ∧
      (∀ q, TurbAt scale (l.filter near) Stat.dx q (sx q) ∧ TurbAt scale (l.filter near) Stat.dy q (sy q)) ∧
      (∀ s, keep s = true ↔ near s = true ∧ hypot (s.dx - sx s.xy) (s.dy - sy s.xy) < 0.01) ∧
      (∀ q, TurbAt scale (l.filter keep) Stat.dx q (tx q) ∧ TurbAt scale (l.filter keep) Stat.dy q (ty q)) ∧
      correctUsingStationary (l.map some) pts scale clip =
        .ok ((pts.map tx, pts.map ty), l.map keep) := by
  set ok5 : Stat → Bool := fun s => within5 (l.map Stat.dx) s.dx && within5 (l.map Stat.dy) s.dy with hok5
  set near : Stat → Bool := fun s => if l.any ok5 then ok5 s else true with hnear
  obtain ⟨sx, sy, hs, es⟩ := smooth_list (l.filter near) scale hsc
  set keep : Stat → Bool := fun s => near s && decide (hypot (s.dx - sx s.xy) (s.dy - sy s.xy) < 0.01) with hkeep
  obtain ⟨tx, ty, ht, et⟩ := predict_list (l.filter keep) scale hsc pts
  have hiff : ∀ s, ok5 s = true ↔ (Near5 (l.map Stat.dx) s.dx ∧ Near5 (l.map Stat.dy) s.dy) := by
    intro s; rw [hok5, Bool.and_eq_true, near5_iff, near5_iff]
  refine ⟨near, sx, sy, keep, tx, ty, ?_, hs, ?_, ht, ?_⟩
  · intro s hsl
    rw [← hiff, hnear]
    by_cases ha : l.any ok5 = true
    · simp only [ha, if_true]
      refine ⟨Or.inl, fun h => h.resolve_right fun hn => ?_⟩
      obtain ⟨s', hs', ho⟩ := List.any_eq_true.1 ha
      exact hn s' hs' ((hiff s').1 ho)
    · simp only [ha]
      refine ⟨fun _ => Or.inr fun s' hs' hn => ha (List.any_eq_true.2 ⟨s', hs', (hiff s').2 hn⟩), fun _ => rfl⟩
  · intro s; rw [hkeep, Bool.and_eq_true, decide_eq_true_iff]
  · have h1 : (l.map some).map Option.isSome = l.map fun _ => true := by rw [List.map_map]; rfl
    have h2 : (l.map some).filterMap id = l := by simp [List.filterMap_map]
    have hcf : clipFirst l (l.map fun _ => true) = .ok (l.filter near, l.map near) := by
      unfold clipFirst
      dsimp only
      rw [show (l.map Stat.dx).map (within5 (l.map Stat.dx)) = l.map (fun s => within5 (l.map Stat.dx) s.dx) by simp,
        show (l.map Stat.dy).map (within5 (l.map Stat.dy)) = l.map (fun s => within5 (l.map Stat.dy) s.dy) by simp,
        andInto_map]
      show (andInto _ _ >>= fun _ => _) = _
      rw [andInto_map]
      show (if (l.map fun a => (true && within5 (l.map Stat.dx) a.dx) && within5 (l.map Stat.dy) a.dy).any id then _ else _) = _
      have e0 : (l.map fun a => (true && within5 (l.map Stat.dx) a.dx) && within5 (l.map Stat.dy) a.dy) = l.map ok5 := by
        simp [hok5]
      rw [e0]
      have e1 : (l.map ok5).any id = l.any ok5 := by rw [List.any_map]; rfl
      rw [e1]
      by_cases ha : l.any ok5 = true
      · rw [if_pos ha, maskIdx_map, andInto_map]
        have e2 : near = ok5 := by funext s; simp only [hnear, ha, if_true]
        rw [e2]; simp; rfl
      · rw [if_neg ha]
        have e2 : near = fun _ => true := by funext s; simp only [hnear, ha]; rfl
        rw [e2]; simp; rfl
    have hcb : clipBoth l (l.map fun _ => true) scale = .ok (l.filter keep, l.map keep) := by
      unfold clipBoth
      rw [hcf]
      show (solveIndependent (toData (l.filter near)) false none (fixedParam scale) >>= fun _ => _) = _
      rw [es]
      show (maskIdx (l.filter near) _ >>= fun _ => _) = _
      rw [resid_list, maskIdx_map]
      show Except.ok (_, refine (l.map near) _) = _
      rw [refine_map, List.filter_filter]
      congr 2
      apply List.filter_congr
      intro s _
      simp only [hkeep, Bool.and_comm]
    unfold correctUsingStationary
    rw [if_pos hc]
    dsimp only
    rw [h1, h2, hcb]
    show (solveIndependent (toData (l.filter keep)) false (some pts) (fixedParam scale) >>= fun _ => _) = _
    rw [et]; rfl

/-- Offset of a stationary fibre in x: measured minus expected. -/
noncomputable def offX (s : Stat) : ℝ := s.xy.1 - s.xy0.1

/-- Offset in y. -/
noncomputable def offY (s : Stat) : ℝ := s.xy.2 - s.xy0.2

/-- `clip_resid <= 0`: the turbulence at each requested position is predicted from exactly the
stationary fibres without NaN or infinite entries, and the mask marks these. -/
theorem C54_stationary_unclipped (fibres : List (Option Stat)) (pts : List (ℝ × ℝ)) (scale clip : ℝ)
    (hsc : scale ≠ 0) (hc : clip ≤ 0) :
    ∃ tx ty : ℝ × ℝ → ℝ,
      correctUsingStationary fibres pts scale clip = .ok ((pts.map tx, pts.map ty), fibres.map Option.isSome) ∧
      ∀ q, TurbAt scale (fibres.filterMap id) offX q (tx q) ∧ TurbAt scale (fibres.filterMap id) offY q (ty q) :=
  stationary_unclipped fibres pts scale clip hsc hc

/-- `clip_resid > 0`, all entries finite: first fibres farther than five robust standard deviations
from the median offset in x or y are dropped (none if that would drop all), then those farther
than 0.01 from the turbulence predicted at their place by the remaining ones; the result at each
requested position is predicted from the fibres that are left, which the mask marks. -/
theorem C54_stationary_clipped (l : List Stat) (pts : List (ℝ × ℝ)) (scale clip : ℝ)
    (hsc : scale ≠ 0) (hc : 0 < clip) :
    ∃ (near : Stat → Bool) (sx sy : ℝ × ℝ → ℝ) (keep : Stat → Bool) (tx ty : ℝ × ℝ → ℝ),
      (∀ s ∈ l, near s = true ↔ (Near5 (l.map offX) (offX s) ∧ Near5 (l.map offY) (offY s)) ∨
        ∀ s' ∈ l, ¬ (Near5 (l.map offX) (offX s') ∧ Near5 (l.map offY) (offY s'))) ∧
      (∀ q, TurbAt scale (l.filter near) offX q (sx q) ∧ TurbAt scale (l.filter near) offY q (sy q)) ∧
      (∀ s, keep s = true ↔ near s = true ∧ hypot (offX s - sx s.xy) (offY s - sy s.xy) < 0.01) ∧
      (∀ q, TurbAt scale (l.filter keep) offX q (tx q) ∧ TurbAt scale (l.filter keep) offY q (ty q)) ∧
      correctUsingStationary (l.map some) pts scale clip =
        .ok ((pts.map tx, pts.map ty), l.map keep) :=
  stationary_clipped l pts scale clip hsc hc

/-- With clipping on, a NaN or infinite entry in the stationary fibres makes the call fail (unless
exactly one fibre is finite): the mask of all fibres is combined with conditions on the finite
fibres only. -/
theorem C54_stationary_nonfinite (fibres : List (Option Stat)) (pts : List (ℝ × ℝ)) (scale clip : ℝ)
    (hc : 0 < clip) (hn : none ∈ fibres) (h1 : (fibres.filterMap id).length ≠ 1) :
    correctUsingStationary fibres pts scale clip = .error .valueError := by
  have hlen : (fibres.filterMap id).length < fibres.length := by
    clear h1
    induction fibres with
    | nil => simp at hn
    | cons a t ih =>
      have hle : (t.filterMap id).length ≤ t.length := List.length_filterMap_le _ _
      rcases a with _ | a
      · rw [List.filterMap_cons_none rfl, List.length_cons]; omega
      · have := ih (by simpa using hn)
        have e : (some a :: t).filterMap id = a :: t.filterMap id := rfl
        rw [e, List.length_cons, List.length_cons]; omega
  unfold correctUsingStationary
  rw [if_pos hc]
  dsimp only
  have hcb : clipBoth (fibres.filterMap id) (fibres.map Option.isSome) scale = .error .valueError := by
    unfold clipBoth clipFirst
    dsimp only
    have : andInto (fibres.map Option.isSome)
        (((fibres.filterMap id).map Stat.dx).map (within5 ((fibres.filterMap id).map Stat.dx))) =
        .error .valueError := by
      unfold andInto
      rw [if_neg (by simp only [List.length_map]; omega)]
      split
      · rename_i v hv
        have := congrArg List.length hv
        simp only [List.length_map, List.length_singleton] at this
        exact absurd this h1
      · rfl
    rw [this]; rfl
  rw [hcb]; rfl

/-- The value of `clip_resid` has no influence beyond its sign: the residual limit is always 0.01. -/
theorem C54_stationary_clip_value (fibres : List (Option Stat)) (pts : List (ℝ × ℝ)) (scale c c' : ℝ)
    (h : 0 < c ↔ 0 < c') :
    correctUsingStationary fibres pts scale c = correctUsingStationary fibres pts scale c' := by
  unfold correctUsingStationary
  by_cases hc : c > 0
  · rw [if_pos hc, if_pos (h.1 hc)]
  · rw [if_neg hc, if_neg (fun h' => hc (h.2 h'))]

/-! Instances of the hypotheses. -/

/-- The fixed parameters of the code. -/
example : (fixedParam 1).sigma ≠ 0 ∧ (fixedParam 1).ll ≠ 0 ∧ (fixedParam 1).aa ≠ 0 ∧ (fixedParam 1).alpha = none := by
  norm_num [fixedParam]

/-- Two data sets that differ only in the offset of the second fibre. -/
example : let d : Data 3 := ⟨![(0, 0), (10, 0), (0, 20)], ![0.01, 0, 0.02], ![0, 0, 0.01]⟩
    let d' : Data 3 := ⟨![(0, 0), (10, 0), (0, 20)], ![0.01, 5, 0.02], ![0, 7, 0.01]⟩
    d.pos = d'.pos ∧ (∀ j, j ≠ 1 → d.dx j = d'.dx j ∧ d.dy j = d'.dy j) ∧ d.dx 1 ≠ d'.dx 1 := by
  refine ⟨rfl, ?_, by norm_num⟩
  intro j hj
  fin_cases j <;> simp_all

/-- Two finite stationary fibres and one without data: the call with default clipping fails. -/
example (a b : Stat) (pts : List (ℝ × ℝ)) :
    correctUsingStationary [some a, none, some b] pts 1 0.01 = .error .valueError :=
  C54_stationary_nonfinite _ _ _ _ (by norm_num) (by simp) (by simp)

/-- Fibres that do not move at all: nothing is predicted. -/
example {n : ℕ} (xy : Fin n → ℝ × ℝ) :
    correct (fun _ => fixedParam 1) xy xy = .ok (List.ofFn fun i => (xy i).1, List.ofFn fun i => (xy i).2) :=
  C54_correct_nothing _ xy (fun _ => by norm_num [fixedParam]) fun _ => by norm_num [fixedParam]

end Verif.Props
