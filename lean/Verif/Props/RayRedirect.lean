import Verif.Model.RayTrace
import Mathlib.Analysis.Calculus.Deriv.Pow
import Mathlib.Analysis.Calculus.Deriv.Add
import Mathlib.Analysis.Calculus.Deriv.Mul
import Mathlib.Analysis.Calculus.Deriv.Inv
import Mathlib.Analysis.SpecialFunctions.Sqrt
import Mathlib.Tactic.LinearCombination
import Mathlib.Tactic.Linarith
import Mathlib.Tactic.FieldSimp
import Mathlib.Tactic.NormNum
import Mathlib.Tactic.Positivity

/-!
# C90: normals of the surfaces, mirrors and lenses of the ray tracer
-/

namespace Verif.Props.RayRedirect

open Verif.Py Verif.RayTrace

/-! ## Specification -/

/-- Square of the length. -/
def nsq (a : V3) : ℝ := a.x ^ 2 + a.y ^ 2 + a.z ^ 2

/-- The sag of a surface: the conic term and the polynomial `∑ A_i r^i`. -/
noncomputable def sag (c a : ℝ) (l : List ℝ) (x y : ℝ) : ℝ :=
  c * (x ^ 2 + y ^ 2) / (1 + Real.sqrt (1 - (1 + a) * c ^ 2 * (x ^ 2 + y ^ 2))) +
    ∑ i ∈ Finset.range l.length, l.getD i 0 * Real.sqrt (x ^ 2 + y ^ 2) ^ (i + 1)

/-- The coefficients used: none if the surface has no polynomial. -/
def coeffs (S : Surf) : List ℝ := if S.hasPoly then S.poly else []

/-- Snell's law in vector form, for a unit vector `n` normal to the surface: `k'` is a unit
vector on the same side of the surface as `k`, in the plane of `k` and `n`, and
`n₁ sin θ₁ = n₂ sin θ₂`. -/
def Snell (n1 n2 : ℝ) (n k k' : V3) : Prop :=
  nsq k' = 1 ∧ smul n1 (cross k n) = smul n2 (cross k' n) ∧ 0 < dot n k * dot n k'

/-! ## Vector identities -/

theorem triple (n k : V3) (hn : nsq n = 1) :
    cross n (cross k n) = add k (smul (-(dot n k)) n) := by
  unfold nsq at hn
  unfold cross add smul dot
  ext <;> dsimp only
  · linear_combination k.x * hn
  · linear_combination k.y * hn
  · linear_combination k.z * hn

theorem lagrange (n k : V3) : nsq (cross k n) = nsq k * nsq n - dot n k ^ 2 := by
  unfold nsq cross dot; ring

theorem dot_self (a : V3) : dot a a = nsq a := by unfold dot nsq; ring

theorem cross_tri (n k : V3) (hn : nsq n = 1) : cross (cross n (cross k n)) n = cross k n := by
  rw [triple n k hn]
  unfold cross add smul dot
  ext <;> dsimp only <;> ring

theorem decomp (n k : V3) (hn : nsq n = 1) :
    k = add (cross n (cross k n)) (smul (dot n k) n) := by
  rw [triple n k hn]
  unfold add smul
  ext <;> dsimp only <;> ring

theorem nsq_smul (t : ℝ) (a : V3) : nsq (smul t a) = t ^ 2 * nsq a := by
  unfold nsq smul; ring

theorem nsq_tri (n k : V3) (hn : nsq n = 1) : nsq (cross n (cross k n)) = nsq k - dot n k ^ 2 := by
  rw [triple n k hn]
  unfold nsq at hn ⊢
  unfold add smul dot
  dsimp only
  linear_combination (n.x * k.x + n.y * k.y + n.z * k.z) ^ 2 * hn

/-! ## Normals -/

/-- **C90** (unit normal). The normal has length 1 and points to positive z. -/
theorem C90_normal_unit (S : Surf) (p : V3) : nsq (getNormal S p) = 1 ∧ 0 < (getNormal S p).z := by
  unfold getNormal RayTrace.normalize
  dsimp only
  generalize (gradTotal S p.x p.y).1 = gx
  generalize (gradTotal S p.x p.y).2 = gy
  have hpos : 0 < (-gx) ^ 2 + (-gy) ^ 2 + (1 : ℝ) ^ 2 := by positivity
  have hs := Real.sqrt_pos.2 hpos
  have hsq := Real.sq_sqrt hpos.le
  rw [if_neg hs.ne']
  constructor
  · unfold nsq
    dsimp only
    rw [div_pow, div_pow, div_pow, hsq, ← add_div, ← add_div, div_self hpos.ne']
  · dsimp only
    positivity

theorem gradLoop_eq (r : ℝ) (l : List ℝ) : ∀ (k : ℕ) (acc : ℝ),
    gradLoop r l ((k : ℝ) + 1) (r ^ k) acc =
      acc + ∑ i ∈ Finset.range l.length, l.getD i 0 * (((k + i : ℕ) : ℝ) + 1) * r ^ (k + i) := by
  induction l with
  | nil => intro k acc; simp [gradLoop]
  | cons a l ih =>
    intro k acc
    have := ih (k + 1) (acc + ((k : ℝ) + 1) * a * r ^ k)
    rw [gradLoop, show (k : ℝ) + 1 + 1 = ((k + 1 : ℕ) : ℝ) + 1 by push_cast; ring,
      show r ^ k * r = r ^ (k + 1) by rw [pow_succ], this, List.length_cons,
      Finset.sum_range_succ']
    have he : ∀ i, l.getD i 0 * (((k + 1 + i : ℕ) : ℝ) + 1) * r ^ (k + 1 + i)
        = (a :: l).getD (i + 1) 0 * (((k + (i + 1) : ℕ) : ℝ) + 1) * r ^ (k + (i + 1)) := by
      intro i
      rw [List.getD_cons_succ, show k + 1 + i = k + (i + 1) by omega]
    rw [Finset.sum_congr rfl (fun i _ => he i), List.getD_cons_zero, add_zero]
    ring

theorem polyLoop_eq (r : ℝ) (l : List ℝ) : ∀ (k : ℕ) (acc : ℝ),
    polyLoop r l (r ^ k) acc =
      acc + ∑ i ∈ Finset.range l.length, l.getD i 0 * r ^ (k + i + 1) := by
  induction l with
  | nil => intro k acc; simp [polyLoop]
  | cons a l ih =>
    intro k acc
    rw [polyLoop, show r ^ k * r = r ^ (k + 1) by rw [pow_succ], ih (k + 1), List.length_cons,
      Finset.sum_range_succ']
    have he : ∀ i, l.getD i 0 * r ^ (k + 1 + i + 1)
        = (a :: l).getD (i + 1) 0 * r ^ (k + (i + 1) + 1) := by
      intro i
      rw [List.getD_cons_succ, show k + 1 + i + 1 = k + (i + 1) + 1 by omega]
    rw [Finset.sum_congr rfl (fun i _ => he i), List.getD_cons_zero, add_zero]
    ring

/-- **C90** (sag). The height computed by the code is the sag. -/
theorem C90_sag (S : Surf) (x y : ℝ) (z : ℝ) :
    zConic S x y = some z ↔
      0 ≤ 1 - (1 + S.asph) * S.curve ^ 2 * (x ^ 2 + y ^ 2) ∧ z + zPoly S x y =
        sag S.curve S.asph S.poly x y := by
  have h1 : 1 - (S.asph + 1) * S.curve * S.curve * (x * x + y * y)
      = 1 - (1 + S.asph) * S.curve ^ 2 * (x ^ 2 + y ^ 2) := by ring
  have h2 : x * x + y * y = x ^ 2 + y ^ 2 := by ring
  have hp : zPoly S x y = ∑ i ∈ Finset.range S.poly.length, S.poly.getD i 0 *
      Real.sqrt (x ^ 2 + y ^ 2) ^ (i + 1) := by
    unfold zPoly
    have := polyLoop_eq (Real.sqrt (x * x + y * y)) S.poly 0 0
    rw [pow_zero] at this
    rw [this, h2, zero_add]
    apply Finset.sum_congr rfl
    intro i _
    rw [zero_add]
  unfold zConic sag
  dsimp only
  rw [hp, h1, h2]
  split_ifs with h
  · simp only [false_iff, not_and]
    intro h'; exact absurd h (not_lt.2 h')
  · push Not at h
    simp only [Option.some.injEq, h, true_and, add_left_inj]
    exact eq_comm

/-- Derivative of the conic term along a line. -/
theorem conic_deriv (c a x y α β : ℝ) (h : 0 < 1 - (1 + a) * c ^ 2 * (x ^ 2 + y ^ 2)) :
    HasDerivAt (fun t : ℝ => c * ((x + t * α) ^ 2 + (y + t * β) ^ 2) /
      (1 + Real.sqrt (1 - (1 + a) * c ^ 2 * ((x + t * α) ^ 2 + (y + t * β) ^ 2))))
      ((x * α + y * β) * c / Real.sqrt (1 - (1 + a) * c ^ 2 * (x ^ 2 + y ^ 2))) 0 := by
  have hx : HasDerivAt (fun t : ℝ => x + t * α) α 0 := by
    simpa using ((hasDerivAt_id (0:ℝ)).mul_const α).const_add x
  have hy : HasDerivAt (fun t : ℝ => y + t * β) β 0 := by
    simpa using ((hasDerivAt_id (0:ℝ)).mul_const β).const_add y
  have hR : HasDerivAt (fun t : ℝ => (x + t * α) ^ 2 + (y + t * β) ^ 2)
      (2 * x * α + 2 * y * β) 0 := by
    have := (hx.pow 2).add (hy.pow 2)
    refine this.congr_deriv ?_
    simp
  have hq : HasDerivAt (fun t : ℝ => 1 - (1 + a) * c ^ 2 * ((x + t * α) ^ 2 + (y + t * β) ^ 2))
      (-((1 + a) * c ^ 2 * (2 * x * α + 2 * y * β))) 0 := (hR.const_mul _).const_sub 1
  have h0 : (1 - (1 + a) * c ^ 2 * ((x + 0 * α) ^ 2 + (y + 0 * β) ^ 2))
      = 1 - (1 + a) * c ^ 2 * (x ^ 2 + y ^ 2) := by ring
  have hs := hq.sqrt (by rw [h0]; exact h.ne')
  have hd := (hR.const_mul c).div (hs.const_add 1) (by positivity)
  refine hd.congr_deriv ?_
  rw [h0]
  have hsp := Real.sqrt_pos.2 h
  have hsq := Real.sq_sqrt h.le
  set q := Real.sqrt (1 - (1 + a) * c ^ 2 * (x ^ 2 + y ^ 2))
  have h1q : (1 + q) ≠ 0 := by positivity
  have hq0 : q ≠ 0 := hsp.ne'
  simp only [zero_mul, add_zero]
  rw [div_eq_div_iff (by positivity) hq0]
  field_simp
  linear_combination (c * (x * α + y * β)) * hsq

/-- Derivative of the radius along a line away from the axis. -/
theorem radius_deriv (x y α β : ℝ) (h : 0 < x ^ 2 + y ^ 2) :
    HasDerivAt (fun t : ℝ => Real.sqrt ((x + t * α) ^ 2 + (y + t * β) ^ 2))
      ((x * α + y * β) / Real.sqrt (x ^ 2 + y ^ 2)) 0 := by
  have hx : HasDerivAt (fun t : ℝ => x + t * α) α 0 := by
    simpa using ((hasDerivAt_id (0:ℝ)).mul_const α).const_add x
  have hy : HasDerivAt (fun t : ℝ => y + t * β) β 0 := by
    simpa using ((hasDerivAt_id (0:ℝ)).mul_const β).const_add y
  have hR : HasDerivAt (fun t : ℝ => (x + t * α) ^ 2 + (y + t * β) ^ 2)
      (2 * x * α + 2 * y * β) 0 := by
    have := (hx.pow 2).add (hy.pow 2)
    refine this.congr_deriv ?_
    simp
  have h0 : (x + 0 * α) ^ 2 + (y + 0 * β) ^ 2 = x ^ 2 + y ^ 2 := by ring
  have hs := hR.sqrt (by rw [h0]; exact h.ne')
  refine hs.congr_deriv ?_
  rw [h0]
  have := (Real.sqrt_pos.2 h).ne'
  field_simp

/-- Derivative of the polynomial in the radius. -/
theorem poly_deriv (l : List ℝ) (r : ℝ) :
    HasDerivAt (fun r : ℝ => ∑ i ∈ Finset.range l.length, l.getD i 0 * r ^ (i + 1))
      (∑ i ∈ Finset.range l.length, l.getD i 0 * ((i : ℝ) + 1) * r ^ i) r := by
  have : ∀ i ∈ Finset.range l.length, HasDerivAt (fun r : ℝ => l.getD i 0 * r ^ (i + 1))
      (l.getD i 0 * ((i : ℝ) + 1) * r ^ i) r := by
    intro i _
    refine ((hasDerivAt_pow (i + 1) r).const_mul (l.getD i 0)).congr_deriv ?_
    push_cast
    ring
  have h := HasDerivAt.fun_sum this
  exact h

theorem gradPoly_eq (S : Surf) (x y α β : ℝ) (h : 0 < x ^ 2 + y ^ 2) :
    (gradPoly S x y).1 * α + (gradPoly S x y).2 * β =
      (∑ i ∈ Finset.range S.poly.length, S.poly.getD i 0 * ((i : ℝ) + 1) *
        Real.sqrt (x ^ 2 + y ^ 2) ^ i) * ((x * α + y * β) / Real.sqrt (x ^ 2 + y ^ 2)) := by
  have h2 : x * x + y * y = x ^ 2 + y ^ 2 := by ring
  have hs := Real.sqrt_pos.2 h
  unfold gradPoly
  dsimp only
  rw [h2, if_neg hs.ne']
  have := gradLoop_eq (Real.sqrt (x ^ 2 + y ^ 2)) S.poly 0 0
  rw [pow_zero, Nat.cast_zero, zero_add, zero_add] at this
  rw [this]
  simp only [zero_add]
  field_simp

/-- The gradient of the code is the gradient of the sag in every direction. -/
theorem grad_deriv (S : Surf) (x y α β : ℝ)
    (h : 0 < 1 - (1 + S.asph) * S.curve ^ 2 * (x ^ 2 + y ^ 2))
    (hr : S.hasPoly = true → S.poly.getD 0 0 = 0 ∨ 0 < x ^ 2 + y ^ 2) :
    HasDerivAt (fun t : ℝ => sag S.curve S.asph (coeffs S) (x + t * α) (y + t * β))
      ((gradTotal S x y).1 * α + (gradTotal S x y).2 * β) 0 := by
  have hc := conic_deriv S.curve S.asph x y α β h
  have hgc : (gradConic S x y).1 * α + (gradConic S x y).2 * β =
      (x * α + y * β) * S.curve / Real.sqrt (1 - (1 + S.asph) * S.curve ^ 2 * (x ^ 2 + y ^ 2)) := by
    unfold gradConic
    dsimp only
    split_ifs with h1 h2
    · rw [h1]; simp
    · exfalso
      have : 1 - (S.asph + 1) * S.curve ^ 2 * (x * x + y * y)
        = 1 - (1 + S.asph) * S.curve ^ 2 * (x ^ 2 + y ^ 2) := by ring
      rw [this] at h2
      exact absurd h (not_lt.2 h2)
    · rw [show 1 - (S.asph + 1) * S.curve ^ 2 * (x * x + y * y)
        = 1 - (1 + S.asph) * S.curve ^ 2 * (x ^ 2 + y ^ 2) by ring]
      ring
  unfold gradTotal coeffs sag
  dsimp only
  cases hp : S.hasPoly with
  | false =>
    simp only [Bool.false_eq_true, if_false, List.length_nil, Finset.range_zero,
      Finset.sum_empty, add_zero]
    rw [hgc]
    exact hc
  | true =>
    simp only [if_true]
    have key : HasDerivAt (fun t : ℝ => ∑ i ∈ Finset.range S.poly.length, S.poly.getD i 0 *
        Real.sqrt ((x + t * α) ^ 2 + (y + t * β) ^ 2) ^ (i + 1))
        ((gradPoly S x y).1 * α + (gradPoly S x y).2 * β) 0 := by
      by_cases hxy : 0 < x ^ 2 + y ^ 2
      · rw [gradPoly_eq S x y α β hxy]
        have hrad := radius_deriv x y α β hxy
        have hpol := poly_deriv S.poly (Real.sqrt ((x + 0 * α) ^ 2 + (y + 0 * β) ^ 2))
        have := hpol.comp (0 : ℝ) hrad
        refine this.congr_deriv ?_
        simp only [zero_mul, add_zero]
      · have hx : x = 0 := by nlinarith [sq_nonneg x, sq_nonneg y]
        have hy : y = 0 := by nlinarith [sq_nonneg x, sq_nonneg y]
        have ha := (hr hp).resolve_right hxy
        subst hx hy
        have hg : (gradPoly S 0 0).1 * α + (gradPoly S 0 0).2 * β = 0 := by
          unfold gradPoly; simp
        rw [hg]
        have hpol := poly_deriv S.poly 0
        have h0 : (∑ i ∈ Finset.range S.poly.length, S.poly.getD i 0 * ((i : ℝ) + 1) * (0:ℝ) ^ i)
            = 0 := by
          apply Finset.sum_eq_zero
          intro i _
          cases i with
          | zero => rw [ha]; ring
          | succ i => simp
        rw [h0, hasDerivAt_iff_isLittleO] at hpol
        rw [hasDerivAt_iff_isLittleO]
        have hrt : ∀ t : ℝ, Real.sqrt ((0 + t * α) ^ 2 + (0 + t * β) ^ 2)
            = |t| * Real.sqrt (α ^ 2 + β ^ 2) := by
          intro t
          rw [show (0 + t * α) ^ 2 + (0 + t * β) ^ 2 = t ^ 2 * (α ^ 2 + β ^ 2) by ring,
            Real.sqrt_mul (sq_nonneg t), Real.sqrt_sq_eq_abs]
        simp only [hrt]
        have htend : Filter.Tendsto (fun t : ℝ => |t| * Real.sqrt (α ^ 2 + β ^ 2)) (nhds 0)
            (nhds 0) := by
          have : Continuous (fun t : ℝ => |t| * Real.sqrt (α ^ 2 + β ^ 2)) :=
            continuous_abs.mul continuous_const
          simpa using this.tendsto 0
        have hcomp := hpol.comp_tendsto htend
        have hbig : (fun t : ℝ => |t| * Real.sqrt (α ^ 2 + β ^ 2) - 0) =O[nhds 0]
            (fun t : ℝ => t - 0) := by
          apply Asymptotics.IsBigO.of_bound (Real.sqrt (α ^ 2 + β ^ 2))
          filter_upwards with t
          rw [sub_zero, sub_zero, Real.norm_eq_abs, Real.norm_eq_abs, abs_mul, abs_abs,
            abs_of_nonneg (Real.sqrt_nonneg _), mul_comm]
        have := hcomp.trans_isBigO hbig
        refine this.congr_left ?_
        intro t
        simp
    have := hc.add key
    refine this.congr_deriv ?_
    rw [← hgc]
    ring

/-- **C90** (normal). Inside the edge of the conic the normal is perpendicular to the surface:
to every tangent `(α, β, m)`, where `m` is the derivative of the sag in the direction
`(α, β)`.  (On the axis the coefficient `A1` must be zero: a cone has no normal there.) -/
theorem C90_normal (S : Surf) (p : V3) (α β : ℝ)
    (h : 0 < 1 - (1 + S.asph) * S.curve ^ 2 * (p.x ^ 2 + p.y ^ 2))
    (hr : S.hasPoly = true → S.poly.getD 0 0 = 0 ∨ 0 < p.x ^ 2 + p.y ^ 2) :
    ∃ m, HasDerivAt (fun t : ℝ => sag S.curve S.asph (coeffs S) (p.x + t * α) (p.y + t * β)) m 0 ∧
      dot (getNormal S p) ⟨α, β, m⟩ = 0 := by
  refine ⟨_, grad_deriv S p.x p.y α β h hr, ?_⟩
  unfold getNormal RayTrace.normalize dot
  dsimp only
  generalize (gradTotal S p.x p.y).1 = gx
  generalize (gradTotal S p.x p.y).2 = gy
  have hpos : 0 < (-gx) ^ 2 + (-gy) ^ 2 + (1 : ℝ) ^ 2 := by positivity
  have hs := Real.sqrt_pos.2 hpos
  rw [if_neg hs.ne']
  dsimp only
  field_simp
  ring

/-- Hypotheses met: a sphere of radius 2 with a term `A4`, on the axis and off it. -/
example : (0 : ℝ) < 1 - (1 + 0) * (1 / 2) ^ 2 * (1 ^ 2 + 0 ^ 2) ∧
    (0 : ℝ) < 1 - (1 + 0) * (1 / 2) ^ 2 * (0 ^ 2 + 0 ^ 2) ∧
    ([0, 0, 0, 5] : List ℝ).getD 0 0 = 0 := by norm_num

/-- **C90** (finding). On the edge of the conic and beyond, the normal is that of a plane
across the axis (unless a polynomial is present), whatever the curvature. -/
theorem C90_flange (S : Surf) (p : V3) (hp : S.hasPoly = false)
    (h : 1 - (1 + S.asph) * S.curve ^ 2 * (p.x ^ 2 + p.y ^ 2) ≤ 0) :
    getNormal S p = ⟨0, 0, 1⟩ := by
  have hc : gradConic S p.x p.y = (0, 0) := by
    unfold gradConic
    dsimp only
    split_ifs with h1 h2
    · rfl
    · rfl
    · exfalso
      apply h2
      rw [show 1 - (S.asph + 1) * S.curve ^ 2 * (p.x * p.x + p.y * p.y)
        = 1 - (1 + S.asph) * S.curve ^ 2 * (p.x ^ 2 + p.y ^ 2) by ring]
      exact h
  have hg : gradTotal S p.x p.y = (0, 0) := by
    unfold gradTotal
    rw [hp, hc]
    rfl
  unfold getNormal RayTrace.normalize
  rw [hg]
  norm_num

/-! ## Mirrors -/

/-- **C90** (mirror). Reflection at a unit normal keeps the length and the component along the
surface and reverses the component along the normal, and it is the only such direction. -/
theorem C90_mirror (n k k' : V3) (hn : nsq n = 1) :
    reflect n k = k' ↔ cross k' n = cross k n ∧ dot n k' = -dot n k := by
  constructor
  · rintro rfl
    unfold nsq at hn
    unfold reflect cross dot
    dsimp only
    constructor
    · ext <;> dsimp only <;> ring
    · linear_combination (-2 * (k.x * n.x + k.y * n.y + k.z * n.z)) * hn
  · rintro ⟨h1, h2⟩
    rw [decomp n k' hn, h1, h2, triple n k hn]
    unfold reflect add smul dot
    ext <;> dsimp only <;> ring

/-- Reflection keeps the length. -/
theorem C90_mirror_length (n k : V3) (hn : nsq n = 1) : nsq (reflect n k) = nsq k := by
  unfold nsq at hn ⊢
  unfold reflect
  dsimp only
  linear_combination (4 * (k.x * n.x + k.y * n.y + k.z * n.z) ^ 2) * hn

/-- **C90** (mirror twice). Reflecting the reflected ray at the same point gives the first
direction back. -/
theorem C90_mirror_twice (n k : V3) (hn : nsq n = 1) : reflect n (reflect n k) = k := by
  rw [C90_mirror n _ k hn]
  obtain ⟨h1, h2⟩ := (C90_mirror n k _ hn).1 rfl
  exact ⟨h1.symm, by rw [h2]; ring⟩

example : nsq ⟨0, 0.6, 0.8⟩ = 1 := by unfold nsq; norm_num

/-! ## Lenses -/

theorem dot_smul (n : V3) (t : ℝ) (hn : nsq n = 1) : dot n (smul t n) = t := by
  unfold nsq at hn; unfold dot smul; dsimp only; linear_combination t * hn

theorem dot_tri (n k : V3) : dot n (cross n (cross k n)) = 0 := by
  unfold dot cross; ring

theorem sign_mul_pos (a q : ℝ) (ha : a ≠ 0) (hq : 0 < q) : 0 < a * (sign a * q) := by
  unfold sign
  rcases lt_trichotomy a 0 with h | h | h
  · simp only [h, if_true]; nlinarith
  · exact absurd h ha
  · simp only [not_lt.2 h.le, h, if_true, if_false]; nlinarith

theorem sign_sq (a : ℝ) (ha : a ≠ 0) : sign a ^ 2 = 1 := by
  unfold sign
  rcases lt_trichotomy a 0 with h | h | h
  · simp [h]
  · exact absurd h ha
  · simp [h, not_lt.2 h.le]

/-- **C90** (lens). For unit vectors, a ray not along the surface leaves a lens surface in the
direction `k'` exactly when `k'` obeys Snell's law. -/
theorem C90_snell (n1 n2 : ℝ) (n k k' : V3) (hn : nsq n = 1) (h2 : n2 ≠ 0)
    (hk : dot n k ≠ 0) :
    refract (n1 / n2) n k = some k' ↔ Snell n1 n2 n k k' := by
  have hcomp : ∀ q : ℝ, dot n (add (smul (n1 / n2) (cross n (cross k n))) (smul q n)) = q := by
    intro q
    have e1 := dot_tri n k
    have e2 := dot_smul n q hn
    unfold dot add smul at *
    dsimp only at *
    linear_combination (n1 / n2) * e1 + e2
  have hcr : ∀ q : ℝ, cross (add (smul (n1 / n2) (cross n (cross k n))) (smul q n)) n =
      smul (n1 / n2) (cross k n) := by
    intro q
    have e := cross_tri n k hn
    have ex := congrArg V3.x e
    have ey := congrArg V3.y e
    have ez := congrArg V3.z e
    unfold cross add smul at *
    dsimp only at *
    ext <;> dsimp only
    · linear_combination (n1 / n2) * ex
    · linear_combination (n1 / n2) * ey
    · linear_combination (n1 / n2) * ez
  have hlen : ∀ q : ℝ, nsq (add (smul (n1 / n2) (cross n (cross k n))) (smul q n)) =
      dot (smul (n1 / n2) (cross n (cross k n))) (smul (n1 / n2) (cross n (cross k n)))
        + q ^ 2 := by
    intro q
    have e1 := dot_tri n k
    rw [← mul_one (q ^ 2), ← hn]
    unfold nsq dot add smul at *
    dsimp only at *
    linear_combination (2 * q * (n1 / n2)) * e1
  unfold refract Snell
  dsimp only
  constructor
  · intro h
    split_ifs at h with hq
    push Not at hq
    have hk' := Option.some.inj h
    subst hk'
    refine ⟨?_, ?_, ?_⟩
    · rw [hlen, mul_pow, sign_sq _ hk, Real.sq_sqrt hq.le]; ring
    · rw [hcr]
      unfold smul
      ext <;> dsimp only <;> field_simp
    · rw [hcomp]
      exact sign_mul_pos _ _ hk (Real.sqrt_pos.2 hq)
  · rintro ⟨hu, hs, hside⟩
    have hcr' : smul (n1 / n2) (cross k n) = cross k' n := by
      have ex := congrArg V3.x hs
      have ey := congrArg V3.y hs
      have ez := congrArg V3.z hs
      unfold smul at *
      dsimp only at *
      ext <;> dsimp only
      · field_simp; linear_combination ex
      · field_simp; linear_combination ey
      · field_simp; linear_combination ez
    have hpar : smul (n1 / n2) (cross n (cross k n)) = cross n (cross k' n) := by
      rw [← hcr']
      unfold smul cross
      ext <;> dsimp only <;> ring
    have hsq : 1 - dot (smul (n1 / n2) (cross n (cross k n)))
        (smul (n1 / n2) (cross n (cross k n))) = dot n k' ^ 2 := by
      rw [hpar, dot_self, nsq_tri n k' hn, hu]; ring
    have hk'0 : dot n k' ≠ 0 := by
      intro h; rw [h] at hside; simp at hside
    rw [hsq, if_neg (not_le.2 (by positivity)), Real.sqrt_sq_eq_abs]
    have hsg : sign (dot n k) * |dot n k'| = dot n k' := by
      unfold sign
      rcases lt_trichotomy (dot n k) 0 with h | h | h
      · have : dot n k' < 0 := by nlinarith
        simp [h, abs_of_neg this]
      · exact absurd h hk
      · have : 0 < dot n k' := by nlinarith
        simp [h, not_lt.2 h.le, abs_of_pos this]
    rw [hsg, hpar, ← decomp n k' hn]

/-- **C90** (total reflection). For a unit normal the code TIR means `n₁ sin θ₁ ≥ n₂`. -/
theorem C90_tir (n1 n2 : ℝ) (n k : V3) (hn : nsq n = 1) (h2 : n2 ≠ 0) :
    refract (n1 / n2) n k = none ↔ n2 ^ 2 ≤ n1 ^ 2 * nsq (cross k n) := by
  have : dot (smul (n1 / n2) (cross n (cross k n))) (smul (n1 / n2) (cross n (cross k n)))
      = n1 ^ 2 * nsq (cross k n) / n2 ^ 2 := by
    rw [dot_self, nsq_smul, nsq_tri n k hn, lagrange, hn, mul_one, div_pow]; ring
  unfold refract
  dsimp only
  rw [this]
  have h22 : 0 < n2 ^ 2 := by positivity
  split_ifs with h
  · simp only [true_iff]
    rw [sub_nonpos, le_div_iff₀ h22, one_mul] at h
    exact h
  · simp only [false_iff]
    rw [sub_nonpos, le_div_iff₀ h22, one_mul] at h
    exact h

/-- **C90** (reversible). The ray that leaves a lens surface, sent back, leaves along the ray
that came in. -/
theorem C90_reversible (n1 n2 : ℝ) (n k k' : V3) (hn : nsq n = 1) (hk1 : nsq k = 1)
    (h1 : n1 ≠ 0) (h2 : n2 ≠ 0) (hk : dot n k ≠ 0) (h : refract (n1 / n2) n k = some k') :
    refract (n2 / n1) n (smul (-1) k') = some (smul (-1) k) := by
  obtain ⟨hu, hs, hside⟩ := (C90_snell n1 n2 n k k' hn h2 hk).1 h
  have hneg : ∀ a : V3, dot n (smul (-1) a) = -dot n a := fun a => by
    unfold dot smul; dsimp only; ring
  have hcneg : ∀ a : V3, cross (smul (-1) a) n = smul (-1) (cross a n) := fun a => by
    unfold cross smul; ext <;> dsimp only <;> ring
  have hk'0 : dot n k' ≠ 0 := by
    intro h; rw [h] at hside; simp at hside
  rw [C90_snell n2 n1 n _ _ hn h1 (by rw [hneg]; simpa using hk'0)]
  refine ⟨by rw [nsq_smul, hk1]; norm_num, ?_, ?_⟩
  · rw [hcneg, hcneg]
    have ex := congrArg V3.x hs
    have ey := congrArg V3.y hs
    have ez := congrArg V3.z hs
    unfold smul at *
    dsimp only at *
    ext <;> dsimp only
    · linear_combination ex
    · linear_combination ey
    · linear_combination ez
  · rw [hneg, hneg]; linarith

/-- **C90** (no glass). With the same index on both sides the ray goes straight on. -/
theorem C90_same_index (m : ℝ) (n k : V3) (hn : nsq n = 1) (hk1 : nsq k = 1) (hm : m ≠ 0)
    (hk : dot n k ≠ 0) : refract (m / m) n k = some k := by
  rw [C90_snell m m n k k hn hm hk]
  exact ⟨hk1, rfl, mul_self_pos.2 hk⟩

/-- Hypotheses met by a ray at 0.6 / 0.8 to the normal, from air into glass of index 1.5. -/
example : nsq ⟨0, 0, 1⟩ = 1 ∧ nsq ⟨0.6, 0, 0.8⟩ = 1 ∧ dot ⟨0, 0, 1⟩ ⟨0.6, 0, 0.8⟩ ≠ 0 := by
  unfold nsq dot; norm_num

/-- **C90** (finding). A ray exactly along the surface is let through into the denser glass
with a direction that is not of length 1. -/
theorem C90_grazing (mu : ℝ) (n k : V3) (hn : nsq n = 1) (hk1 : nsq k = 1)
    (hk : dot n k = 0) (hmu : mu ^ 2 < 1) :
    refract mu n k = some (smul mu k) ∧ nsq (smul mu k) ≠ 1 := by
  have hpar : cross n (cross k n) = k := by
    rw [triple n k hn, hk]
    unfold add smul
    ext <;> dsimp only <;> ring
  constructor
  · unfold refract
    dsimp only
    rw [hpar, dot_self, nsq_smul, hk1, hk, if_neg (by push Not; linarith)]
    congr 1
    unfold add smul sign
    ext <;> simp
  · rw [nsq_smul, hk1, mul_one]; exact hmu.ne

example : nsq ⟨0, 0, 1⟩ = 1 ∧ nsq ⟨1, 0, 0⟩ = 1 ∧ dot ⟨0, 0, 1⟩ ⟨1, 0, 0⟩ = 0 ∧
    (1 / 1.5 : ℝ) ^ 2 < 1 := by
  unfold nsq dot; norm_num

/-! ## The switchyard -/

/-- **C90** (switchyard). What each kind of surface does with the ray, except at the last
surface: 0 lens, 1 mirror, 2 retro-reflector, 3 iris, 4 and 5 coordinate breaks. -/
theorem C90_switch (refr : PyStr → Except PyErr ℝ) (S T : Surf) (r : Ray) (c : Code) (r' : Ray)
    (h : redirect refr S (some T) r = .ok (c, r')) :
    r'.pos = r.pos ∧
    ((S.action = 1 ∧ c = .OK ∧ r'.dir = reflect (getNormal S r.pos) r.dir) ∨
     (S.action = 2 ∧ c = .OK ∧ r'.dir = smul (-1) r.dir) ∨
     ((S.action = 3 ∨ S.action = 4 ∨ S.action = 5) ∧ c = .OK ∧ r'.dir = r.dir) ∨
     (S.action = 0 ∧ ∃ n1 n2, refr S.glass = .ok n1 ∧ refr T.glass = .ok n2 ∧
        ((c = .OK ∧ refract (orOne n1 / orOne n2) (getNormal S r.pos) r.dir = some r'.dir) ∨
         (c = .TIR ∧ r' = r ∧ refract (orOne n1 / orOne n2) (getNormal S r.pos) r.dir = none))) ∨
     ((S.action < 0 ∨ 5 < S.action) ∧ c = .UNKNOWN ∧ r' = r)) := by
  unfold redirect at h
  dsimp only at h
  split_ifs at h with h3 h1 h0 h2 h45
  · have := Prod.mk.inj (Except.ok.inj h)
    obtain ⟨rfl, rfl⟩ := this
    exact ⟨rfl, Or.inr (Or.inr (Or.inl ⟨Or.inl h3, rfl, rfl⟩))⟩
  · have := Prod.mk.inj (Except.ok.inj h)
    obtain ⟨rfl, rfl⟩ := this
    exact ⟨rfl, Or.inl ⟨h1, rfl, rfl⟩⟩
  · cases ha : refr S.glass with
    | error e => rw [ha] at h; cases h
    | ok n1 =>
      cases hb : refr T.glass with
      | error e => rw [ha, hb] at h; cases h
      | ok n2 =>
        rw [ha, hb] at h
        dsimp only at h
        cases hr : refract (orOne n1 / orOne n2) (getNormal S r.pos) r.dir with
        | none =>
          rw [hr] at h
          have := Prod.mk.inj (Except.ok.inj h)
          obtain ⟨rfl, rfl⟩ := this
          exact ⟨rfl, Or.inr (Or.inr (Or.inr (Or.inl ⟨h0, n1, n2, rfl, rfl,
            Or.inr ⟨rfl, rfl, hr⟩⟩)))⟩
        | some k =>
          rw [hr] at h
          have := Prod.mk.inj (Except.ok.inj h)
          obtain ⟨rfl, rfl⟩ := this
          exact ⟨rfl, Or.inr (Or.inr (Or.inr (Or.inl ⟨h0, n1, n2, rfl, rfl,
            Or.inl ⟨rfl, hr⟩⟩)))⟩
  · have := Prod.mk.inj (Except.ok.inj h)
    obtain ⟨rfl, rfl⟩ := this
    refine ⟨rfl, Or.inr (Or.inl ⟨h2, rfl, ?_⟩)⟩
    unfold smul
    ext <;> dsimp only <;> ring
  · have := Prod.mk.inj (Except.ok.inj h)
    obtain ⟨rfl, rfl⟩ := this
    exact ⟨rfl, Or.inr (Or.inr (Or.inl ⟨Or.inr h45, rfl, rfl⟩))⟩
  · have := Prod.mk.inj (Except.ok.inj h)
    obtain ⟨rfl, rfl⟩ := this
    refine ⟨rfl, Or.inr (Or.inr (Or.inr (Or.inr ⟨?_, rfl, rfl⟩)))⟩
    omega

/-- **C90** (last surface). At the last surface the ray keeps its direction whatever the
surface is. -/
theorem C90_last (refr : PyStr → Except PyErr ℝ) (S : Surf) (r : Ray) :
    redirect refr S none r = .ok (.OK, r) := rfl

end Verif.Props.RayRedirect
