import Verif.Props.RayRedirect
import Verif.Props.RayConic
import Mathlib.Topology.Order.IntermediateValue
import Mathlib.Topology.MetricSpace.Lipschitz
import Mathlib.Tactic.Rify

/-!
# C95: aspheric surfaces, Newton's method

A surface with polynomial terms is met by Newton's method with a slope from two points, started
at the point of the conic.
-/

namespace Verif.Props.RayNewton

open Verif.Py Verif.RayTrace
open Verif.Props.RayRedirect (sag C90_sag)

/-! ## Specification -/

/-- Height of the surface (conic and polynomial) at the point of the ray at distance `d`. -/
noncomputable def height (S : Surf) (r : Ray) (d : ℝ) : ℝ :=
  sag S.curve S.asph S.poly (along r d).x (along r d).y

/-- Height of the surface over the point of the ray at distance `d`: zero on the surface. -/
noncomputable def over (S : Surf) (r : Ray) (d : ℝ) : ℝ := height S r d - (along r d).z

/-- Along the ray, from `-ρ` to `ρ`, the surface has heights and these change by at most `ε` per
length, less than a third of the change of the height of the ray itself; and `ρ` leaves room for
the distance to be covered. -/
structure Gentle (S : Surf) (r : Ray) (ε ρ : ℝ) : Prop where
  inside : ∀ d, |d| ≤ ρ → 0 ≤ 1 - (1 + S.asph) * S.curve ^ 2 *
    ((along r d).x ^ 2 + (along r d).y ^ 2)
  flat : ∀ d e, |d| ≤ ρ → |e| ≤ ρ → |height S r d - height S r e| ≤ ε * |d - e|
  steep : 3 * ε < |r.dir.z|
  room : |over S r 0| / (|r.dir.z| - 3 * ε) + 0.00001 ≤ ρ

/-- Factor by which each step reduces the residual. -/
noncomputable def rate (r : Ray) (ε : ℝ) : ℝ := 2 * ε / (|r.dir.z| - ε)

/-! ## One step -/

theorem func_eq (S : Surf) (r : Ray) (d : ℝ) (h : 0 ≤ 1 - (1 + S.asph) * S.curve ^ 2 *
    ((along r d).x ^ 2 + (along r d).y ^ 2)) : func S r d = some (over S r d) := by
  obtain ⟨z, hz⟩ : ∃ z, zConic S (along r d).x (along r d).y = some z := by
    unfold zConic
    dsimp only
    rw [if_neg]
    · exact ⟨_, rfl⟩
    · push Not
      rw [show (S.asph + 1) * S.curve * S.curve * ((along r d).x * (along r d).x +
        (along r d).y * (along r d).y) = (1 + S.asph) * S.curve ^ 2 *
        ((along r d).x ^ 2 + (along r d).y ^ 2) by ring]
      exact h
  have hs := ((C90_sag S _ _ z).1 hz).2
  unfold func
  dsimp only
  rw [hz]
  dsimp only
  rw [hs]
  unfold over height along
  dsimp only
  congr 1
  ring

theorem over_eq (S : Surf) (r : Ray) (d : ℝ) :
    over S r d = height S r d - r.pos.z - r.dir.z * d := by
  unfold over along
  dsimp only
  ring

section step
variable {S : Surf} {r : Ray} {ε ρ : ℝ} (G : Gentle S r ε ρ)
include G

theorem eps_nonneg : 0 ≤ ε := by
  have hρ : 0 < ρ := by
    have h1 := G.room
    have h2 : 0 ≤ |over S r 0| / (|r.dir.z| - 3 * ε) :=
      div_nonneg (abs_nonneg _) (by linarith [G.steep])
    norm_num at h1
    linarith
  have h := G.flat ρ 0 (by rw [abs_of_pos hρ]) (by rw [abs_zero]; exact hρ.le)
  rw [sub_zero, abs_of_pos hρ] at h
  have h0 := (abs_nonneg (height S r ρ - height S r 0)).trans h
  by_contra hc
  push Not at hc
  nlinarith

theorem slope_close (d : ℝ) (hd : |d| + 0.00001 ≤ ρ) :
    |RayTrace.deriv S r d + r.dir.z| ≤ ε := by
  have h1 : |d + 0.00001| ≤ ρ := (abs_add_le _ _).trans (by
    rw [abs_of_pos (show (0:ℝ) < 0.00001 by norm_num)]; exact hd)
  have h2 : |d - 0.00001| ≤ ρ := (abs_sub _ _).trans (by
    rw [abs_of_pos (show (0:ℝ) < 0.00001 by norm_num)]; exact hd)
  have e : RayTrace.deriv S r d + r.dir.z
      = (height S r (d + 0.00001) - height S r (d - 0.00001)) / (2 * 0.00001) := by
    unfold RayTrace.deriv
    dsimp only
    rw [func_eq S r _ (G.inside _ h1), func_eq S r _ (G.inside _ h2), Option.getD_some,
      Option.getD_some, over_eq, over_eq]
    field_simp
    ring
  rw [e, abs_div, div_le_iff₀ (by norm_num)]
  have h := G.flat _ _ h1 h2
  have hdd : d + 0.00001 - (d - 0.00001) = 2 * 0.00001 := by ring
  rw [hdd] at h
  exact h

theorem slope_big (d : ℝ) (hd : |d| + 0.00001 ≤ ρ) :
    |r.dir.z| - ε ≤ |RayTrace.deriv S r d| := by
  have h := slope_close G d hd
  have h2 : |r.dir.z| ≤ |RayTrace.deriv S r d + r.dir.z| + |RayTrace.deriv S r d| := by
    have := abs_sub (RayTrace.deriv S r d + r.dir.z) (RayTrace.deriv S r d)
    rwa [add_sub_cancel_left] at this
  linarith

/-- The set in which the iterates stay. -/
def Within (S : Surf) (r : Ray) (ε R d : ℝ) : Prop :=
  |d| + |over S r d| / (|r.dir.z| - 3 * ε) ≤ R

theorem step (R : ℝ) (hR : R + 0.00001 ≤ ρ) (d : ℝ) (hd : Within S r ε R d) :
    RayTrace.deriv S r d ≠ 0 ∧
    |over S r (d - over S r d / RayTrace.deriv S r d)| ≤ rate r ε * |over S r d| ∧
    Within S r ε R (d - over S r d / RayTrace.deriv S r d) := by
  have hst := G.steep
  have he := eps_nonneg G
  have hw3 : 0 < |r.dir.z| - 3 * ε := by linarith
  have hw1 : 0 < |r.dir.z| - ε := by linarith
  have hfd : 0 ≤ |over S r d| / (|r.dir.z| - 3 * ε) := div_nonneg (abs_nonneg _) hw3.le
  have hdρ : |d| + 0.00001 ≤ ρ := by unfold Within at hd; linarith
  have hb := slope_big G d hdρ
  have hc := slope_close G d hdρ
  set m := RayTrace.deriv S r d with hm
  set f := over S r d with hf
  have hm0 : m ≠ 0 := by
    intro h; rw [h, abs_zero] at hb; linarith
  have hs : |f / m| ≤ |f| / (|r.dir.z| - ε) := by
    rw [abs_div]
    exact div_le_div_of_nonneg_left (abs_nonneg _) hw1 hb
  have key : |f| / (|r.dir.z| - ε) + 2 * ε / (|r.dir.z| - ε) * |f| / (|r.dir.z| - 3 * ε)
      = |f| / (|r.dir.z| - 3 * ε) := by
    have h1 := hw1.ne'
    have h3 := hw3.ne'
    have h2 : 2 * ε = (|r.dir.z| - ε) - (|r.dir.z| - 3 * ε) := by ring
    rw [h2]
    generalize |r.dir.z| - ε = a at h1
    generalize |r.dir.z| - 3 * ε = b at h3
    field_simp
    ring
  have hnn : 0 ≤ 2 * ε / (|r.dir.z| - ε) * |f| / (|r.dir.z| - 3 * ε) := by positivity
  have hd'R : |d - f / m| ≤ R := by
    have h1 := abs_sub d (f / m)
    unfold Within at hd
    rw [← hf] at hd
    linarith
  have hd' : |d - f / m| ≤ ρ := by linarith
  have hdd : |d| ≤ ρ := by linarith
  have hres : |over S r (d - f / m)| ≤ 2 * ε * |f / m| := by
    have e : over S r (d - f / m) = (m + r.dir.z) * (f / m)
        + (height S r (d - f / m) - height S r d) := by
      have h1 : (m + r.dir.z) * (f / m) = f + r.dir.z * (f / m) := by field_simp
      rw [h1, hf, over_eq, over_eq]
      ring
    rw [e]
    refine (abs_add_le _ _).trans ?_
    have h2 := G.flat _ _ hd' hdd
    rw [show d - f / m - d = -(f / m) by ring, abs_neg] at h2
    rw [abs_mul]
    have h3 := mul_le_mul_of_nonneg_right hc (abs_nonneg (f / m))
    linarith
  have hres' : |over S r (d - f / m)| ≤ rate r ε * |f| := by
    refine hres.trans ?_
    unfold rate
    have := mul_le_mul_of_nonneg_left hs (show 0 ≤ 2 * ε by linarith)
    refine this.trans (le_of_eq ?_)
    ring
  refine ⟨hm0, hres', ?_⟩
  unfold Within at hd ⊢
  rw [← hf] at hd
  have h1 := abs_sub d (f / m)
  have h2 : |over S r (d - f / m)| / (|r.dir.z| - 3 * ε)
      ≤ 2 * ε / (|r.dir.z| - ε) * |f| / (|r.dir.z| - 3 * ε) :=
    div_le_div_of_nonneg_right hres' hw3.le
  linarith

theorem rate_lt : 0 ≤ rate r ε ∧ rate r ε < 1 := by
  have hst := G.steep
  have he := eps_nonneg G
  unfold rate
  have hw1 : 0 < |r.dir.z| - ε := by linarith
  constructor
  · positivity
  · rw [div_lt_one hw1]; linarith

theorem newton_ok (R : ℝ) (hR : R + 0.00001 ≤ ρ) : ∀ (n : ℕ) (d : ℝ), Within S r ε R d →
    ∃ d', newton S r n d = .ok (some d') ∧ Within S r ε R d' ∧
      |over S r d'| ≤ max (rate r ε * 1e-12) (rate r ε ^ (n + 1) * |over S r d|) := by
  have hw3 : 0 < |r.dir.z| - 3 * ε := by linarith [G.steep]
  have hr := rate_lt G
  have hin : ∀ d, Within S r ε R d → func S r d = some (over S r d) := by
    intro d hd
    apply func_eq S r d (G.inside d _)
    unfold Within at hd
    have : 0 ≤ |over S r d| / (|r.dir.z| - 3 * ε) := div_nonneg (abs_nonneg _) hw3.le
    norm_num at hR
    linarith
  intro n
  induction n with
  | zero =>
    intro d hd
    obtain ⟨h0, h1, h2⟩ := step G R hR d hd
    refine ⟨_, ?_, h2, ?_⟩
    · unfold newton
      rw [hin d hd]
      dsimp only
      rw [if_neg h0, ite_self]
    · exact h1.trans (by rw [zero_add, pow_one]; exact le_max_right _ _)
  | succ n ih =>
    intro d hd
    obtain ⟨h0, h1, h2⟩ := step G R hR d hd
    by_cases hs : |over S r d| < 1e-12
    · refine ⟨_, ?_, h2, ?_⟩
      · unfold newton
        rw [hin d hd]
        dsimp only
        rw [if_neg h0, if_pos hs]
      · exact h1.trans ((mul_le_mul_of_nonneg_left hs.le hr.1).trans (le_max_left _ _))
    · obtain ⟨d', e1, e2, e3⟩ := ih _ h2
      refine ⟨d', ?_, e2, e3.trans (max_le_max le_rfl ?_)⟩
      · rw [newton, hin d hd]
        dsimp only
        rw [if_neg h0, if_neg hs, e1]
      · rw [pow_succ (rate r ε) (n + 1), mul_assoc]
        exact mul_le_mul_of_nonneg_left h1 (pow_nonneg hr.1 _)

/-- The residual tells the distance to a crossing. -/
theorem residual_distance (d e : ℝ) (hd : |d| ≤ ρ) (he : |e| ≤ ρ) :
    (|r.dir.z| - ε) * |d - e| ≤ |over S r d - over S r e| := by
  have h := G.flat d e hd he
  have h1 : over S r d - over S r e = (height S r d - height S r e) - r.dir.z * (d - e) := by
    rw [over_eq, over_eq]; ring
  rw [h1]
  have h2 := abs_sub (height S r d - height S r e - r.dir.z * (d - e)) (height S r d - height S r e)
  rw [show height S r d - height S r e - r.dir.z * (d - e) - (height S r d - height S r e)
    = -(r.dir.z * (d - e)) by ring, abs_neg, abs_mul] at h2
  nlinarith [abs_nonneg (d - e)]

theorem crossing_exists : ∃ d, |d| ≤ |over S r 0| / (|r.dir.z| - 3 * ε) ∧ over S r d = 0 := by
  have hst := G.steep
  have he := eps_nonneg G
  have hw3 : 0 < |r.dir.z| - 3 * ε := by linarith
  set R := |over S r 0| / (|r.dir.z| - 3 * ε) with hRdef
  have hR0 : 0 ≤ R := div_nonneg (abs_nonneg _) hw3.le
  have hRρ : R ≤ ρ := by have := G.room; norm_num at this; linarith
  have hf0 : |over S r 0| = R * (|r.dir.z| - 3 * ε) := by rw [hRdef]; field_simp
  have hcont : ContinuousOn (over S r) (Set.uIcc (-R) R) := by
    have hL : LipschitzOnWith (Real.toNNReal (ε + |r.dir.z|)) (over S r) (Set.uIcc (-R) R) := by
      apply LipschitzOnWith.of_dist_le_mul
      intro x hx y hy
      rw [Set.uIcc_of_le (by linarith)] at hx hy
      have hx' : |x| ≤ ρ := (abs_le.2 hx).trans hRρ
      have hy' : |y| ≤ ρ := (abs_le.2 hy).trans hRρ
      rw [Real.dist_eq, Real.dist_eq, Real.coe_toNNReal _ (by positivity)]
      have h1 : over S r x - over S r y = (height S r x - height S r y) + -(r.dir.z * (x - y)) := by
        rw [over_eq, over_eq]; ring
      rw [h1]
      refine (abs_add_le _ _).trans ?_
      rw [abs_neg, abs_mul]
      linarith [G.flat x y hx' hy']
    exact hL.continuousOn
  have hend : ∀ e, |e| = R → |over S r e - over S r 0 + r.dir.z * e| ≤ ε * R := by
    intro e hee
    have h := G.flat e 0 (by rw [hee]; exact hRρ) (by rw [abs_zero]; linarith)
    have h1 : over S r e - over S r 0 + r.dir.z * e = height S r e - height S r 0 := by
      rw [over_eq, over_eq]; ring
    rw [h1]
    rwa [sub_zero, hee] at h
  have hp := hend R (abs_of_nonneg hR0)
  have hn := hend (-R) (by rw [abs_neg, abs_of_nonneg hR0])
  have hp' := abs_le.1 hp
  have hn' := abs_le.1 hn
  have h0' := abs_le.1 hf0.le
  have hεR : 0 ≤ ε * R := mul_nonneg he hR0
  have hiv := intermediate_value_uIcc hcont
  have hmem : (0 : ℝ) ∈ Set.uIcc (over S r (-R)) (over S r R) := by
    rw [Set.mem_uIcc]
    rcases le_total 0 r.dir.z with hz | hz
    · right
      rw [abs_of_nonneg hz] at h0'
      constructor <;> nlinarith
    · left
      rw [abs_of_nonpos hz] at h0'
      constructor <;> nlinarith
  obtain ⟨d, hd, hd0⟩ := hiv hmem
  rw [Set.uIcc_of_le (by linarith)] at hd
  exact ⟨d, abs_le.2 hd, hd0⟩

end step

/-- **C95** (Newton). If the height of the surface along the ray changes less than a third as fast
as that of the ray, then there is exactly one crossing in the range, Newton's method never divides
by zero, and the point it returns is at the crossing up to the given bound: the residual is reduced
by the factor `rate < 1` in each step, until it is below `1e-12` or nine steps are done. -/
theorem C95_converges (S : Surf) (r : Ray) (ε ρ : ℝ) (G : Gentle S r ε ρ) :
    0 ≤ rate r ε ∧ rate r ε < 1 ∧
    ∃ d e, newton S r 8 0 = .ok (some d) ∧ over S r e = 0 ∧ |e| ≤ ρ ∧
      (∀ e', |e'| ≤ ρ → over S r e' = 0 → e' = e) ∧
      |over S r d| ≤ max (rate r ε * 1e-12) (rate r ε ^ 9 * |over S r 0|) ∧
      |d - e| ≤ max (rate r ε * 1e-12) (rate r ε ^ 9 * |over S r 0|) / (|r.dir.z| - ε) := by
  have hst := G.steep
  have he := eps_nonneg G
  have hw1 : 0 < |r.dir.z| - ε := by linarith
  have hw3 : 0 < |r.dir.z| - 3 * ε := by linarith
  obtain ⟨hr0, hr1⟩ := rate_lt G
  have hroom := G.room
  have hW : Within S r ε (|over S r 0| / (|r.dir.z| - 3 * ε)) 0 := by
    unfold Within; rw [abs_zero, zero_add]
  obtain ⟨d, hd, hWd, hres⟩ := newton_ok G _ hroom 8 0 hW
  obtain ⟨e, heR, he0⟩ := crossing_exists G
  have hρ : |e| ≤ ρ := by norm_num at hroom; linarith
  have hdρ : |d| ≤ ρ := by
    unfold Within at hWd
    have : 0 ≤ |over S r d| / (|r.dir.z| - 3 * ε) := div_nonneg (abs_nonneg _) hw3.le
    norm_num at hroom
    linarith
  refine ⟨hr0, hr1, d, e, hd, he0, hρ, ?_, hres, ?_⟩
  · intro e' he' h0'
    have h := residual_distance G e' e he' hρ
    rw [h0', he0, sub_zero, abs_zero] at h
    have h1 : |e' - e| ≤ 0 := by
      by_contra hc
      push Not at hc
      nlinarith
    have h2 := abs_eq_zero.1 (le_antisymm h1 (abs_nonneg _))
    linarith
  · rw [le_div_iff₀ hw1, mul_comm]
    have h := residual_distance G d e hdρ hρ
    rw [he0, sub_zero] at h
    exact h.trans hres

/-- **C95** (aspheric surface). From a conic intercept at `r₀` with such a surface, the ray passes
with unchanged direction, and its point is on the straight line and on the surface up to the
bound. -/
theorem C95_asphere (S : Surf) (r r₀ : Ray) (hp : S.hasPoly = true) (ε ρ : ℝ)
    (hc : conicIntercept S r = (.OK, r₀)) (G : Gentle S r₀ ε ρ) :
    ∃ r', intercept S r = .ok (.OK, r') ∧ r'.dir = r₀.dir ∧
      (∃ d, r'.pos = along r₀ d) ∧
      |r'.pos.z - sag S.curve S.asph S.poly r'.pos.x r'.pos.y| ≤
        max (rate r₀ ε * 1e-12) (rate r₀ ε ^ 9 * |over S r₀ 0|) := by
  obtain ⟨-, -, d, e, hn, -, -, -, hres, -⟩ := C95_converges S r₀ ε ρ G
  refine ⟨⟨along r₀ d, r₀.dir⟩, ?_, rfl, ⟨d, rfl⟩, ?_⟩
  · unfold intercept higherIntercept
    rw [if_pos hp, hc]
    dsimp only
    rw [hn]
  · rw [abs_sub_comm]
    exact hres

/-- **C95** (already there). If the conic intercept is on the surface with polynomial it is
kept, whatever the slope (unless the slope of the code is exactly zero). -/
theorem C95_stays (S : Surf) (r r₀ : Ray) (hp : S.hasPoly = true)
    (hc : conicIntercept S r = (.OK, r₀)) (h0 : 0 ≤ 1 - (1 + S.asph) * S.curve ^ 2 *
      (r₀.pos.x ^ 2 + r₀.pos.y ^ 2))
    (hs : r₀.pos.z = sag S.curve S.asph S.poly r₀.pos.x r₀.pos.y)
    (hd : RayTrace.deriv S r₀ 0 ≠ 0) : intercept S r = .ok (.OK, r₀) := by
  have ha : along r₀ 0 = r₀.pos := by
    unfold along; ext <;> dsimp only <;> ring
  have hf : func S r₀ 0 = some 0 := by
    rw [func_eq S r₀ 0 (by rw [ha]; exact h0)]
    unfold over height
    rw [ha, ← hs, sub_self]
  unfold intercept higherIntercept
  rw [if_pos hp, hc]
  dsimp only
  unfold newton
  rw [hf]
  dsimp only
  rw [if_neg hd, zero_div, sub_zero, abs_zero, if_pos (by norm_num)]
  dsimp only
  rw [ha]

/-! ## The hypotheses can be met -/

/-- A cone of slope 0.1 met by an oblique ray. -/
noncomputable def cone : Surf :=
  { action := 0, odiam := 0, idiam := 0, curve := 0, asph := 0, vertex := ⟨0, 0, 0⟩, tilt := 0
    pitch := 0, roll := 0, hasPoly := true, poly := [0.1], legs := 0, legWidth := 0, glass := [] }

theorem cone_height (x u w d : ℝ) : height cone ⟨⟨x, 0, 0⟩, ⟨u, 0, w⟩⟩ d = 0.1 * |x + d * u| := by
  unfold height sag cone along
  simp [Real.sqrt_sq_eq_abs, mul_comm]

example : Gentle cone ⟨⟨2, 0, 0⟩, ⟨0.6, 0, -0.8⟩⟩ 0.06 10 := by
  have h2 : |(-0.8 : ℝ)| = 0.8 := by norm_num
  refine ⟨?_, ?_, ?_, ?_⟩
  · intro d _
    norm_num [cone]
  · intro d e _ _
    rw [cone_height, cone_height, ← mul_sub, abs_mul]
    have h := abs_abs_sub_abs_le (2 + d * 0.6 : ℝ) (2 + e * 0.6)
    rw [show (2 + d * 0.6 - (2 + e * 0.6) : ℝ) = 0.6 * (d - e) by ring, abs_mul] at h
    rw [abs_of_pos (show (0:ℝ) < 0.1 by norm_num)]
    rw [abs_of_pos (show (0:ℝ) < 0.6 by norm_num)] at h
    linarith
  · rw [h2]; norm_num
  · have h0 : over cone ⟨⟨2, 0, 0⟩, ⟨0.6, 0, -0.8⟩⟩ 0 = 0.2 := by
      rw [over_eq, cone_height]; norm_num
    rw [h0, h2]
    rw [abs_of_pos (by norm_num)]
    norm_num

/-! ## Rays that never meet the surface -/

/-- The paraboloid `z = x² + y²`, given as a plane with a polynomial. -/
def bowl : Surf :=
  { action := 0, odiam := 0, idiam := 0, curve := 0, asph := 0, vertex := ⟨0, 0, 0⟩, tilt := 0
    pitch := 0, roll := 0, hasPoly := true, poly := [0, 1], legs := 0, legWidth := 0, glass := [] }

/-- A ray in the plane `y = 0` that passes through `(x, 0, 0)`. -/
noncomputable def oblique (x : ℝ) : Ray := ⟨⟨x, 0, 0⟩, ⟨3 / 5, 0, 4 / 5⟩⟩

theorem bowl_over (x d : ℝ) : over bowl (oblique x) d = (x + 3 / 5 * d) ^ 2 - 4 / 5 * d := by
  unfold over height sag bowl along oblique
  simp [Finset.sum_range_succ]
  rw [Real.sq_sqrt (by positivity)]
  ring

theorem bowl_func (x d : ℝ) : func bowl (oblique x) d = some ((x + 3 / 5 * d) ^ 2 - 4 / 5 * d) := by
  rw [func_eq _ _ _ (by norm_num [bowl]), bowl_over]

theorem bowl_deriv (x d : ℝ) :
    RayTrace.deriv bowl (oblique x) d = 6 / 5 * (x + 3 / 5 * d) - 4 / 5 := by
  unfold RayTrace.deriv
  dsimp only
  rw [bowl_func, bowl_func, Option.getD_some, Option.getD_some]
  field_simp
  ring

/-- In terms of `p / q = (9 d + 15) / 20` a step takes `p / q` to `(p² - q²) / (2 p q)`; one of `p`
and `q` is even and the other odd, so the slope, proportional to `p / q`, never vanishes. -/
theorem bowl_newton (n : ℕ) : ∀ (d : ℝ) (p q : ℤ), q ≠ 0 → (p + q) % 2 = 1 → p ≠ 0 →
    (9 * d + 15) * q = 20 * p → ∃ d', newton bowl (oblique (5 / 3)) n d = .ok (some d') := by
  induction n with
  | zero =>
    intro d p q hq hpar hp h
    have hs : RayTrace.deriv bowl (oblique (5 / 3)) d ≠ 0 := by
      rw [bowl_deriv]
      intro h0
      have : 9 * d + 15 = 0 := by linarith
      rw [this, zero_mul] at h
      have : (p : ℝ) = 0 := by linarith
      exact hp (by exact_mod_cast this)
    unfold newton
    rw [bowl_func]
    dsimp only
    rw [if_neg hs, ite_self]
    exact ⟨_, rfl⟩
  | succ n ih =>
    intro d p q hq hpar hp h
    have hq' : (q : ℝ) ≠ 0 := by exact_mod_cast hq
    have hp' : (p : ℝ) ≠ 0 := by exact_mod_cast hp
    have hd : d = (20 * p / q - 15) / 9 := by field_simp; linarith
    have hs : RayTrace.deriv bowl (oblique (5 / 3)) d = 8 / 5 * (p / q) := by
      rw [bowl_deriv, hd]; field_simp; ring
    have hs0 : RayTrace.deriv bowl (oblique (5 / 3)) d ≠ 0 := by
      rw [hs]; positivity
    have hf : ¬ |(5 / 3 + 3 / 5 * d) ^ 2 - 4 / 5 * d| < 1e-12 := by
      push Not
      refine le_trans ?_ (le_abs_self _)
      nlinarith [sq_nonneg (d + 5 / 3)]
    rw [newton, bowl_func]
    dsimp only
    rw [if_neg hs0, if_neg hf]
    refine ih _ (p ^ 2 - q ^ 2) (2 * p * q) (by simp [hp, hq]) ?_ ?_ ?_
    · have h1 : p ^ 2 - q ^ 2 + 2 * p * q = (p + q) ^ 2 - 2 * q ^ 2 := by ring
      rw [h1]
      have : (p + q) ^ 2 % 2 = 1 := by rw [pow_two, Int.mul_emod, hpar]; rfl
      omega
    · intro h0
      have h1 : (p - q) * (p + q) = 0 := by linarith [h0, show (p - q) * (p + q) = p ^ 2 - q ^ 2 by ring]
      rcases mul_eq_zero.1 h1 with h2 | h2 <;> omega
    · rw [hs, hd]
      push_cast
      field_simp
      ring

/-- **C95** (finding). A ray that never meets the surface is reported as passing it, at a point
that is not on the surface: nothing tests whether Newton's method has converged. -/
theorem C95_phantom :
    (∀ d, (along (oblique (5 / 3)) d).z ≠
      (along (oblique (5 / 3)) d).x ^ 2 + (along (oblique (5 / 3)) d).y ^ 2) ∧
    ∃ r', intercept bowl ⟨along (oblique (5 / 3)) (-5), (oblique (5 / 3)).dir⟩ = .ok (.OK, r') ∧
      r'.pos.z ≠ r'.pos.x ^ 2 + r'.pos.y ^ 2 := by
  have hno : ∀ d, (along (oblique (5 / 3)) d).z ≠
      (along (oblique (5 / 3)) d).x ^ 2 + (along (oblique (5 / 3)) d).y ^ 2 := by
    intro d h
    unfold along oblique at h
    dsimp only at h
    nlinarith [sq_nonneg (d + 5 / 3)]
  refine ⟨hno, ?_⟩
  have hc : conicIntercept bowl ⟨along (oblique (5 / 3)) (-5), (oblique (5 / 3)).dir⟩
      = (.OK, oblique (5 / 3)) := by
    rw [RayConic.C89_plane _ _ rfl (by unfold along oblique; norm_num)]
    unfold along oblique
    norm_num
  obtain ⟨d, hd⟩ := bowl_newton 8 0 3 4 (by norm_num) (by norm_num) (by norm_num) (by norm_num)
  refine ⟨⟨along (oblique (5 / 3)) d, (oblique (5 / 3)).dir⟩, ?_, hno d⟩
  unfold intercept higherIntercept
  rw [if_pos (show bowl.hasPoly = true from rfl), hc]
  dsimp only
  rw [hd]

/-- **C95** (finding). A slope of zero is divided by: a ray gets coordinates that are not numbers. -/
theorem C95_zero_slope :
    intercept bowl ⟨along (oblique (2 / 3)) (-5), (oblique (2 / 3)).dir⟩ = .error .nanResult := by
  have hc : conicIntercept bowl ⟨along (oblique (2 / 3)) (-5), (oblique (2 / 3)).dir⟩
      = (.OK, oblique (2 / 3)) := by
    rw [RayConic.C89_plane _ _ rfl (by unfold along oblique; norm_num)]
    unfold along oblique
    norm_num
  unfold intercept higherIntercept
  rw [if_pos (show bowl.hasPoly = true from rfl), hc]
  dsimp only
  unfold newton
  rw [bowl_func]
  dsimp only
  rw [if_pos (by rw [bowl_deriv]; norm_num)]

end Verif.Props.RayNewton
