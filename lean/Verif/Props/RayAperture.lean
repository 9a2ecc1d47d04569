import Verif.Model.RayTrace
import Mathlib.Tactic.LinearCombination
import Mathlib.Tactic.Linarith
import Mathlib.Tactic.FieldSimp
import Mathlib.Tactic.NormNum
import Mathlib.Tactic.Positivity

/-!
# C92: apertures and spiders of the optical surfaces
-/

namespace Verif.Props.RayAperture

open Verif.Py Verif.RayTrace

/-! ## Specification -/

/-- Distance of a local point from the axis of the surface. -/
noncomputable def rad (p : V3) : ℝ := Real.sqrt (p.x ^ 2 + p.y ^ 2)

/-- Direction in degrees, in the frame of the surface, of leg `k` of `n` legs. -/
noncomputable def legAngle (roll : ℝ) (n : Int) (k : ℕ) : ℝ := roll + 360 * k / n

/-- The point is behind the strip of width `w` that starts at the axis in the direction
`angle` (degrees). -/
def UnderStrip (w angle : ℝ) (p : V3) : Prop :=
  |p.x * Real.sin (radians angle) - p.y * Real.cos (radians angle)| < w / 2 ∧
    0 < p.x * Real.cos (radians angle) + p.y * Real.sin (radians angle)

/-- The point is behind one of the legs of the spider. -/
def UnderSpider (S : Surf) (p : V3) : Prop :=
  ∃ k : ℕ, (k : Int) < S.legs ∧ UnderStrip S.legWidth (legAngle S.roll S.legs k) p

/-! ## Legs -/

theorem polar (x y : ℝ) : Real.sqrt (x * x + y * y) * Real.cos (atan2 y x) = x ∧
    Real.sqrt (x * x + y * y) * Real.sin (atan2 y x) = y := by
  have hn : Real.sqrt (x * x + y * y) = ‖(⟨x, y⟩ : ℂ)‖ := by
    rw [Complex.norm_def, Complex.normSq_mk]
  rw [hn]
  unfold atan2
  exact ⟨Complex.norm_mul_cos_arg _, Complex.norm_mul_sin_arg _⟩

theorem legHit_iff (n : Int) (half roll : ℝ) (p : V3) (k : ℕ) :
    legHit n half roll (degrees (atan2 p.y p.x)) (Real.sqrt (p.x * p.x + p.y * p.y)) k = true ↔
      UnderStrip (2 * half) (legAngle roll n k) p := by
  have hpi := Real.pi_ne_zero
  have hang : radians ((k : ℝ) * 360 / (n : ℝ) + roll - degrees (atan2 p.y p.x))
      = radians (legAngle roll n k) - atan2 p.y p.x := by
    unfold radians degrees legAngle
    field_simp
    ring
  obtain ⟨h1, h2⟩ := polar p.x p.y
  have hs : Real.sqrt (p.x * p.x + p.y * p.y) *
      Real.sin (radians (legAngle roll n k) - atan2 p.y p.x) =
      p.x * Real.sin (radians (legAngle roll n k)) - p.y * Real.cos (radians (legAngle roll n k)) := by
    rw [Real.sin_sub]
    linear_combination Real.sin (radians (legAngle roll n k)) * h1 -
      Real.cos (radians (legAngle roll n k)) * h2
  have hc : Real.sqrt (p.x * p.x + p.y * p.y) *
      Real.cos (radians (legAngle roll n k) - atan2 p.y p.x) =
      p.x * Real.cos (radians (legAngle roll n k)) + p.y * Real.sin (radians (legAngle roll n k)) := by
    rw [Real.cos_sub]
    linear_combination Real.cos (radians (legAngle roll n k)) * h1 +
      Real.sin (radians (legAngle roll n k)) * h2
  unfold legHit UnderStrip
  simp only [decide_eq_true_eq]
  rw [hang, hs, hc, show 2 * half / 2 = half by ring]

/-- The spider test of the code. -/
theorem spider_iff (S : Surf) (p : V3) :
    (List.range S.legs.toNat).any (legHit S.legs (0.5 * S.legWidth) S.roll
      (degrees (atan2 p.y p.x)) (Real.sqrt (p.x * p.x + p.y * p.y))) = true ↔ UnderSpider S p := by
  rw [List.any_eq_true]
  unfold UnderSpider
  constructor
  · rintro ⟨k, hk, h⟩
    rw [List.mem_range] at hk
    refine ⟨k, by omega, ?_⟩
    have := (legHit_iff _ _ _ _ _).1 h
    rwa [show 2 * (0.5 * S.legWidth) = S.legWidth by ring] at this
  · rintro ⟨k, hk, h⟩
    refine ⟨k, List.mem_range.2 (by omega), ?_⟩
    rw [legHit_iff, show 2 * (0.5 * S.legWidth) = S.legWidth by ring]
    exact h

theorem no_spider (S : Surf) (p : V3) (h : S.legs < 1 ∨ 0.5 * S.legWidth ≤ 0) :
    ¬ UnderSpider S p := by
  rintro ⟨k, hk, hs, _⟩
  rcases h with h | h
  · omega
  · have := abs_nonneg (p.x * Real.sin (radians (legAngle S.roll S.legs k)) -
      p.y * Real.cos (radians (legAngle S.roll S.legs k)))
    have h5 : (0.5 : ℝ) = 1 / 2 := by norm_num
    rw [h5] at h
    linarith

/-- **C92** (passes). A ray passes the aperture of a surface exactly when it is within the
outer diameter (if one is given), not within the inner one, and behind no leg of the
spider. -/
theorem C92_passes (S : Surf) (p : V3) :
    validate S p = .OK ↔
      (0 < S.odiam → rad p ≤ S.odiam / 2) ∧ S.idiam / 2 ≤ rad p ∧ ¬ UnderSpider S p := by
  have hr : Real.sqrt (p.x * p.x + p.y * p.y) = rad p := by
    unfold rad; congr 1; ring
  have h5 : (0.5 : ℝ) = 1 / 2 := by norm_num
  unfold validate
  dsimp only
  split_ifs with h1 h2 h3 h4
  · simp only [false_iff, not_and]
    intro h
    rw [hr, h5] at h1
    have := h h1.1
    linarith [h1.2]
  · simp only [false_iff, not_and]
    intro _ h
    rw [hr, h5] at h2
    linarith
  · simp only [true_iff]
    rw [hr, h5] at h1 h2
    refine ⟨fun h => ?_, by linarith, no_spider S p h3⟩
    by_contra hc
    exact h1 ⟨h, by linarith⟩
  · simp only [false_iff, not_and, not_not]
    intro _ _
    exact (spider_iff S p).1 h4
  · simp only [true_iff]
    have h6 := fun h => h4 ((spider_iff S p).2 h)
    rw [hr, h5] at h1 h2
    refine ⟨fun h => ?_, by linarith, h6⟩
    by_contra hc
    exact h1 ⟨h, by linarith⟩

/-- **C92** (codes). The code tells why a ray was stopped: outer diameter first, then inner
diameter, then spider; there is no other code. -/
theorem C92_codes (S : Surf) (p : V3) :
    (validate S p = .ODIAM ↔ 0 < S.odiam ∧ S.odiam / 2 < rad p) ∧
    (validate S p = .IDIAM ↔ ¬ (0 < S.odiam ∧ S.odiam / 2 < rad p) ∧ rad p < S.idiam / 2) ∧
    (validate S p = .SPI ↔ ¬ (0 < S.odiam ∧ S.odiam / 2 < rad p) ∧ ¬ rad p < S.idiam / 2 ∧
      UnderSpider S p) := by
  have hr : Real.sqrt (p.x * p.x + p.y * p.y) = rad p := by
    unfold rad; congr 1; ring
  have ho : (0.5 : ℝ) * S.odiam = S.odiam / 2 := by ring
  have hi : (0.5 : ℝ) * S.idiam = S.idiam / 2 := by ring
  have hsp := spider_iff S p
  have hno := no_spider S p
  unfold validate
  dsimp only
  rw [hr] at hsp
  rw [hr, ho, hi]
  split_ifs with h1 h2 h3 h4
  · simp [h1]
  · simp [h1, h2]
  · simp [h1, hno h3, not_lt.1 h2]
  · simp [h1, h2, hsp.1 h4]
  · have h6 : ¬ UnderSpider S p := fun h => h4 (hsp.2 h)
    simp [h1, h6, not_lt.1 h2]

/-- A surface with a spider and nothing else. -/
def withSpider (n : Int) (w roll : ℝ) : Surf :=
  { action := 3, odiam := 0, idiam := 0, curve := 0, asph := 0, vertex := ⟨0, 0, 0⟩, tilt := 0
    pitch := 0, roll := roll, hasPoly := false, poly := [], legs := n, legWidth := w, glass := [] }

/-- **C92** (symmetric). The legs are evenly spaced: with `n` legs, leg `k + 1` is leg `k` turned
by `360 / n` degrees, and leg `n` would be leg 0 turned by a full turn. -/
theorem C92_even (roll : ℝ) (n : Int) (hn : 0 < n) (k : ℕ) :
    legAngle roll n (k + 1) = legAngle roll n k + 360 / n ∧
      legAngle roll n n.toNat = legAngle roll n 0 + 360 := by
  have hn' : (n : ℝ) ≠ 0 := by exact_mod_cast hn.ne'
  have ht : ((n.toNat : ℕ) : ℝ) = (n : ℝ) := by
    have : ((n.toNat : ℕ) : Int) = n := Int.toNat_of_nonneg hn.le
    exact_mod_cast congrArg (Int.cast : Int → ℝ) this
  unfold legAngle
  constructor
  · push_cast; field_simp; ring
  · rw [ht]; push_cast; field_simp; ring

/-- **C92** (finding). The roll of a surface turns its spider twice: once through the frame of
the surface and once more in the test.  The leg that the table puts at `roll` degrees stops the
rays that arrive at `2 roll` degrees in the lab. -/
theorem C92_double_roll (n : Int) (hn : 0 < n) (w roll R : ℝ) (hw : 0 < w) (hR : 0 < R) (k : V3) :
    validate (withSpider n w roll) (labtovx (withSpider n w roll)
      ⟨⟨R * Real.cos (radians (2 * roll)), R * Real.sin (radians (2 * roll)), 0⟩, k⟩).pos = .SPI := by
  have h := (C92_codes (withSpider n w roll) (labtovx (withSpider n w roll)
      ⟨⟨R * Real.cos (radians (2 * roll)), R * Real.sin (radians (2 * roll)), 0⟩, k⟩).pos).2.2
  rw [h]
  have hroll : radians (2 * roll) = 2 * radians roll := by unfold radians; ring
  have hc := Real.sin_sq_add_cos_sq (radians roll)
  have hx : (labtovx (withSpider n w roll)
      ⟨⟨R * Real.cos (radians (2 * roll)), R * Real.sin (radians (2 * roll)), 0⟩, k⟩).pos.x
      = R * Real.cos (radians roll) := by
    unfold labtovx withSpider Surf.E euler M3.tmul
    dsimp only
    rw [hroll, Real.cos_two_mul, Real.sin_two_mul]
    have h0 : radians 0 = 0 := by unfold radians; ring
    rw [h0, Real.cos_zero, Real.sin_zero]
    linear_combination (2 * R * Real.cos (radians roll)) * hc
  have hy : (labtovx (withSpider n w roll)
      ⟨⟨R * Real.cos (radians (2 * roll)), R * Real.sin (radians (2 * roll)), 0⟩, k⟩).pos.y
      = R * Real.sin (radians roll) := by
    unfold labtovx withSpider Surf.E euler M3.tmul
    dsimp only
    rw [hroll, Real.cos_two_mul, Real.sin_two_mul]
    have h0 : radians 0 = 0 := by unfold radians; ring
    rw [h0, Real.cos_zero, Real.sin_zero]
    ring
  refine ⟨by simp [withSpider], ?_, 0, by simpa [withSpider] using hn, ?_, ?_⟩
  · have : 0 ≤ rad (labtovx (withSpider n w roll)
      ⟨⟨R * Real.cos (radians (2 * roll)), R * Real.sin (radians (2 * roll)), 0⟩, k⟩).pos :=
      Real.sqrt_nonneg _
    simpa [withSpider] using this
  · rw [hx, hy]
    have hl : legAngle (withSpider n w roll).roll (withSpider n w roll).legs 0 = roll := by
      unfold legAngle withSpider; simp
    rw [hl, show R * Real.cos (radians roll) * Real.sin (radians roll) -
      R * Real.sin (radians roll) * Real.cos (radians roll) = 0 by ring, abs_zero]
    simpa [withSpider] using hw
  · rw [hx, hy]
    have hl : legAngle (withSpider n w roll).roll (withSpider n w roll).legs 0 = roll := by
      unfold legAngle withSpider; simp
    rw [hl, show R * Real.cos (radians roll) * Real.cos (radians roll) +
      R * Real.sin (radians roll) * Real.sin (radians roll) = R by linear_combination R * hc]
    exact hR

/-- Hypotheses met: four legs of width 10 at 20 degrees, a ray at radius 100. -/
example : (0 : Int) < 4 ∧ (0 : ℝ) < 10 ∧ (0 : ℝ) < 100 := by norm_num

end Verif.Props.RayAperture
